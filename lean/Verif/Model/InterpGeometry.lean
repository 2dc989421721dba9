import Verif.Model.LocatePairs
/-!
# Interpolating the geometry of a mesh into another coordinate element

Model of `fem::interpolate_geometry`, `cpp/dolfinx/fem/utils.h` L1070-1123, on one rank; `Geometry`'s constructor and `dofmaps()`,
`cpp/dolfinx/mesh/Geometry.h` L72-93 and L130-142; `tabulate_dof_coordinates` is that of `Model/LocatePairs`.

Simplifications: one cell type; exact arithmetic; `create_functionspace` is given by the dofs of the cells and the index map that it
makes (C42).
-/
namespace Verif.InterpGeometry
open Verif.World Verif.LocPairs

variable {T : Type} [CommRing T] {R : Type}

/-- A `CoordinateElement` with points of the reference cell in `R`: shape of the cell, points of its nodes (the interpolation points
of the Basix element of the same degree and variant), values of its basis functions, and whether this Basix element's dofs are
values at these points. -/
structure Elem (R T : Type) where
  shape : Nat
  nodes : List R
  basis : R → Nat → T
  ident : Bool

/-- `cmap.dim()`. -/
def Elem.dim (e : Elem R T) : Nat := e.nodes.length

/-- `mesh::Geometry`: `_dim`, `_dofmaps`, `_cmaps`, `_x`, `_input_global_indices`. -/
structure Geometry (R T : Type) where
  gdim : Nat
  dofmap : List Nat
  cmap : Elem R T
  x : List T
  igi : List Nat

/-- The constructor, Geometry.h L72-93. -/
def mkGeometry (dofmap : List Nat) (cmap : Elem R T) (x : List T) (gdim : Nat) (igi : List Nat) : Option (Geometry R T) :=
  if x.length % 3 ≠ 0 then none
  else if x.length / 3 ≠ igi.length then none
  else some ⟨gdim, dofmap, cmap, x, igi⟩

/-- A row of `dofmaps().front()`, Geometry.h L130-142. -/
def Geometry.cell (g : Geometry R T) (c : Nat) : List Nat := (g.dofmap.drop (c * g.cmap.dim)).take g.cmap.dim

/-- Number of rows of `dofmaps().front()`. -/
def Geometry.numCells (g : Geometry R T) : Nat := g.dofmap.length / g.cmap.dim

/-- The function space of L1084-1093 as `tabulate_dof_coordinates` sees it. -/
def space (g : Geometry R T) (e : Elem R T) (cellDofs : List (List Nat)) (numDofs : Nat) : Space T where
  isSub := false
  isMixed := false
  ident := e.ident
  npts := e.nodes.length
  cellDofs := cellDofs
  numDofs := numDofs
  gdim := g.gdim
  phi := fun j i => ((e.nodes[j]?).map fun X => g.cmap.basis X i).getD 0
  xdofs := (List.range g.numCells).map g.cell
  xg := g.x

/-- `interpolate_geometry`, utils.h L1070-1123, on rank `q`. -/
def interpolateGeometry (g : Geometry R T) (e : Elem R T) (w : World) (q : Nat) (cellDofs : List (List Nat)) : Option (Geometry R T) :=
  if e.shape ≠ g.cmap.shape then none
  else
    let numNodes := w.size q + (w.ghosts q).length
    (tabulate (space g e cellDofs numNodes) false).bind fun x =>
      ((List.range numNodes).mapM fun i => (w.map q).localToGlobal i).bind fun igi =>
        mkGeometry cellDofs.flatten e x g.gdim igi

end Verif.InterpGeometry
