import Verif.Model.EntityGeom
import Verif.Model.CellPerm
/-!
# Data for plotting

Model of `vtk_mesh`, `python/dolfinx/plot.py` L25-150, for meshes and for function spaces, with `get_vtk_cell_type`,
`cpp/dolfinx/io/cells.cpp` L717-749.

* `np.argsort` is a stable sort of the indices; the arrays it gets have no equal entries, so that it does not matter which sort is used.
* Meshes have one cell type; the type of the entities is a parameter (`cell_entity_type(cell_type, dim, 0)`).
* Coordinates are returned as they are and are not part of the model.
-/
namespace Verif.VtkPlot
open Verif.Submesh (Geo)
open Verif.Connectivity (CellType)

/-- Exceptions. -/
inductive Err where
  /-- "Plotting of prism meshes not supported" -/
  | prism
  /-- "Can only create meshes from continuous or discontinuous Lagrange" -/
  | family
  /-- "Cannot create topology from cellwise constants." -/
  | constants
  /-- `KeyError` in `_first_order_vtk` -/
  | key
  /-- from `entities_to_geometry` -/
  | geometry
  /-- from `perm_vtk` -/
  | layout
  /-- an index past the end, or rows of another length -/
  | index
  deriving DecidableEq

/-- `np.argsort`. -/
def argsort (p : List Nat) : List Nat := Std.sort (fun i j => decide (p.getD i 0 ≤ p.getD j 0)) (List.range p.length)

/-- `a[:, q]` for one row. -/
def pick (q row : List Nat) : Option (List Nat) := q.mapM fun k => row[k]?

/-- The array `topology` of L82-84 and L146-149: the number of nodes followed by the nodes, for each row, as one flat array.  Rows of another
length do not fit (`numpy` raises an exception). -/
def flat (n : Nat) (q : List Nat) (rows : List (List Nat)) : Except Err (List Nat) :=
  if rows.all fun r => decide (r.length = n) then
    match rows.mapM (pick q) with
    | some l => .ok (l.flatMap fun r => n :: r)
    | none => .error .index
  else .error .index

/-- `get_vtk_cell_type(type, dim)` for `type` of dimension `dim`, `cells.cpp` L727-747. -/
def lagrangeType : CellType → Nat
  | .point => 1
  | .interval => 68
  | .triangle => 69
  | .quadrilateral => 70
  | .tetrahedron => 71
  | .hexahedron => 72
  | .pyramid => 14
  | .prism => 73

/-- `_first_order_vtk`, L25-31. -/
def firstOrder : CellType → Option Nat
  | .interval => some 3
  | .triangle => some 5
  | .quadrilateral => some 9
  | .tetrahedron => some 10
  | .hexahedron => some 12
  | _ => none

/-- The entities: those given, or all that are owned, L72-73 and L133-134. -/
def chosen (owned : Nat) : Option (List Nat) → List Nat
  | some es => es
  | none => List.range owned

/-- `np.argsort(perm_vtk(type, n))`, L78 and L139. -/
def order (type : CellType) (n : Nat) : Except Err (List Nat) :=
  match CellPerm.permVtk type n with
  | .ok p => .ok (argsort p)
  | .error _ => .error .layout

/-- `vtk_mesh(msh, dim, entities)`, L64-90: topology and types.  `n` is the number of columns of the array that `entities_to_geometry`
returns, `wedge` says whether the cells are prisms or pyramids. -/
def ofMesh (wedge : Bool) (type : CellType) (g : Geo) (tdim dim n owned : Nat) (entities : Option (List Nat)) : Except Err (List Nat × List Nat) :=
  if type = .prism then .error .prism
  else match EntityGeom.nodes wedge g tdim dim (chosen owned entities) with
    | .error _ => .error .geometry
    | .ok rows => do
      let q ← order type n
      let t ← flat n q rows
      .ok (t, List.replicate (chosen owned entities).length (lagrangeType type))

/-- The type of the cells for a space of this degree, L141-143. -/
def spaceType (type : CellType) (degree : Nat) : Except Err Nat :=
  if degree = 1 then
    match firstOrder type with
    | some k => .ok k
    | none => .error .key
  else .ok (lagrangeType type)

/-- `vtk_mesh(V, entities)`, L113-150.  `lagrange` says whether the family is in the list, `n` is the number of dofs of a cell (per block), `dofmap`
has the rows of the dof map. -/
def ofSpace (lagrange : Bool) (type : CellType) (degree n owned : Nat) (dofmap : List (List Nat)) (entities : Option (List Nat)) :
    Except Err (List Nat × List Nat) :=
  if lagrange = false then .error .family
  else if degree = 0 then .error .constants
  else do
    let q ← order type n
    let k ← spaceType type degree
    match (chosen owned entities).mapM fun e => dofmap[e]? with
    | none => .error .index
    | some rows => do
      let t ← flat n q rows
      .ok (t, List.replicate (chosen owned entities).length k)

end Verif.VtkPlot
