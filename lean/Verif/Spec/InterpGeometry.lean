import Verif.Model.InterpGeometry
import Verif.Spec.GlobalIndex
import Mathlib.Algebra.BigOperators.Group.Finset.Basic
/-! # Specification: where a geometry has the points of its cells -/
namespace Verif.Spec.InterpGeometry
open Verif.InterpGeometry Verif.World

variable {T : Type} [CommRing T] {R : Type}

/-- Coordinate `k` of the image of reference point `X` under the map of cell `c`: the sum over the nodes of the cell of the basis
function times the coordinate. -/
def pointOf (g : Geometry R T) (c : Nat) (X : R) (k : Nat) : T :=
  ∑ i ∈ Finset.range g.cmap.nodes.length, g.cmap.basis X i * g.x.getD (3 * g.dofmap.getD (c * g.cmap.nodes.length + i) 0 + k) 0

/-- Sizes of a geometry with `n` cells fit. -/
structure GeomOk (g : Geometry R T) (n : Nat) : Prop where
  gdim : g.gdim ≤ 3
  nodes : 0 < g.cmap.nodes.length
  cells : g.dofmap.length = n * g.cmap.nodes.length
  inside : ∀ d ∈ g.dofmap, 3 * d + 3 ≤ g.x.length

/-- Dofs of the cells fit the element and the index map. -/
structure DofsOk (e : Elem R T) (w : World) (q n : Nat) (cellDofs : List (List Nat)) : Prop where
  cells : cellDofs.length = n
  rows : ∀ ds ∈ cellDofs, ds.length = e.nodes.length
  inside : ∀ ds ∈ cellDofs, ∀ d ∈ ds, d < w.size q + (w.ghosts q).length

/-- Cells that share a dof have it at the same point: the mesh has no gaps there. -/
def Conforming (g : Geometry R T) (e : Elem R T) (cellDofs : List (List Nat)) : Prop :=
  ∀ (c c' j j' : Nat) (ds ds' : List Nat) (d : Nat) (X X' : R), cellDofs[c]? = some ds → cellDofs[c']? = some ds' → ds[j]? = some d → ds'[j']? = some d →
    e.nodes[j]? = some X → e.nodes[j']? = some X' → ∀ k, k < g.gdim → pointOf g c X k = pointOf g c' X' k

/-- Basis function `i` of element `e` is one at node `i` and zero at the others. -/
def Nodal (e : Elem R T) : Prop :=
  ∀ (i j : Nat) (X : R), e.nodes[j]? = some X → i < e.nodes.length → e.basis X i = if i = j then 1 else 0

/-- Element `e` contains element `f`: interpolation at the nodes of `e` gives the basis functions of `f` back. -/
def Contains (e f : Elem R T) : Prop :=
  ∀ (X : R) (i : Nat) (v : Nat → T), i < f.nodes.length → (∀ (j : Nat) (Y : R), e.nodes[j]? = some Y → v j = f.basis Y i) →
    f.basis X i = ∑ j ∈ Finset.range e.nodes.length, e.basis X j * v j

/-- Cells of all ranks that share a dof have it at the same point. -/
def ConformingRanks (g : Nat → Geometry R T) (e : Elem R T) (w : World) (cellDofs : Nat → List (List Nat)) : Prop :=
  ∀ (q q' c c' j j' : Nat) (ds ds' : List Nat) (d d' : Nat) (X X' : R), q < w.P → q' < w.P → (cellDofs q)[c]? = some ds → (cellDofs q')[c']? = some ds' →
    ds[j]? = some d → ds'[j']? = some d' → Spec.globalOf w q d = Spec.globalOf w q' d' → e.nodes[j]? = some X → e.nodes[j']? = some X' →
    ∀ k, k < (g q).gdim → pointOf (g q) c X k = pointOf (g q') c' X' k

/-- Node `d` of geometry `g` has coordinates `x`. -/
def At (g : Geometry R T) (d : Nat) (x : Nat → T) : Prop := ∀ k, k < 3 → g.x[3 * d + k]? = some (x k)

end Verif.Spec.InterpGeometry
