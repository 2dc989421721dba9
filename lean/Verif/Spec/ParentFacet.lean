import Verif.Spec.SimplexMesh
/-! Specification: the facet of the old cell that a facet of a new cell lies on. -/
namespace Verif.Spec.SimplexMesh

/-- Facet `k` of the new cell `t` (opposite to its point `k`) lies on facet `f` of the old cell (opposite to vertex `f`): all its
points are vertices of this facet or midpoints of its edges. -/
def OnFacet (d : Nat) (t : List Nat) (k f : Nat) : Prop := f < d + 1 ∧ ∀ i ∈ t.eraseIdx k, f ∉ ptEnds d i

/-- `x` is the number of the facet that facet `k` of `t` lies on, or -1 if there is none. -/
def FacetOf (d : Nat) (t : List Nat) (k : Nat) (x : Int) : Prop :=
  (∃ f : Nat, x = f ∧ OnFacet d t k f ∧ ∀ f', OnFacet d t k f' → f' = f) ∨ (x = -1 ∧ ∀ f, ¬ OnFacet d t k f)

end Verif.Spec.SimplexMesh
