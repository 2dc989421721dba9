import Mathlib.Data.List.Basic
/-!
# What a list of tagged entities says
-/
namespace Verif.Spec

/-- Entity `e` carries value `v`: they stand at the same place of the two arrays. -/
def TagOf {α V : Type} (ind : List α) (vals : List V) (e : α) (v : V) : Prop :=
  ∃ k : Nat, ind[k]? = some e ∧ vals[k]? = some v

end Verif.Spec
