import Verif.Prelude
/-! # What `mark_maximum` is to give -/
namespace Verif.Spec.MarkMax

variable {K : Type}

/-- Value `v` belongs to entity `i` of rank `r`. -/
def Has (markers : List (List K)) (r i : Nat) (v : K) : Prop := ∃ m, markers[r]? = some m ∧ m[i]? = some v

/-- `v` is a value on some rank. -/
def Somewhere (markers : List (List K)) (v : K) : Prop := ∃ r i, Has markers r i v

end Verif.Spec.MarkMax
