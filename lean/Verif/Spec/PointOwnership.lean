import Verif.Model.PointOwnership
/-! What `determine_point_ownership` promises, in terms of candidate ranks, candidate cells and distances only. -/
namespace Verif.Spec.PointOwn
open Verif.PointOwn

variable {X K : Type} [LinearOrder K]

/-- Point `x` touches a cell of rank `r`. -/
def Collides (I : Input X K) (r : Nat) (x : X) : Prop := ∃ c ∈ I.cand r x, I.dist r c x < I.tol

/-- `r` is the lowest candidate rank with a cell that the point touches. -/
def LowestColliding (I : Input X K) (q i r : Nat) : Prop :=
  r ∈ I.coll q i ∧ Collides I r (I.point q i) ∧ ∀ r' ∈ I.coll q i, Collides I r' (I.point q i) → r ≤ r'

/-- `r` is the lowest candidate rank whose candidate cells are closest to the point. -/
def LowestClosest (I : Input X K) (q i r : Nat) : Prop :=
  r ∈ I.coll q i ∧ ∃ c ∈ I.cand r (I.point q i), I.dist r c (I.point q i) < I.maxVal ∧
    ∀ r' ∈ I.coll q i, ∀ c' ∈ I.cand r' (I.point q i),
      I.dist r c (I.point q i) ≤ I.dist r' c' (I.point q i) ∧ (r' < r → I.dist r c (I.point q i) < I.dist r' c' (I.point q i))

/-- `c` is the first candidate cell that `x` touches. -/
def FirstTouched (I : Input X K) (r : Nat) (x : X) (c : Nat) : Prop :=
  ∃ l1 l2, I.cand r x = l1 ++ c :: l2 ∧ I.dist r c x < I.tol ∧ ∀ c' ∈ l1, I.tol ≤ I.dist r c' x

/-- `c` is the first among the candidate cells closest to `x`. -/
def FirstClosest (I : Input X K) (r : Nat) (x : X) (c : Nat) : Prop :=
  ∃ l1 l2, I.cand r x = l1 ++ c :: l2 ∧ (∀ c' ∈ l1, I.dist r c x < I.dist r c' x) ∧ ∀ c' ∈ l2, I.dist r c x ≤ I.dist r c' x

/-- Some candidate rank has a cell that the point touches. -/
def Inside (I : Input X K) (q i : Nat) : Prop := ∃ r ∈ I.coll q i, Collides I r (I.point q i)

end Verif.Spec.PointOwn
