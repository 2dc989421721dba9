import Verif.Model.Timer
/-! # What a timer measures -/
namespace Verif.Spec.Timer
open Verif.Timer (Op)

/-- Calls that start or stop the timer. -/
def IsControl : Op → Prop
  | .start | .stop | .resume => True
  | _ => False

instance : DecidablePred IsControl := fun o => by cases o <;> unfold IsControl <;> infer_instance

/-- The timer is running during the tick after time `i`: the last control call until then is not `stop` (it is created
running). -/
def runningAt (calls : List (Nat × Op)) (i : Nat) : Bool :=
  ((calls.filter fun c => decide (c.1 ≤ i) && decide (IsControl c.2)).getLast?.map Prod.snd) != some .stop

/-- Time of the last call of `start`, or of creation. -/
def resetTime (t0 : Nat) (calls : List (Nat × Op)) : Nat :=
  ((calls.filter fun c => decide (c.2 = .start)).getLast?.map Prod.fst).getD t0

/-- Number of ticks, from the last reset until now, during which the timer is running. -/
def ticks (t0 : Nat) (calls : List (Nat × Op)) (now : Nat) : Nat :=
  ((List.range now).filter fun i => decide (resetTime t0 calls ≤ i) && runningAt calls i).length

/-- The last control call is `stop`. -/
def Stopped (calls : List (Nat × Op)) : Prop :=
  (calls.filter fun c => decide (IsControl c.2)).getLast?.map Prod.snd = some .stop

/-- Times of the calls do not decrease, from creation on. -/
def InOrder (t0 : Nat) (calls : List (Nat × Op)) : Prop := (t0 :: calls.map Prod.fst).Pairwise (· ≤ ·)

/-- The first `flush` of a stopped timer, at time `τ` after the calls `pre`. -/
def FirstFlush (calls pre : List (Nat × Op)) (τ : Nat) : Prop :=
  (∃ post, calls = pre ++ (τ, .flush) :: post) ∧ Stopped pre ∧
    ∀ p σ q, pre = p ++ (σ, .flush) :: q → ¬ Stopped p

end Verif.Spec.Timer
