import Verif.Model.MpiJit
/-! # What callers of a compiler on several ranks rely on -/
namespace Verif.Spec.MpiJit
open Verif.MpiJit

variable {V : Type}

/-- Rank of an event. -/
def rankOf : Event V → Nat
  | .begins r => r
  | .ends r _ => r

/-- The calls of rank `r`. -/
def callsOf (r : Nat) (tr : List (Event V)) : List (Event V) := tr.filter fun e => rankOf e == r

/-- Every rank returns what its own call gave. -/
def AllReturned (P : Nat) (s : St V) : Prop :=
  ∀ r, r < P → ∃ v, s.pc r = .returned (some v) ∧ callsOf r s.trace = [.begins r, .ends r (.ok v)]

/-- Rank 0's call raises an exception: no other rank calls, and all ranks raise `RuntimeError`. -/
def RootRaised (P : Nat) (s : St V) : Prop :=
  s.trace = [.begins 0, .ends 0 .fail] ∧ s.pc 0 = .raised .compilation ∧ ∀ r, r ≠ 0 → r < P → s.pc r = .raised .rankZero

/-- The call of a rank other than 0 raises an exception: all ranks raise `RuntimeError`. -/
def CacheRaised (P : Nat) (s : St V) : Prop :=
  (∃ q, q ≠ 0 ∧ q < P ∧ callsOf q s.trace = [.begins q, .ends q .fail]) ∧ ∀ r, r < P → s.pc r = .raised .cache

/-- No step is possible. -/
def Stuck (P : Nat) (out : Nat → List (Event V) → Outcome V) (s : St V) : Prop := ∀ s', ¬ Step P out s s'

end Verif.Spec.MpiJit
