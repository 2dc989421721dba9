import Verif.Model.DistThreads
/-! Specification of distances to many bodies. -/
namespace Verif.Spec.DistThreads
open Verif.DistThreads

variable {B E V : Type}

/-- One vector for each body, in the order of the bodies. -/
def IsDistances (dist : B → Except E V) (bodies : List B) (r : List V) : Prop :=
  r.length = bodies.length ∧ ∀ (i : Nat) (b : B), bodies[i]? = some b → ∃ v, r[i]? = some v ∧ dist b = .ok v

/-- The body at this place has no distance. -/
def Fails (dist : B → Except E V) (bodies : List B) (i : Nat) (e : E) : Prop := ∃ b, bodies[i]? = some b ∧ dist b = .error e

/-- All threads run to their end (or the program ends). -/
def Complete (dist : B → Except E V) (zero : V) (bodies : List B) (num : Int) (sched : List Nat) : Prop :=
  finished (numThreads num.toNat bodies.length) bodies.length (trun dist zero bodies (numThreads num.toNat bodies.length) sched)

/-- The number of bodies that the calling thread takes. -/
def share (num : Int) (N : Nat) : Nat := N / numThreads num.toNat N + if 0 < N % numThreads num.toNat N then 1 else 0

end Verif.Spec.DistThreads
