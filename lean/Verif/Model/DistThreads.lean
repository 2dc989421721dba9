import Verif.Model.LocalRange
/-!
# Model: distances to many bodies with several threads

`compute_distances_gjk` (`cpp/dolfinx/geometry/gjk.h` L517-556): the bodies are divided among threads, and each thread computes the distances of
its bodies one after the other.

Simplifications: `compute_distance_gjk` is a function `dist` that gives a vector or throws (see `Model/Gjk`); the three components of a row
are written at once; `results` is the object that is returned (the compiler elides the move; otherwise it would be moved from before the
threads are joined).  The order in which threads run is a list of thread numbers.  Fewer than `2³¹` bodies.
-/
namespace Verif.DistThreads
open Verif.LocalRange

/-- What becomes of a call. -/
inductive Outcome (E V : Type) where
  /-- the distances -/
  | returned (r : List V)
  /-- an exception of the library -/
  | threw (e : E)
  /-- "num_threads must be >= 1." -/
  | badThreads
  /-- `std::terminate`, the whole program ends -/
  | terminated

variable {B E V : Type}

/-- `results`; the number of bodies each thread is done with; the exception in the calling thread; whether an exception has left another thread. -/
structure TState (E V : Type) where
  rows : List V
  done : Nat → Nat
  main : Option E
  aborted : Bool

/-- `max(1, min(num_threads, total_size))`, L527-528. -/
def numThreads (num N : Nat) : Nat := max 1 (min num N)

/-- The next body of thread `t`, L535-536: none if its range is done or if it has been left by an exception. -/
def nextBody (n N : Nat) (s : TState E V) (t : Nat) : Option Nat :=
  if t < n ∧ (localRange t N n).1 + s.done t < (localRange t N n).2 ∧ ¬ (t = 0 ∧ s.main.isSome = true) then
    some ((localRange t N n).1 + s.done t)
  else none

/-- Thread `t` goes on by one body, L535-542.  An exception in the calling thread waits for the others (destructor of `std::jthread`); an
exception that leaves another thread ends the program. -/
def tstep (dist : B → Except E V) (bodies : List B) (n : Nat) (s : TState E V) (t : Nat) : TState E V :=
  if s.aborted = true then s
  else
    match nextBody n bodies.length s t with
    | none => s
    | some i =>
      match bodies[i]? with
      | none => s
      | some b =>
        match dist b with
        | .ok v => { s with rows := s.rows.set i v, done := fun k => if k = t then s.done k + 1 else s.done k }
        | .error e => if t = 0 then { s with main := some e } else { s with aborted := true }

/-- All threads, L545-553, in the order `sched`. -/
def trun (dist : B → Except E V) (zero : V) (bodies : List B) (n : Nat) (sched : List Nat) : TState E V :=
  sched.foldl (tstep dist bodies n) ⟨List.replicate bodies.length zero, fun _ => 0, none, false⟩

/-- All threads have come to their end. -/
def finished (n N : Nat) (s : TState E V) : Prop := s.aborted = true ∨ ∀ t, t < n → nextBody n N s t = none

/-- How the call ends, L555. -/
def ending (s : TState E V) : Outcome E V :=
  if s.aborted = true then .terminated
  else
    match s.main with
    | some e => .threw e
    | none => .returned s.rows

/-- `compute_distances_gjk(bodies, q, num)` with threads that run in the order `sched`. -/
def distances (dist : B → Except E V) (zero : V) (bodies : List B) (num : Int) (sched : List Nat) : Outcome E V :=
  if num ≤ 0 then .badThreads
  else ending (trun dist zero bodies (numThreads num.toNat bodies.length) sched)

end Verif.DistThreads
