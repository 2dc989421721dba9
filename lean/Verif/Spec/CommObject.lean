import Verif.Model.CommObject
/-! # Specification: who has to free a communicator -/
namespace Verif.Spec.CommObject
open Verif.CommObject

/-- What a program may do; `mine` are the communicators that the program has to free itself (or must not free, `MPI_COMM_WORLD`).
Objects are made where there is none and used while they exist; communicators that are duplicated exist; a communicator is handed over
(`duplicate = false`) or freed by its owner only. -/
def Legal (m : Mem) (mine : List Nat) : Op → Prop
  | .construct x c d => m.obj x = none ∧ ∀ h, c = some h → if d then h ∈ m.live else h ∈ mine
  | .copy x y => m.obj x = none ∧ m.obj y ≠ none
  | .move x y => m.obj x = none ∧ m.obj y ≠ none
  | .assign x y => m.obj x ≠ none ∧ m.obj y ≠ none
  | .destroy x => m.obj x ≠ none
  | .userNew _ => True
  | .userFree h => h ∈ mine

/-- Communicators of the program after an operation. -/
def mineAfter (m : Mem) (mine : List Nat) : Op → List Nat
  | .construct _ (some h) false => mine.erase h
  | .userNew _ => m.next :: mine
  | .userFree h => mine.erase h
  | _ => mine

/-- Executions of programs. -/
inductive Exec : Mem → List Nat → Prop
  | start : Exec start [0]
  | step (m m' : Mem) (mine : List Nat) (op : Op) : Exec m mine → Legal m mine op → step m op = some m' → Exec m' (mineAfter m mine op)

/-- Object `x` holds communicator `h`. -/
def Holds (m : Mem) (x h : Nat) : Prop := m.obj x = some (some h)

end Verif.Spec.CommObject
