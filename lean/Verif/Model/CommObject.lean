import Mathlib.Data.List.Nodup
/-!
# Objects that hold communicators

Model of the class `dolfinx::MPI::Comm`, `cpp/dolfinx/common/MPI.h` L44-71, `cpp/dolfinx/common/MPI.cpp` L21-71, on one rank, together
with what the library (`MPI_Comm_dup`, `MPI_Comm_free`) and the calling program do.  Communicators are handles; `none` is
`MPI_COMM_NULL` where a handle is expected, and as a result of an operation it is an error of MPI (`check_error` aborts).
-/
namespace Verif.CommObject

/-- `live`: communicators that exist.  `next`: a handle not used so far.  `grp`: processes and topology of a communicator.
`created`, `freed`: communicators made and freed by objects, in order.  `obj`: member `_comm` of each object, `none` if there is no
such object. -/
structure Mem where
  live : List Nat
  next : Nat
  grp : Nat → Nat
  created : List Nat
  freed : List Nat
  obj : Nat → Option (Option Nat)

/-- Change of an object. -/
def Mem.set (m : Mem) (x : Nat) (v : Option (Option Nat)) : Mem := { m with obj := fun y => if y = x then v else m.obj y }

/-- `MPI_Comm_dup`. -/
def dup (m : Mem) (h : Nat) : Option (Nat × Mem) :=
  if h ∈ m.live then
    some (m.next, { m with live := m.next :: m.live, next := m.next + 1, created := m.created ++ [m.next],
                           grp := fun g => if g = m.next then m.grp h else m.grp g })
  else none

/-- `MPI_Comm_free`. -/
def free (m : Mem) (h : Nat) : Option Mem :=
  if h ∈ m.live then some { m with live := m.live.erase h, freed := m.freed ++ [h] } else none

/-- `Comm(comm, duplicate)`, MPI.cpp L21-31. -/
def construct (m : Mem) (x : Nat) (comm : Option Nat) (duplicate : Bool) : Option Mem :=
  match duplicate, comm with
  | true, some h => (dup m h).map fun r => r.2.set x (some (some r.1))
  | _, c => some (m.set x (some c))

/-- Copy constructor, L33-37. -/
def copy (m : Mem) (x y : Nat) : Option Mem := (m.obj y).bind fun c => construct m x c true

/-- Move constructor, L39-43. -/
def move (m : Mem) (x y : Nat) : Option Mem := (m.obj y).map fun c => (m.set x (some c)).set y (some none)

/-- `if (_comm != MPI_COMM_NULL) MPI_Comm_free(&_comm)`, L48-52 and L59-63: the member is set to `MPI_COMM_NULL`. -/
def release (m : Mem) (x : Nat) : Option Mem :=
  match m.obj x with
  | none => none
  | some none => some m
  | some (some h) => (free m h).map fun m => m.set x (some none)

/-- Destructor, L45-53. -/
def destroy (m : Mem) (x : Nat) : Option Mem := (release m x).map fun m => m.set x none

/-- Move assignment, L55-70. -/
def assign (m : Mem) (x y : Nat) : Option Mem := (release m x).bind fun m => (m.obj y).map fun c => (m.set x (some c)).set y (some none)

/-- What a program does: operations on objects, and making and freeing communicators itself. -/
inductive Op where
  | construct (x : Nat) (comm : Option Nat) (duplicate : Bool)
  | copy (x y : Nat)
  | move (x y : Nat)
  | assign (x y : Nat)
  | destroy (x : Nat)
  | userNew (grp : Nat)
  | userFree (h : Nat)

/-- One operation. -/
def step (m : Mem) : Op → Option Mem
  | .construct x c d => construct m x c d
  | .copy x y => copy m x y
  | .move x y => move m x y
  | .assign x y => assign m x y
  | .destroy x => destroy m x
  | .userNew g => some { m with live := m.next :: m.live, next := m.next + 1, grp := fun h => if h = m.next then g else m.grp h }
  | .userFree h => if h ∈ m.live then some { m with live := m.live.erase h } else none

/-- Nothing but `MPI_COMM_WORLD`, handle 0. -/
def start : Mem := ⟨[0], 1, fun _ => 0, [], [], fun _ => none⟩

end Verif.CommObject
