import Verif.Prelude
/-!
# Model: PETSc objects held by C++ objects

Constructors, moves, copies and destructors of `la::petsc::Vector`, `Operator` (`Matrix`) and `KrylovSolver` (`cpp/dolfinx/la/petsc.cpp` L446-486,
L552-581, L632-635, L700-737), of `SLEPcEigenSolver` (`cpp/dolfinx/la/slepc.cpp` L28-63) and of `nls::petsc::NewtonSolver`
(`cpp/dolfinx/nls/NewtonSolver.h` L46-58, `NewtonSolver.cpp` L71-119, L197-198).

Simplifications: a PETSc object is a number with PETSc's count of references, and destroying lowers the count; using an object whose count is zero is
a fault.  References that PETSc objects hold among each other are left out, and so are null pointers given to a constructor (which
throws).  The member `_solver` of a Newton solver is a `KrylovSolver` of its own.
-/
namespace Verif.PetscHandles

/-- A C++ object: a Newton solver with `_b`, `_matJ`, `_matP`, `_dx`, or an object with one pointer. -/
structure Obj where
  newton : Bool
  slots : List (Option Nat)
  alive : Bool
deriving DecidableEq

/-- The count of references of each PETSc object, the references of the calling program, the number of the next PETSc object, the C++ objects. -/
structure PState where
  refs : Nat → Nat
  own : Nat → Nat
  next : Nat
  objs : List Obj

/-- What can go wrong: the program breaks a rule of its own, or an object that does not exist is used. -/
inductive Bad where
  | rule
  | fault
deriving DecidableEq

/-- `f` with the value `v` at `h`. -/
def put (f : Nat → Nat) (h v : Nat) : Nat → Nat := fun k => if k = h then v else f k

/-- `VecDestroy`, `MatDestroy`, … -/
def release (refs : Nat → Nat) (h : Nat) : Except Bad (Nat → Nat) :=
  if refs h = 0 then .error .fault else .ok (put refs h (refs h - 1))

/-- A destructor: each pointer that is not null (`petsc.cpp` L466-470, `NewtonSolver.cpp` L85-95; the order is of no account). -/
def releaseAll (refs : Nat → Nat) : List (Option Nat) → Except Bad (Nat → Nat)
  | [] => .ok refs
  | none :: l => releaseAll refs l
  | some h :: l =>
    match release refs h with
    | .error e => .error e
    | .ok refs => releaseAll refs l

/-- The program's statements. -/
inductive Op where
  /-- the program creates a PETSc object -/
  | make
  /-- the program gives up a reference -/
  | drop (h : Nat)
  /-- `Vector(map, bs)`, `Matrix(comm, sp)`, `KrylovSolver(comm)`, `SLEPcEigenSolver(comm)` -/
  | create
  /-- `Vector(x, inc_ref_count)`, … (`petsc.cpp` L452-462, L552-562, L632-635, L708-718, `slepc.cpp` L34-44) -/
  | wrap (h : Nat) (inc : Bool)
  /-- move constructor of these: `std::exchange(…, nullptr)` (`petsc.cpp` L464) -/
  | move (i : Nat)
  /-- move assignment of these: `std::swap` (`petsc.cpp` L472-476) -/
  | assign (i j : Nat)
  /-- `Vector::copy` (`petsc.cpp` L478-486) -/
  | copy (i : Nat)
  /-- destructor -/
  | destroy (i : Nat)
  /-- `NewtonSolver(comm)` -/
  | newton
  /-- `setF`, `setJ`, `setP` with the pointer `k` (`NewtonSolver.cpp` L97-119): the pointer before is forgotten -/
  | set (i k h : Nat)
  /-- `NewtonSolver::solve`: `MatCreateVecs` if there is no `_dx` (`NewtonSolver.cpp` L197-198) -/
  | solve (i : Nat)
  /-- `NewtonSolver(NewtonSolver&&) = default` copies the pointers (`NewtonSolver.h` L49) -/
  | newtonMove (i : Nat)
  /-- `NewtonSolver::operator=(NewtonSolver&&) = default` (`NewtonSolver.h` L58) -/
  | newtonAssign (i j : Nat)

/-- An object that lives, of the given class. -/
def find (s : PState) (newton : Bool) (i : Nat) : Except Bad Obj :=
  match s.objs[i]? with
  | none => .error .rule
  | some o => if o.alive = true ∧ o.newton = newton then .ok o else .error .rule

/-- One statement. -/
def step (s : PState) : Op → Except Bad PState
  | .make => .ok { s with refs := put s.refs s.next 1, own := put s.own s.next 1, next := s.next + 1 }
  | .drop h =>
    if s.own h = 0 then .error .rule
    else do
      let refs ← release s.refs h
      .ok { s with refs := refs, own := put s.own h (s.own h - 1) }
  | .create => .ok { s with refs := put s.refs s.next 1, next := s.next + 1, objs := s.objs ++ [⟨false, [some s.next], true⟩] }
  | .wrap h inc =>
    if s.own h = 0 then .error .rule
    else if inc then .ok { s with refs := put s.refs h (s.refs h + 1), objs := s.objs ++ [⟨false, [some h], true⟩] }
    else .ok { s with own := put s.own h (s.own h - 1), objs := s.objs ++ [⟨false, [some h], true⟩] }
  | .move i => do
    let o ← find s false i
    .ok { s with objs := s.objs.set i { o with slots := [none] } ++ [⟨false, o.slots, true⟩] }
  | .assign i j => do
    let a ← find s false i
    let b ← find s false j
    .ok { s with objs := (s.objs.set i { a with slots := b.slots }).set j { b with slots := a.slots } }
  | .copy i => do
    let o ← find s false i
    match o.slots with
    | [some h] =>
      if s.refs h = 0 then .error .fault
      else .ok { s with refs := put s.refs s.next 1, next := s.next + 1, objs := s.objs ++ [⟨false, [some s.next], true⟩] }
    | _ => .error .rule
  | .destroy i =>
    match s.objs[i]? with
    | none => .error .rule
    | some o =>
      if o.alive = true then do
        let refs ← releaseAll s.refs o.slots
        .ok { s with refs := refs, objs := s.objs.set i { o with alive := false } }
      else .error .rule
  | .newton => .ok { s with objs := s.objs ++ [⟨true, [none, none, none, none], true⟩] }
  | .set i k h => do
    let o ← find s true i
    if s.own h = 0 ∨ 3 ≤ k then .error .rule
    else .ok { s with refs := put s.refs h (s.refs h + 1), objs := s.objs.set i { o with slots := o.slots.set k (some h) } }
  | .solve i => do
    let o ← find s true i
    match o.slots[3]? with
    | some none =>
      .ok { s with refs := put s.refs s.next 1, next := s.next + 1, objs := s.objs.set i { o with slots := o.slots.set 3 (some s.next) } }
    | _ => .ok s
  | .newtonMove i => do
    let o ← find s true i
    .ok { s with objs := s.objs ++ [o] }
  | .newtonAssign i j => do
    let a ← find s true i
    let b ← find s true j
    .ok { s with objs := s.objs.set i { a with slots := b.slots } }

/-- A program. -/
def run (s : PState) : List Op → Except Bad PState
  | [] => .ok s
  | op :: l =>
    match step s op with
    | .error e => .error e
    | .ok s => run s l

/-- The beginning of a program. -/
def start : PState := ⟨fun _ => 0, fun _ => 0, 0, []⟩

end Verif.PetscHandles
