import Mathlib.Algebra.Field.Defs
import Mathlib.Algebra.Module.Defs
import Mathlib.Order.Defs.LinearOrder
/-!
# The Newton solver

`cpp/dolfinx/nls/NewtonSolver.cpp` (class `NewtonSolver`), with the Python class in `python/dolfinx/nls/petsc.py`.

Simplifications: PETSc vectors, matrices and the linear solver are given types and functions, numbers are those of an ordered field.  Division by zero gives infinity or not-a-number, which is not
smaller than a tolerance.  Logging is left out.
-/
namespace Verif.Newton

/-- The settings of a solver.  `lin A P dx b`: the linear solver with operators `A` and `P`, started from `dx`, and its number of iterations.  `conv` gets iteration number and `residual0()`. -/
structure Solver (V M R : Type) where
  fnF : Option (V → V)
  fnJ : Option (V → M)
  fnP : Option (V → M)
  system : Option (V → V)
  conv : Nat → R → V → R × Bool
  update : V → V → V
  lin : M → M → V → V → V × Nat
  norm : V → R
  maxIt : Int
  criterion : String
  errorOnNonconvergence : Bool

/-- What the solver changes: the vector of the user, its residual vector `_b`, `_dx` and the counters. -/
structure State (V R : Type) where
  x : V
  b : V
  dx : V
  iteration : Nat
  krylov : Nat
  residual : R
  residual0 : R

/-- Exceptions. -/
inductive Err where
  | noF | noJ | criterion | maxIt | other
deriving DecidableEq

variable {V M R : Type} [Field R] [LinearOrder R]

/-- `converged`, L28-51. -/
def converged (norm : V → R) (rtol atol : R) (_iteration : Nat) (residual0 : R) (r : V) : R × Bool :=
  (norm r, decide ((residual0 ≠ 0 ∧ norm r / residual0 < rtol) ∨ norm r < atol))

/-- `update_solution`, L62-66. -/
def updateSolution [AddCommGroup V] [Module R V] (relaxation : R) (dx x : V) : V := x + (-relaxation) • dx

/-- `_system(x)` if it has been set, L167-168, L216-217. -/
def callSystem (S : Solver V M R) (x : V) : V :=
  match S.system with
  | some f => f x
  | none => x

/-- The matrix for the preconditioner, L186-190, L202-203. -/
def precond (S : Solver V M R) (A : M) (x : V) : M :=
  match S.fnP with
  | some p => p x
  | none => A

/-- The body of the loop, L198-243. -/
def step (S : Solver V M R) (F : V → V) (J : V → M) (s : State V R) : State V R × Bool :=
  let A := J s.x
  let sol := S.lin A (precond S A s.x) s.dx s.b
  let x := callSystem S (S.update sol.1 s.x)
  let it := s.iteration + 1
  let b := F x
  let r0 := if it = 1 then S.norm sol.1 else s.residual0
  if S.criterion = "residual" then
    let c := S.conv it r0 b
    (⟨x, b, sol.1, it, s.krylov + sol.2, c.1, r0⟩, c.2)
  else if it = 1 then (⟨x, b, sol.1, it, s.krylov + sol.2, 1, r0⟩, false)
  else
    let c := S.conv it r0 sol.1
    (⟨x, b, sol.1, it, s.krylov + sol.2, c.1, r0⟩, c.2)

/-- The loop, L196; the number says how many iterations are left. -/
def loop (S : Solver V M R) (F : V → V) (J : V → M) : Nat → State V R × Bool → State V R × Bool
  | 0, s => s
  | n + 1, s => if s.2 then s else loop S F J n (step S F J s.1)

/-- `solve`, L147-272: the state that is left behind, and the result or the exception.  `dx` is left from an earlier call. -/
def solve (S : Solver V M R) (x b dx : V) : State V R × Except Err (Nat × Bool) :=
  match S.fnF with
  | none => (⟨x, b, dx, 0, 0, -1, 0⟩, .error .noF)
  | some F =>
    match S.fnJ with
    | none => (⟨x, b, dx, 0, 0, -1, 0⟩, .error .noJ)
    | some J =>
      let x := callSystem S x
      let b := F x
      if S.criterion ≠ "residual" ∧ S.criterion ≠ "incremental" then (⟨x, b, dx, 0, 0, -1, 0⟩, .error .criterion)
      else
        let c := if S.criterion = "residual" then S.conv 0 0 b else (-1, false)
        let r := loop S F J S.maxIt.toNat (⟨x, b, dx, 0, 0, c.1, 0⟩, c.2)
        if r.2 then (r.1, .ok (r.1.iteration, true))
        else if S.errorOnNonconvergence then (r.1, .error (if (r.1.iteration : Int) = S.maxIt then .maxIt else .other))
        else (r.1, .ok (r.1.iteration, false))

/-- `NewtonSolver.solve` of the Python class, petsc.py L65-73: ghosts of the function are updated afterwards, unless an exception was thrown. -/
def solvePy (S : Solver V M R) (scatter : V → V) (x b dx : V) : State V R × Except Err (Nat × Bool) :=
  let r := solve S x b dx
  match r.2 with
  | .ok _ => ({ r.1 with x := scatter r.1.x }, r.2)
  | .error _ => r

end Verif.Newton
