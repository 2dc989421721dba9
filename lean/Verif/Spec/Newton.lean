import Verif.Model.Newton
/-! Specification: Newton's method as a sequence, and when it should stop. -/
namespace Verif.Spec.Newton
open Verif.Newton (Solver)

variable {V M R : Type}

/-- Point `k` of the iteration and the last increment: solve the linear system with matrix and right-hand side at the point, subtract (by the update function). -/
def iter (S : Solver V M R) (F : V → V) (J : V → M) (sys : V → V) (x dx : V) : Nat → V × V
  | 0 => (sys x, dx)
  | k + 1 =>
    let y := iter S F J sys x dx k
    let d := (S.lin (J y.1) ((S.fnP.getD J) y.1) y.2 (F y.1)).1
    (sys (S.update d y.1), d)

/-- Iterations of the linear solver in step `k`. -/
def work (S : Solver V M R) (F : V → V) (J : V → M) (sys : V → V) (x dx : V) (k : Nat) : Nat :=
  let y := iter S F J sys x dx k
  (S.lin (J y.1) ((S.fnP.getD J) y.1) y.2 (F y.1)).2

/-- The test after `k` steps: of the residual, or (from the second step on) of the increment; both get the norm of the first increment for comparison (zero before the first step). -/
def Stop [Zero R] (S : Solver V M R) (F : V → V) (J : V → M) (sys : V → V) (x dx : V) (k : Nat) : Prop :=
  if S.criterion = "residual" then (S.conv k (if k = 0 then 0 else S.norm (iter S F J sys x dx 1).2) (F (iter S F J sys x dx k).1)).2 = true
  else 2 ≤ k ∧ (S.conv k (S.norm (iter S F J sys x dx 1).2) (iter S F J sys x dx k).2).2 = true

end Verif.Spec.Newton
