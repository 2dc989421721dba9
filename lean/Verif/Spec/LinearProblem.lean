import Verif.Model.LinearProblem
import Verif.Spec.Assembly
import Verif.Spec.ScalarMatrix
/-! Specification: what it means to solve a discrete linear problem with Dirichlet conditions, and what is assumed of the
direct solver. -/
namespace Verif.Spec.LinProb
open Verif.World Verif.Assembly Verif.LinProb Verif.SuperLu Verif.Spec Verif.Spec.Assemble Finset

variable {R : Type} [CommRing R]

/-- `U` has the prescribed value in each constrained dof and satisfies the equation of the bilinear form and the linear
form in each free dof. -/
structure Solves (w : World) (bs : Nat) (a : Nat → List (Elem R)) (L : Nat → List (VElem R)) (C : Nat → Nat → Prop)
    (g : Nat → Nat → R) (U : Nat → Nat → R) : Prop where
  cond : ∀ I k, I < w.r0 w.P → k < bs → C I k → U I k = g I k
  free : ∀ I k, I < w.r0 w.P → k < bs → ¬ C I k →
    ∑ J ∈ range (w.r0 w.P), ∑ l ∈ range bs, globalOp w w bs bs a I k J l * U J l = globalVec w bs L I k

/-- The library solves the systems with `n` unknowns on `P` ranks for which it returns the code 0. -/
def LibOk (P n : Nat) (lib : Lib R) : Prop :=
  ∀ (N : Nat → NRLoc R) (b : Nat → List R) (B : Nat → R), (∀ q, q < P → NROk (N q) ∧ (N q).n = n) →
    (∀ I, I < n → ∃ q t, q < P ∧ t < (N q).mLoc ∧ (N q).firstRow + t = I) → IsGlobal P N b B →
    (∀ q, q < P → (b q).length = (N q).mLoc) → lib.info N b = 0 →
    (∀ q, q < P → (lib.gssvx N b q).length = (N q).mLoc) ∧
    ∃ X, IsGlobal P N (lib.gssvx N b) X ∧ ∀ I, I < n → ∑ J ∈ range n, distVal P N I J * X J = B I

/-- The forms, dofmaps and conditions of all ranks fit together, and the sparsity pattern is that of `a`. -/
structure ProblemOk (D : Problem R) (C : Nat → Nat → Prop) (g : Nat → Nat → R) : Prop where
  valid : D.w.Valid
  block : 0 < D.bs
  bilinear : ∀ q, q < D.w.P → Accepted (D.a q) ∧ FormOk (D.a q)
  linear : ∀ q, q < D.w.P → VAccepted (D.L q)
  dofmap : ∀ q, q < D.w.P → DofmapOk D.bs (D.dm q) ∧ DofsOk D.w q (D.dm q)
  pattern : ∃ p : Nat → SP.Pattern, (∀ q, q < D.w.P → buildPattern (D.a q) (D.dm q) (D.dm q) = .ok (p q)) ∧
    ∀ q, q < D.w.P → SP.finalize D.w D.w p q = .ok (D.pat q)
  conditions : ∀ q, q < D.w.P → ∀ c ∈ D.bcs q, BcOk c ∧ c.dofs.Pairwise (· ≤ ·)
  values : ConsistentValues D.w D.bs D.bcs C g

end Verif.Spec.LinProb
