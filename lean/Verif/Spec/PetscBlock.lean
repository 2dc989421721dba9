import Verif.Model.PetscBlock
import Verif.Spec.PetscLinear
/-! Specification: the linear system of a discrete problem with several fields and Dirichlet conditions. -/
namespace Verif.Spec.PetscBlock
open Verif.World Verif.Assembly Verif.PetscBlock Verif.Spec Verif.Spec.Assemble Finset

variable {R : Type} [CommRing R]

/-- Number of global dofs (blocks) of a field. -/
def dofs (f : Field R) : Nat := f.w.r0 f.w.P

/-- Block `(i, j)` of the matrix of an array of forms. -/
def mat (D : Problem R) (a : Nat → Nat → Option (Nat → Form R)) (i j I k J l : Nat) : R :=
  match a i j with
  | some F => globalOp (D.field i).w (D.field j).w (D.field i).bs (D.field j).bs
      (fun q => elems (F q) ((D.field i).dm q) ((D.field j).dm q)) I k J l
  | none => 0

open Classical in
/-- Rows and columns of constrained dofs are those of the identity. -/
noncomputable def withConditions (C : Nat → Nat → Nat → Prop) (A : Nat → Nat → Nat → Nat → Nat → Nat → R) (i j I k J l : Nat) : R :=
  if C i I k ∨ C j J l then (if i = j ∧ I = J ∧ k = l then 1 else 0) else A i j I k J l

/-- The linear form of field `i`. -/
def vec (D : Problem R) (i I k : Nat) : R :=
  globalVec (D.field i).w (D.field i).bs (fun q => velems ((D.field i).L q) ((D.field i).dm q)) I k

open Classical in
/-- The right-hand side: prescribed values, and for free dofs the linear form less what the prescribed values of all fields
contribute. -/
noncomputable def rhs (D : Problem R) (C : Nat → Nat → Nat → Prop) (g : Nat → Nat → Nat → R) (i I k : Nat) : R :=
  if C i I k then g i I k
  else vec D i I k - ∑ j ∈ range D.n, product (dofs (D.field j)) (D.field j).bs (mat D D.a i j I k) (C j) (g j)

/-- The forms, dofmaps and conditions of all fields and ranks fit together; no row or column of forms is empty (`forms`,
`preForms`: the arrays that the code refuses or cannot treat, see the model); a field with conditions has a diagonal block, also in
the preconditioner. -/
structure ProblemOk (D : Problem R) (C : Nat → Nat → Nat → Prop) (g : Nat → Nat → Nat → R) : Prop where
  ranks : ∀ i, i < D.n → (D.field i).w.P = D.P
  valid : ∀ i, i < D.n → (D.field i).w.Valid
  block : ∀ i, i < D.n → 0 < (D.field i).bs
  linear : ∀ i, i < D.n → ∀ q, q < D.P → VAccepted ((D.field i).L q)
  bilinear : ∀ i j, i < D.n → j < D.n → ∀ F, D.a i j = some F → ∀ q, q < D.P → Accepted (F q)
  precond : ∀ p, D.pre = some p → ∀ i j, i < D.n → j < D.n → ∀ F, p i j = some F → ∀ q, q < D.P → Accepted (F q)
  forms : ∀ i, i < D.n → (∃ j, j < D.n ∧ D.a i j ≠ none) ∧ (∃ j, j < D.n ∧ D.a j i ≠ none)
  preForms : ∀ p, D.pre = some p → ∀ i, i < D.n → (∃ j, j < D.n ∧ p i j ≠ none) ∧ (∃ j, j < D.n ∧ p j i ≠ none)
  dofmap : ∀ i, i < D.n → ∀ q, q < D.P → DofmapOk (D.field i).bs ((D.field i).dm q) ∧ DofsOk (D.field i).w q ((D.field i).dm q)
  conditions : ∀ i, i < D.n → ∀ q, q < D.P → ∀ c ∈ (D.field i).bcs q, BcOk c ∧ c.dofs.Pairwise (· ≤ ·)
  values : ∀ i, i < D.n → ConsistentValues (D.field i).w (D.field i).bs (D.field i).bcs (C i) (g i)
  diagonal : ∀ i, i < D.n → (∃ q, q < D.P ∧ (D.field i).bcs q ≠ []) → D.a i i ≠ none ∧ ∀ p, D.pre = some p → p i i ≠ none

/-- Every field has the prescribed value in each constrained dof, and the equation of each free dof of each field holds. -/
structure Solves (D : Problem R) (C : Nat → Nat → Nat → Prop) (g U : Nat → Nat → Nat → R) : Prop where
  cond : ∀ i I k, i < D.n → I < dofs (D.field i) → k < (D.field i).bs → C i I k → U i I k = g i I k
  free : ∀ i I k, i < D.n → I < dofs (D.field i) → k < (D.field i).bs → ¬ C i I k →
    ∑ j ∈ range D.n, ∑ J ∈ range (dofs (D.field j)), ∑ l ∈ range (D.field j).bs, mat D D.a i j I k J l * U j J l = vec D i I k

/-- A matrix in scalar rows and columns of each block. -/
def toScalar (D : Problem R) (A : Nat → Nat → Nat → Nat → Nat → Nat → R) : Nat → Nat → Nat → Nat → R := fun i j r c =>
  if i < D.n ∧ j < D.n ∧ r < (D.field i).bs * dofs (D.field i) ∧ c < (D.field j).bs * dofs (D.field j) then
    A i j (r / (D.field i).bs) (r % (D.field i).bs) (c / (D.field j).bs) (c % (D.field j).bs) else 0

/-- The owned entries of global vectors. -/
def toOwned (D : Problem R) (X : Nat → Nat → Nat → R) : Nat → Nat → Nat → R := fun i q k =>
  if i < D.n then NonlinProb.toOwned (D.field i).w (D.field i).bs (X i) q k else 0

/-- The global vector of field `i` whose owned entries are given. -/
def fromOwned (D : Problem R) (x : Nat → Nat → Nat → R) (i : Nat) : Nat → Nat → R :=
  NonlinProb.fromOwned (D.field i).w (D.field i).bs (x i)

/-- `y` solves the system given by entries of all blocks and owned entries of all right-hand sides. -/
def SolvesSystem (D : Problem R) (A : Nat → Nat → Nat → Nat → R) (b y : Nat → Nat → Nat → R) : Prop :=
  ∀ i I k, i < D.n → I < dofs (D.field i) → k < (D.field i).bs →
    ∑ j ∈ range D.n, ∑ J ∈ range (dofs (D.field j)), ∑ l ∈ range (D.field j).bs,
      A i j ((D.field i).bs * I + k) ((D.field j).bs * J + l) * fromOwned D y j J l = fromOwned D b i I k

end Verif.Spec.PetscBlock
