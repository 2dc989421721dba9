import Verif.Model.BlockNonlinear
import Verif.Spec.NonlinearProblem
/-! Specification: residual and Jacobian of a discrete nonlinear problem with several fields and Dirichlet conditions, as functions
of global vectors. -/
namespace Verif.Spec.BlockNonlin
open Verif.World Verif.Assembly Verif.BlockNonlin Verif.Spec Verif.Spec.Assemble Finset

variable {R : Type} [CommRing R]

/-- Number of global dofs (blocks) of field `i`. -/
def dofs (D : Problem R) (i : Nat) : Nat := (D.w i).r0 (D.w i).P

/-- The local arrays of rank `q` for global vectors. -/
def localArrays (D : Problem R) (X : Nat → Nat → Nat → R) (q : Nat) : Nat → Nat → R := fun j =>
  NonlinProb.localArray (D.w j) (D.bs j) q (X j)

/-- The residual form of field `i` at `X`. -/
def formVec (D : Problem R) (X : Nat → Nat → Nat → R) (i I k : Nat) : R :=
  globalVec (D.w i) (D.bs i) (fun q => velems (D.F i q (localArrays D X q)) (D.dm i q)) I k

/-- Block `(i, j)` of the matrix of an array of forms at `X`. -/
def formMat (D : Problem R) (a : Nat → Nat → Option (Nat → (Nat → Nat → R) → Form R)) (X : Nat → Nat → Nat → R) (i j I k J l : Nat) : R :=
  match a i j with
  | some F => globalOp (D.w i) (D.w j) (D.bs i) (D.bs j) (fun q => elems (F q (localArrays D X q)) (D.dm i q) (D.dm j q)) I k J l
  | none => 0

open Classical in
/-- The residual of the problem with conditions: the distance from the prescribed value, and for free dofs the form and the effect of
correcting the values of constrained dofs of all fields. -/
noncomputable def Res (D : Problem R) (C : Nat → Nat → Nat → Prop) (g X : Nat → Nat → Nat → R) (i I k : Nat) : R :=
  if C i I k then X i I k - g i I k
  else formVec D X i I k + ∑ j ∈ range D.n, product (dofs D j) (D.bs j) (formMat D D.J X i j I k) (C j) (fun J l => g j J l - X j J l)

open Classical in
/-- Rows and columns of constrained dofs are those of the identity. -/
noncomputable def withConditions (C : Nat → Nat → Nat → Prop) (A : Nat → Nat → Nat → Nat → Nat → Nat → R) (i j I k J l : Nat) : R :=
  if C i I k ∨ C j J l then (if i = j ∧ I = J ∧ k = l then 1 else 0) else A i j I k J l

/-- `X` is a solution. -/
structure Solution (D : Problem R) (C : Nat → Nat → Nat → Prop) (g X : Nat → Nat → Nat → R) : Prop where
  cond : ∀ i I k, i < D.n → I < dofs D i → k < D.bs i → C i I k → X i I k = g i I k
  free : ∀ i I k, i < D.n → I < dofs D i → k < D.bs i → ¬ C i I k → formVec D X i I k = 0

/-- The forms of all fields and ranks fit together, depend on the entries of the arrays of the functions only, and are accepted; no
row or column of forms is empty; a field with conditions has a diagonal block. -/
structure ProblemOk (D : Problem R) (C : Nat → Nat → Nat → Prop) (g : Nat → Nat → Nat → R) : Prop where
  ranks : ∀ i, i < D.n → (D.w i).P = D.P
  valid : ∀ i, i < D.n → (D.w i).Valid
  block : ∀ i, i < D.n → 0 < D.bs i
  residual : ∀ i, i < D.n → ∀ q, q < D.P → ∀ u, VAccepted (D.F i q u)
  jacobian : ∀ i j, i < D.n → j < D.n → ∀ a, D.J i j = some a → ∀ q, q < D.P → ∀ u, Accepted (a q u)
  precond : ∀ p, D.pre = some p → ∀ i j, i < D.n → j < D.n → ∀ a, p i j = some a → ∀ q, q < D.P → ∀ u, Accepted (a q u)
  forms : ∀ i, i < D.n → (∃ j, j < D.n ∧ D.J i j ≠ none) ∧ (∃ j, j < D.n ∧ D.J j i ≠ none)
  preForms : ∀ p, D.pre = some p → ∀ i, i < D.n → (∃ j, j < D.n ∧ p i j ≠ none) ∧ (∃ j, j < D.n ∧ p j i ≠ none)
  reads : ∀ q, q < D.P → ∀ u v : Nat → Nat → R,
    (∀ j i, j < D.n → i < D.bs j * ((D.w j).size q + ((D.w j).ghosts q).length) → u j i = v j i) →
    (∀ i, i < D.n → D.F i q u = D.F i q v) ∧ (∀ i j, i < D.n → j < D.n → ∀ a, D.J i j = some a → a q u = a q v) ∧
    ∀ p, D.pre = some p → ∀ i j, i < D.n → j < D.n → ∀ a, p i j = some a → a q u = a q v
  dofmap : ∀ i, i < D.n → ∀ q, q < D.P → DofmapOk (D.bs i) (D.dm i q) ∧ DofsOk (D.w i) q (D.dm i q)
  conditions : ∀ i, i < D.n → ∀ q, q < D.P → ∀ c ∈ D.bcs i q, BcOk c ∧ c.dofs.Pairwise (· ≤ ·)
  values : ∀ i, i < D.n → ConsistentValues (D.w i) (D.bs i) (D.bcs i) (C i) (g i)
  diagonal : ∀ i, i < D.n → (∃ q, q < D.P ∧ D.bcs i q ≠ []) → D.J i i ≠ none ∧ ∀ p, D.pre = some p → p i i ≠ none

/-- Global vectors whose owned entries are given. -/
def fromOwned (D : Problem R) (x : Nat → Nat → Nat → R) (i : Nat) : Nat → Nat → R := NonlinProb.fromOwned (D.w i) (D.bs i) (x i)

/-- The owned entries of global vectors. -/
def toOwned (D : Problem R) (X : Nat → Nat → Nat → R) : Nat → Nat → Nat → R := fun i q k =>
  if i < D.n then NonlinProb.toOwned (D.w i) (D.bs i) (X i) q k else 0

/-- A matrix in scalar rows and columns of each block. -/
def toScalar (D : Problem R) (A : Nat → Nat → Nat → Nat → Nat → Nat → R) : Nat → Nat → Nat → Nat → R := fun i j r c =>
  if i < D.n ∧ j < D.n ∧ r < D.bs i * dofs D i ∧ c < D.bs j * dofs D j then A i j (r / D.bs i) (r % D.bs i) (c / D.bs j) (c % D.bs j) else 0

/-- What SNES would return if residuals and matrices were those of the problem. -/
noncomputable def ideal (D : Problem R) (C : Nat → Nat → Nat → Prop) (g : Nat → Nat → Nat → R) : Snes R → (Nat → Nat → Nat → R)
  | .done x => fromOwned D x
  | .residual x next => ideal D C g (next (toOwned D (Res D C g (fromOwned D x))))
  | .jacobian x next => ideal D C g (next (toScalar D (withConditions C (formMat D D.J (fromOwned D x))))
      (toScalar D (withConditions C (formMat D (D.pre.getD D.J) (fromOwned D x)))))

end Verif.Spec.BlockNonlin
