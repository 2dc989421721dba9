import Verif.Model.NonlinearProblem
import Verif.Spec.Assembly
/-! Specification: residual and Jacobian of a discrete nonlinear problem with Dirichlet conditions, as functions of
global vectors. -/
namespace Verif.Spec.NonlinProb
open Verif.World Verif.Assembly Verif.NonlinProb Verif.Spec Verif.Spec.Assemble Finset

variable {R : Type} [CommRing R]

/-- The local array of rank `q` for the global vector `X`. -/
def localArray (w : World) (bs q : Nat) (X : Nat → Nat → R) : Nat → R := fun i =>
  match globalOf w q (i / bs) with
  | some I => X I (i % bs)
  | none => 0

/-- The residual form at `X`. -/
def formVec (D : Problem R) (X : Nat → Nat → R) (I k : Nat) : R :=
  globalVec D.w D.bs (fun q => velems (D.F q (localArray D.w D.bs q X)) (D.dm q)) I k

/-- The matrix of a bilinear form that depends on the solution, at `X`. -/
def formMat (D : Problem R) (a : Nat → (Nat → R) → Form R) (X : Nat → Nat → R) (I k J l : Nat) : R :=
  globalOp D.w D.w D.bs D.bs (fun q => elems (a q (localArray D.w D.bs q X)) (D.dm q) (D.dm q)) I k J l

open Classical in
/-- The residual of the problem with conditions: the distance from the prescribed value, and for free dofs the form
and the effect of correcting the values of constrained dofs. -/
noncomputable def Res (D : Problem R) (C : Nat → Nat → Prop) (g X : Nat → Nat → R) (I k : Nat) : R :=
  if C I k then X I k - g I k
  else formVec D X I k + product (D.w.r0 D.w.P) D.bs (formMat D D.J X I k) C (fun J l => g J l - X J l)

open Classical in
/-- A matrix with conditions: rows and columns of constrained dofs are those of the identity. -/
noncomputable def withConditions (C : Nat → Nat → Prop) (A : Nat → Nat → Nat → Nat → R) (I k J l : Nat) : R :=
  if C I k ∨ C J l then (if I = J ∧ k = l then 1 else 0) else A I k J l

/-- `X` is a solution. -/
structure Solution (D : Problem R) (C : Nat → Nat → Prop) (g X : Nat → Nat → R) : Prop where
  cond : ∀ I k, I < D.w.r0 D.w.P → k < D.bs → C I k → X I k = g I k
  free : ∀ I k, I < D.w.r0 D.w.P → k < D.bs → ¬ C I k → formVec D X I k = 0

/-- The forms of all ranks fit together, depend on the entries of the array of `u` only, and are accepted. -/
structure ProblemOk (D : Problem R) (C : Nat → Nat → Prop) (g : Nat → Nat → R) : Prop where
  valid : D.w.Valid
  block : 0 < D.bs
  residual : ∀ q, q < D.w.P → ∀ u, VAccepted (D.F q u)
  jacobian : ∀ q, q < D.w.P → ∀ u, Accepted (D.J q u)
  precond : ∀ p, D.pre = some p → ∀ q, q < D.w.P → ∀ u, Accepted (p q u)
  reads : ∀ q, q < D.w.P → ∀ u v : Nat → R, (∀ i, i < D.bs * (D.w.size q + (D.w.ghosts q).length) → u i = v i) →
    D.F q u = D.F q v ∧ D.J q u = D.J q v ∧ ∀ p, D.pre = some p → p q u = p q v
  dofmap : ∀ q, q < D.w.P → DofmapOk D.bs (D.dm q) ∧ DofsOk D.w q (D.dm q)
  conditions : ∀ q, q < D.w.P → ∀ c ∈ D.bcs q, BcOk c ∧ c.dofs.Pairwise (· ≤ ·)
  values : ConsistentValues D.w D.bs D.bcs C g

/-- The global vector whose owned entries are given. -/
def fromOwned (w : World) (bs : Nat) (x : Nat → Nat → R) (I k : Nat) : R :=
  ∑ r ∈ range w.P, if w.r0 r ≤ I ∧ I < w.r0 r + w.size r then x r (bs * (I - w.r0 r) + k) else 0

/-- The owned entries of a global vector. -/
def toOwned (w : World) (bs : Nat) (X : Nat → Nat → R) : Nat → Nat → R := fun q i =>
  if q < w.P ∧ i < bs * w.size q then X (w.r0 q + i / bs) (i % bs) else 0

/-- The matrix in scalar rows and columns. -/
def toScalar (w : World) (bs : Nat) (A : Nat → Nat → Nat → Nat → R) : Nat → Nat → R := fun r c =>
  if r < bs * w.r0 w.P ∧ c < bs * w.r0 w.P then A (r / bs) (r % bs) (c / bs) (c % bs) else 0

/-- The matrix that preconditions at `X`: that of its form, or the Jacobian if there is none. -/
def preMat (D : Problem R) (X : Nat → Nat → R) : Nat → Nat → Nat → Nat → R :=
  match D.pre with
  | none => formMat D D.J X
  | some p => formMat D p X

/-- What SNES would return if residuals and matrices were those of the problem. -/
noncomputable def ideal (D : Problem R) (C : Nat → Nat → Prop) (g : Nat → Nat → R) : Snes R → (Nat → Nat → R)
  | .done x => fromOwned D.w D.bs x
  | .residual x next => ideal D C g (next (toOwned D.w D.bs (Res D C g (fromOwned D.w D.bs x))))
  | .jacobian x next => ideal D C g (next (toScalar D.w D.bs (withConditions C (formMat D D.J (fromOwned D.w D.bs x))))
      (toScalar D.w D.bs (withConditions C (preMat D (fromOwned D.w D.bs x)))))

end Verif.Spec.NonlinProb
