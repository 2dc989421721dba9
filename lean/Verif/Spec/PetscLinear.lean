import Verif.Model.PetscLinear
import Verif.Spec.LinearProblem
import Verif.Spec.NonlinearProblem
/-! Specification: the linear system of a discrete problem with Dirichlet conditions. -/
namespace Verif.Spec.PetscLin
open Verif.World Verif.Assembly Verif.PetscLin Verif.Spec Verif.Spec.Assemble Finset

variable {R : Type} [CommRing R]

/-- The matrix of a bilinear form, by global dofs and components. -/
def mat (D : Problem R) (a : Nat → Form R) : Nat → Nat → Nat → Nat → R :=
  globalOp D.w D.w D.bs D.bs (fun q => elems (a q) (D.dm q) (D.dm q))

open Classical in
/-- The right-hand side: prescribed values, and for free dofs the linear form less what the prescribed values contribute. -/
noncomputable def rhs (D : Problem R) (C : Nat → Nat → Prop) (g : Nat → Nat → R) (I k : Nat) : R :=
  if C I k then g I k
  else globalVec D.w D.bs (fun q => velems (D.L q) (D.dm q)) I k - product (D.w.r0 D.w.P) D.bs (mat D D.a I k) C g

/-- The forms, dofmaps and conditions of all ranks fit together. -/
structure ProblemOk (D : Problem R) (C : Nat → Nat → Prop) (g : Nat → Nat → R) : Prop where
  valid : D.w.Valid
  block : 0 < D.bs
  bilinear : ∀ q, q < D.w.P → Accepted (D.a q)
  linear : ∀ q, q < D.w.P → VAccepted (D.L q)
  precond : ∀ p, D.pre = some p → ∀ q, q < D.w.P → Accepted (p q)
  dofmap : ∀ q, q < D.w.P → DofmapOk D.bs (D.dm q) ∧ DofsOk D.w q (D.dm q)
  conditions : ∀ q, q < D.w.P → ∀ c ∈ D.bcs q, BcOk c ∧ c.dofs.Pairwise (· ≤ ·)
  values : ConsistentValues D.w D.bs D.bcs C g

/-- `x` (owned entries on each rank) solves the system with `n` scalar unknowns given by its entries and the owned entries of
the right-hand side. -/
def SolvesSystem (w : World) (bs : Nat) (A : Nat → Nat → R) (b x : Nat → Nat → R) : Prop :=
  ∀ I k, I < w.r0 w.P → k < bs → ∑ J ∈ range (w.r0 w.P), ∑ l ∈ range bs,
    A (bs * I + k) (bs * J + l) * NonlinProb.fromOwned w bs x J l = NonlinProb.fromOwned w bs b I k

end Verif.Spec.PetscLin
