import Verif.Model.PetscBlock
/-!
# `dolfinx.fem.petsc.NonlinearProblem` with several fields

Model of `python/dolfinx/fem/petsc.py` L1149-1273 (`assemble_residual`, `assemble_jacobian`) and L1510-1536 (`solve`) when residual
and Jacobian are given in arrays, with `apply_lifting` L674-722 and `set_bc` L768-782.

* Vectors and matrices are given by field, as in `Model/PetscBlock`, with the same simplifications.
* A form with its coefficients packed is a function of the local arrays of all functions on its rank.
* SNES is any program that asks for residuals and Jacobians at vectors of its choice and returns a vector, as in
  `Model/NonlinearProblem`.
-/
namespace Verif.BlockNonlin
open Verif.Assembly Verif.World
open Verif.LinProb (allSome)
open Verif.NonlinProb (copyArr)


variable {R : Type}

/-- What the constructor keeps: `P` ranks, `n` fields with layout, dofmaps and conditions, residuals, Jacobian and preconditioner. -/
structure Problem (R : Type) where
  P : Nat
  n : Nat
  w : Nat → World
  bs : Nat → Nat
  dm : Nat → Nat → Nat → Assembly.Dofmap
  bcs : Nat → Nat → List (BC R)
  F : Nat → Nat → (Nat → Nat → R) → Form R
  J : Nat → Nat → Option (Nat → (Nat → Nat → R) → Form R)
  pre : Option (Nat → Nat → Option (Nat → (Nat → Nat → R) → Form R))

/-- The forms with the coefficients packed from the arrays `u`. -/
def Problem.packed (D : Problem R) (u : Nat → Nat → Nat → R) : PetscBlock.Problem R where
  P := D.P
  n := D.n
  field := fun i => ⟨D.w i, D.bs i, D.dm i, fun q => D.F i q fun j => u j q, D.bcs i⟩
  a := fun i j => (D.J i j).map fun a q => a q fun k => u k q
  pre := D.pre.map fun p i j => (p i j).map fun a q => a q fun k => u k q

variable [CommRing R]

/-- `apply_lifting(b, jacobian, bcs=bcs1, x0=x, alpha=-1.0)`, L1211, for field `i` on rank `q`: with the local parts of `x` of all
fields, ghosts included. -/
def liftOn [DecidableEq R] (E : PetscBlock.Problem R) (x : Nat → Nat → Nat → R) (b : Nat → R) (i q : Nat) : Option (Nat → R) :=
  applyLifting ((List.range E.n).map fun j => (E.a i j).map fun F => ⟨F q, (E.field j).dm q, (E.field j).base.dim q⟩)
    ((E.field i).dm q) ((List.range E.n).map fun j => (E.field j).bcs q) ((List.range E.n).map fun j => x j q) (-1) b

/-- `set_bc(b, bcs0, x0=x, alpha=-1.0)`, L1214: the arrays are the owned parts of a field. -/
def setBc [DecidableEq R] (E : PetscBlock.Problem R) (x : Nat → Nat → Nat → R) (b : Nat → R) (i q : Nat) : Nat → R :=
  ((E.field i).bcs q).foldl (fun v c => c.set ((E.field i).base.own q) v (some (x i q)) (-1)) b

/-- `assemble_residual`, L1188-1220.  `none`: an exception. -/
def assembleResidual [DecidableEq R] (D : Problem R) (s : PetscBlock.State R) : Option (PetscBlock.State R) := do
  let s := PetscBlock.assignX (D.packed s.u) s
  let E := D.packed s.u
  let b1 ← allSome D.n fun i => allSome D.P (PetscBlock.vectorOn E s.b i)
  let b2 ← allSome D.n fun i => allSome D.P fun q => liftOn E s.x (b1 i q) i q
  let b3 := fun i q => Scatterer.scatterRev (D.w i) (D.bs i) (· + ·) (b2 i) q
  let b4 := fun i q => setBc E s.x (b3 i q) i q
  some { s with b := fun i q => Scatterer.scatterFwd (D.w i) (D.bs i) (b4 i) q }

/-- `assemble_jacobian`, L1261-1273.  Without preconditioner the Jacobian is used in both places. -/
def assembleJacobian (D : Problem R) (s : PetscBlock.State R) : Option (PetscBlock.State R) := do
  let s := PetscBlock.assignX (D.packed s.u) s
  let E := D.packed s.u
  let A ← PetscBlock.assembleAll E E.a s.A
  let P ← PetscBlock.assemblePre E s.P A
  some { s with A := A, P := P }

/-- SNES.  Vectors are the owned entries of each field on each rank. -/
inductive Snes (R : Type) where
  | done (x : Nat → Nat → Nat → R)
  | residual (x : Nat → Nat → Nat → R) (next : (Nat → Nat → Nat → R) → Snes R)
  | jacobian (x : Nat → Nat → Nat → R) (next : (Nat → Nat → Nat → Nat → R) → (Nat → Nat → Nat → Nat → R) → Snes R)

/-- `self.solver.solve(None, self.x)`. -/
def runSnes [DecidableEq R] (D : Problem R) : Snes R → PetscBlock.State R → Option (PetscBlock.State R)
  | .done x, s => some { s with x := PetscBlock.putX (D.packed s.u) x s }
  | .residual x next, s => do
    let s ← assembleResidual D { s with x := PetscBlock.putX (D.packed s.u) x s }
    runSnes D (next (PetscBlock.owned (D.packed s.u) s.b)) s
  | .jacobian x next, s => do
    let s ← assembleJacobian D { s with x := PetscBlock.putX (D.packed s.u) x s }
    runSnes D (next (PetscBlock.entries (D.packed s.u) s.A) (PetscBlock.entries (D.packed s.u) s.P)) s

/-- `assign(self.u, self.x)`, L1527. -/
def copyU (D : Problem R) (s : PetscBlock.State R) : PetscBlock.State R :=
  { s with x := fun i q => if i < D.n then copyArr (D.bs i * ((D.w i).size q + ((D.w i).ghosts q).length)) (s.u i q) (s.x i q) else s.x i q }

/-- `NonlinearProblem.solve`, L1526-1536; the solver starts from the owned entries of `x`. -/
def solve [DecidableEq R] (D : Problem R) (snes : (Nat → Nat → Nat → R) → Snes R) (s : PetscBlock.State R) : Option (PetscBlock.State R) := do
  let s := copyU D s
  let s ← runSnes D (snes (PetscBlock.owned (D.packed s.u) s.x)) s
  some (PetscBlock.assignX (D.packed s.u) s)

end Verif.BlockNonlin
