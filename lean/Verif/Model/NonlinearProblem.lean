import Verif.Model.LinearProblem
/-!
# `dolfinx.fem.petsc.NonlinearProblem`

Model of `python/dolfinx/fem/petsc.py` L1149-1273 (`assemble_residual`, `assemble_jacobian`) and
L1510-1536 (`NonlinearProblem.solve`) for one form, with `apply_lifting` L725-730, `set_bc`
L762-767, the non-blocked part of `_assemble_matrix_petsc` L590-602, `assign` L1785-1839 and
`la/petsc.py` L36-57, L153-226.

* A form with its coefficients packed is a function of the local array of `u`.
* A PETSc vector is its local form on each rank, owned entries first.  `ghostUpdate` is the forward
  or the reverse scatter of the index map (C10, C11).
* A PETSc matrix is a function of global rows and columns.  `MatSetValuesBlockedLocal` maps block
  indices through the local-to-global map; values that ranks add are summed; an entry that is not
  in the preallocated pattern is not an error here.
* SNES is any program that asks for residuals and Jacobians at vectors of its choice and returns a
  vector.  It sees owned entries only.
-/
namespace Verif.NonlinProb
open Verif.Assembly Verif.World Verif.LinProb

variable {R : Type}

/-- What the constructor keeps: layout of the space, residual, Jacobian and preconditioner (each for a local array of
`u`), dofmaps, conditions. -/
structure Problem (R : Type) where
  w : World
  bs : Nat
  F : Nat → (Nat → R) → Form R
  J : Nat → (Nat → R) → Form R
  pre : Option (Nat → (Nat → R) → Form R)
  dm : Nat → Nat → Assembly.Dofmap
  bcs : Nat → List (BC R)

/-- Contents of the vectors, of the array of `u` and of the two matrices. -/
structure State (R : Type) where
  x : Nat → Nat → R
  u : Nat → Nat → R
  b : Nat → Nat → R
  A : Nat → Nat → R
  P : Nat → Nat → R

/-- Size of a local array and of its owned part. -/
def Problem.dim (D : Problem R) (q : Nat) : Nat := D.bs * (D.w.size q + (D.w.ghosts q).length)
def Problem.own (D : Problem R) (q : Nat) : Nat := D.bs * D.w.size q

/-- `to[:] = from` for arrays with `n` entries. -/
def copyArr (n : Nat) (src dst : Nat → R) : Nat → R := fun i => if i < n then src i else dst i

/-- `_ghost_update(x, INSERT, FORWARD)`; `assign(x, u)`: L1188-1192, L1263-1264. -/
def assignX (D : Problem R) (s : State R) : State R :=
  let x := fun q => Scatterer.scatterFwd D.w D.bs s.x q
  { s with x := x, u := fun q => copyArr (D.dim q) (x q) (s.u q) }

variable [CommRing R]

/-! ## Residual -/

/-- `_zero_vector(b)`; `assemble_vector(b, residual)`: L1202-1203. -/
def residualOn (D : Problem R) (s : State R) (q : Nat) : Option (Nat → R) :=
  assembleVector (D.F q (s.u q)) (D.dm q) (setValue 0 (s.b q))

/-- `apply_lifting(b, [jacobian], bcs=[bcs], x0=[x], alpha=-1.0)`, L1217. -/
def liftOn [DecidableEq R] (D : Problem R) (s : State R) (b : Nat → R) (q : Nat) : Option (Nat → R) :=
  applyLifting [some ⟨D.J q (s.u q), D.dm q, D.dim q⟩] (D.dm q) [D.bcs q] [s.x q] (-1) b

/-- `set_bc(b, bcs, x0=x, alpha=-1.0)`, L1219: the arrays are the owned parts. -/
def setBc [DecidableEq R] (D : Problem R) (s : State R) (b : Nat → R) (q : Nat) : Nat → R :=
  (D.bcs q).foldl (fun v c => c.set (D.own q) v (some (s.x q)) (-1)) b

/-- `assemble_residual`, L1188-1220.  `none`: an exception. -/
def assembleResidual [DecidableEq R] (D : Problem R) (s : State R) : Option (State R) := do
  let s := assignX D s
  let b1 ← allSome D.w.P (residualOn D s)
  let b2 ← allSome D.w.P (fun q => liftOn D s (b1 q) q)
  let b3 := fun q => Scatterer.scatterRev D.w D.bs (· + ·) b2 q
  let b4 := fun q => setBc D s (b3 q) q
  some { s with b := fun q => Scatterer.scatterFwd D.w D.bs b4 q }

/-! ## Matrices -/

/-- `build_l2g`, `la/petsc.cpp` L344-352. -/
def l2g (w : World) (q : Nat) : List Nat := (List.range (w.size q)).map (w.r0 q + ·) ++ w.ghosts q

/-- `MatSetValuesBlockedLocal(A, …, ADD_VALUES)` on rank `q` (`la/petsc.h` L339-371), seen in row `r` and column `c`. -/
def petscAdd (w : World) (bs q : Nat) : MatSet (Nat → Nat → R) R := fun A rows cols V => fun r c =>
  A r c + (rows.zipIdx.map fun a => (cols.zipIdx.map fun b =>
    if (l2g w q)[a.1]? = some (r / bs) ∧ (l2g w q)[b.1]? = some (c / bs) then
      V ((bs * a.2 + r % bs) * (bs * cols.length) + (bs * b.2 + c % bs)) else 0).sum).sum

/-- Global number of local scalar index `d`. -/
def scalarIndex (w : World) (bs q d : Nat) : Option Nat := ((l2g w q)[d / bs]?).map fun I => bs * I + d % bs

/-- `MatSetValuesLocal(A, …, INSERT_VALUES)` on rank `q` for one row and one column (`la/petsc.h` L305-337). -/
def petscSet (w : World) (bs q : Nat) : MatSet (Nat → Nat → R) R := fun A rows cols V => fun r c =>
  if rows.map (scalarIndex w bs q) = [some r] ∧ cols.map (scalarIndex w bs q) = [some c] then V 0 else A r c

/-- `_assemble_matrix_petsc(A, a, bcs, diag)` for one form, L590-600: all ranks add their element matrices, then
`FLUSH`, then the diagonal. -/
def assemblePetsc (D : Problem R) (a : Nat → Form R) (diag : R) (A : Nat → Nat → R) : Option (Nat → Nat → R) := do
  let A ← (List.range D.w.P).foldlM (fun A q =>
    assembleMatrix (petscAdd D.w D.bs q) false (a q) (D.dm q) (D.dm q) (matrixMarkers (D.dim q) ((D.bcs q).map (·, true)))
      (matrixMarkers (D.dim q) ((D.bcs q).map (·, true))) A) A
  some ((List.range D.w.P).foldl (fun A q =>
    setDiagonalBcs (petscSet D.w D.bs q) D.bs (D.w.size q) ((D.bcs q).map (·, true)) diag A) A)

/-- `zeroEntries`. -/
def zeroEntries (_A : Nat → Nat → R) : Nat → Nat → R := fun _ _ => 0

/-- The preconditioner matrix, L1270-1273.  Without a form for it `SNES.setJacobian` uses the Jacobian in both places
(`P_mat` is `None`, L1447). -/
def assemblePre (D : Problem R) (s : State R) : Option (Nat → Nat → R) :=
  match D.pre with
  | none => some s.A
  | some p => assemblePetsc D (fun q => p q (s.u q)) 1 (zeroEntries s.P)

/-- `assemble_jacobian`, L1261-1273. -/
def assembleJacobian (D : Problem R) (s : State R) : Option (State R) := do
  let s := assignX D s
  let A ← assemblePetsc D (fun q => D.J q (s.u q)) 1 (zeroEntries s.A)
  let s := { s with A := A }
  let P ← assemblePre D s
  some { s with P := P }

/-! ## Solve -/

/-- SNES.  Vectors are the owned entries on each rank. -/
inductive Snes (R : Type) where
  | done (x : Nat → Nat → R)
  | residual (x : Nat → Nat → R) (next : (Nat → Nat → R) → Snes R)
  | jacobian (x : Nat → Nat → R) (next : (Nat → Nat → R) → (Nat → Nat → R) → Snes R)

/-- The owned entries of a vector. -/
def owned (D : Problem R) (x : Nat → Nat → R) : Nat → Nat → R := fun q i => if q < D.w.P ∧ i < D.own q then x q i else 0

/-- The entries of a matrix. -/
def entries (D : Problem R) (A : Nat → Nat → R) : Nat → Nat → R := fun r c =>
  if r < D.bs * D.w.r0 D.w.P ∧ c < D.bs * D.w.r0 D.w.P then A r c else 0

/-- The vector that SNES passes to a callback: owned entries as given; ghosts as they were. -/
def place (D : Problem R) (x : Nat → Nat → R) (old : Nat → Nat → R) : Nat → Nat → R := fun q => copyArr (D.own q) (x q) (old q)

/-- `self.solver.solve(None, self.x)`. -/
def runSnes [DecidableEq R] (D : Problem R) : Snes R → State R → Option (State R)
  | .done x, s => some { s with x := place D x s.x }
  | .residual x next, s => do
    let s ← assembleResidual D { s with x := place D x s.x }
    runSnes D (next (owned D s.b)) s
  | .jacobian x next, s => do
    let s ← assembleJacobian D { s with x := place D x s.x }
    runSnes D (next (entries D s.A) (entries D s.P)) s

/-- `NonlinearProblem.solve`, L1526-1536; the solver starts from the owned entries of `x`. -/
def solve [DecidableEq R] (D : Problem R) (snes : (Nat → Nat → R) → Snes R) (s : State R) : Option (State R) := do
  let s := { s with x := fun q => copyArr (D.dim q) (s.u q) (s.x q) }
  let s ← runSnes D (snes (owned D s.x)) s
  some (assignX D s)

end Verif.NonlinProb
