import Verif.Model.Assembly
import Verif.Model.MatrixScatter
import Verif.Model.Scatterer
import Verif.Model.SuperLu
/-!
# `dolfinx.fem.LinearProblem`

Model of `python/dolfinx/fem/problems.py` L30-205 (the class that does not need PETSc).

* The objects of all ranks are families over ranks; local arrays are functions from positions to scalars.
* An exception on one rank is an exception of the call (the other ranks do not get further than the next
  collective operation).
* What the library computes is arbitrary: `gssvx` and the code it returns.
-/
namespace Verif.LinProb
open Verif.Assembly Verif.World

variable {R : Type}

/-- What the constructor keeps, L100-132: the layout of the space, both forms, the dofmaps, the sparsity pattern that
`create_matrix` made, the conditions. -/
structure Problem (R : Type) where
  w : World
  bs : Nat
  a : Nat → Form R
  L : Nat → Form R
  dm : Nat → Nat → Assembly.Dofmap
  pat : Nat → SP.Pattern
  bcs : Nat → List (BC R)

/-- Contents of `A`, `b`, `x` and of the array of `u`. -/
structure State (R : Type) where
  A : Nat → Nat → R
  b : Nat → Nat → R
  x : Nat → Nat → R
  u : Nat → Nat → R

/-- SuperLU_DIST: solution and code. -/
structure Lib (R : Type) where
  gssvx : (Nat → SuperLu.NRLoc R) → (Nat → List R) → Nat → List R
  info : (Nat → SuperLu.NRLoc R) → (Nat → List R) → Int

/-- Exceptions. -/
inductive Err where
  | assembly | matrix | vector | lifting | layout | solver
  deriving DecidableEq

/-- `MatrixCSR.set_value` (`python/dolfinx/la/__init__.py` L236-242) and `b.array[:] = 0.0`, L156. -/
def setValue (v : R) (_old : Nat → R) : Nat → R := fun _ => v

/-- Size of the local array of a vector. -/
def Problem.dim (D : Problem R) (q : Nat) : Nat := D.bs * (D.w.size q + (D.w.ghosts q).length)

variable [CommRing R]

/-- `A.set_value(0)` and `_assemble_matrix_csr(A, a, bcs=bcs)`, L144-145. -/
def matrixOn (D : Problem R) (A : Nat → Nat → R) (q : Nat) : MatState R :=
  assembleCsr ⟨fun i => (D.pat q).offsets.getD i 0, (D.pat q).edges⟩ D.bs D.bs (D.a q) (D.dm q) (D.dm q) (D.dim q) (D.dim q)
    (D.w.size q) ((D.bcs q).map (·, true)) ((D.bcs q).map (·, true)) true 1 (setValue 0 (A q))

/-- The columns of the matrix: those of the space and the ghosts that the pattern has added. -/
def Problem.cols (D : Problem R) : World :=
  { D.w with ghosts := fun q => (D.pat q).colGhosts, owners := fun q => (D.pat q).colOwners }

/-- `A.scatter_reverse()`, L146. -/
def gathered (D : Problem R) (A : Nat → Nat → R) (q : Nat) : Nat → R :=
  MatScatter.scatterRev D.w D.cols (fun q => ⟨fun i => (D.pat q).offsets.getD i 0, (D.pat q).edges⟩) (D.bs * D.bs) A q

/-- The matrix object `A` of rank `q`. -/
def csr (D : Problem R) (A : Nat → Nat → R) (q : Nat) : SpMV.Mat R :=
  ⟨D.w.size q, fun i => (D.pat q).offsets.getD i 0, fun i => (D.pat q).offDiag.getD i 0, fun k => (D.pat q).edges.getD k 0, A q⟩

/-- `superlu_dist_matrix(A)`, L149. -/
def handedOver (intMax : Nat) (D : Problem R) (A : Nat → Nat → R) (q : Nat) : Except SuperLu.Err (SuperLu.NRLoc R) :=
  SuperLu.createSupermatrix intMax D.w D.cols D.bs D.bs (csr D A q) q

/-- `b.array[:] = 0` and `_assemble_vector_array(b.array, L)`, L156-157. -/
def vectorOn (D : Problem R) (b : Nat → Nat → R) (q : Nat) : Option (Nat → R) :=
  assembleVector (D.L q) (D.dm q) (setValue 0 (b q))

/-- `if self.bcs: apply_lifting(b.array, [a], bcs=[bcs])`, L160-161. -/
def liftedOn [DecidableEq R] (D : Problem R) (b : Nat → R) (q : Nat) : Option (Nat → R) :=
  if (D.bcs q).isEmpty then some b
  else applyLifting [some ⟨D.a q, D.dm q, D.dim q⟩] (D.dm q) [D.bcs q] [] 1 b

/-- `b.scatter_reverse(add)` and `bc.set(b.array)` for each condition, L162-166. -/
def rhsOn [DecidableEq R] (D : Problem R) (b : Nat → Nat → R) (q : Nat) : Nat → R :=
  let v := Scatterer.scatterRev D.w D.bs (· + ·) b q
  if (D.bcs q).isEmpty then v else (D.bcs q).foldl (fun v c => c.set (D.dim q) v none 1) v

/-- A local array as the solver object sees it. -/
def toList (n : Nat) (x : Nat → R) : List R := (List.range n).map x

/-- All ranks return a value. -/
def allSome {α : Type} [Inhabited α] (P : Nat) (f : Nat → Option α) : Option (Nat → α) :=
  if (List.range P).all (fun q => (f q).isSome) then some (fun q => (f q).getD default) else none

instance : Inhabited (SuperLu.NRLoc R) := ⟨⟨0, 0, 0, 0, 0, [], [], []⟩⟩

instance : Inhabited (Nat → R) := ⟨fun _ => 0⟩

/-- L169-174: solve, check the code, update ghosts, copy to `u`. -/
def finish (D : Problem R) (lib : Lib R) (N : Nat → SuperLu.NRLoc R) (s : State R) : State R × Option Err :=
  let b := fun q => toList (D.dim q) (s.b q)
  match allSome D.w.P (SuperLu.solve lib.gssvx N b (fun q => toList (D.dim q) (s.x q))) with
  | none => (s, some .layout)
  | some l =>
    let x := fun q i => (l q).getD i 0
    if 0 < lib.info N (fun q => (b q).take (N q).mLoc) then ({ s with x := x }, some .solver)
    else
      let x := fun q => Scatterer.scatterFwd D.w D.bs x q
      ({ s with x := x, u := x }, none)

/-- L156-174 after the matrix has been handed over. -/
def solveRhs [DecidableEq R] (D : Problem R) (lib : Lib R) (N : Nat → SuperLu.NRLoc R) (s : State R) : State R × Option Err :=
  match allSome D.w.P (vectorOn D s.b) with
  | none => (s, some .vector)
  | some b1 =>
    match allSome D.w.P (fun q => liftedOn D (b1 q) q) with
    | none => ({ s with b := b1 }, some .lifting)
    | some b2 => finish D lib N { s with b := rhsOn D b2 }

/-- `LinearProblem.solve`, L134-174. -/
def solve [DecidableEq R] (intMax : Nat) (D : Problem R) (lib : Lib R) (s : State R) : State R × Option Err :=
  let A := fun q => (matrixOn D s.A q).1
  if (List.range D.w.P).all (fun q => (matrixOn D s.A q).2) = false then ({ s with A := A }, some .assembly)
  else
    let s := { s with A := gathered D A }
    match allSome D.w.P (fun q => (handedOver intMax D s.A q).toOption) with
    | none => (s, some .matrix)
    | some N => solveRhs D lib N s

/-! ## The constructor's check of the scalar type -/

/-- Python objects that denote a scalar type: the class `numpy.float64` or the instance `numpy.dtype("float64")`. -/
inductive DType where
  | cls (name : String)
  | inst (name : String)
  deriving DecidableEq

/-- `Function.dtype` (`fem/function.py` L589-592): `np.dtype(...)`; numpy keeps one instance for each scalar type. -/
def functionDtype (name : String) : DType := .inst name

/-- L93-98: `dtype is not u.dtype` raises `ValueError`.  The result is the scalar type used. -/
def checkDtype (dtype : DType) (u : Option String) : Option DType :=
  match u with
  | some name => if dtype ≠ functionDtype name then none else some (functionDtype name)
  | none => some dtype

/-- `default_scalar_type` without PETSc (`python/dolfinx/__init__.py` L37): the class `np.float64`. -/
def defaultScalar : DType := .cls "float64"

/-- The scalar type that an object denotes. -/
def DType.name : DType → String
  | .cls n => n
  | .inst n => n

end Verif.LinProb
