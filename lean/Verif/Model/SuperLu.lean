import Verif.Model.SpMV
/-!
# The SuperLU_DIST interface

Model of `la/superlu_dist.cpp` L51-221 (conversion of a `MatrixCSR`), L402-415 (process grid), L468-698
(options, exchange of the matrix, solve, release of the factors).  `int_t` is an unbounded integer here apart
from the explicit check; the routines of SuperLU_DIST itself are parameters.  The scalar types share one template
and are one function.
-/
namespace Verif.SuperLu
open Verif.World Verif.SpMV

variable {R : Type}

/-- `IndexMap::global_indices`, `common/IndexMap.cpp` L1008-1018: owned range, then ghosts. -/
def globalIndices (w : World) (r : Nat) : List Nat := (List.range (w.size r)).map (w.r0 r + ·) ++ w.ghosts r

/-- `a[pos++] = v`. -/
def push (s : List R × Nat) (v : R) : List R × Nat := (s.1.set s.2 v, s.2 + 1)

/-- `col_indices`, L52-87.  `g` is `global_indices`. -/
def colIndices (g : List Nat) (bs0 bs1 : Nat) (A : Mat R) : List Nat :=
  let nnz := A.rowPtr A.nrows
  if bs0 = 1 ∧ bs1 = 1 then (List.range nnz).map fun k => g.getD (A.cols k) 0
  else ((List.range A.nrows).foldl (fun s i => (List.range bs0).foldl (fun s _ =>
    (List.range (A.rowPtr (i + 1) - A.rowPtr i)).foldl (fun s t =>
      let colBlock := g.getD (A.cols (A.rowPtr i + t)) 0
      (List.range bs1).foldl (fun s i1 => push s (colBlock * bs1 + i1)) s) s) s)
    (List.replicate (nnz * bs0 * bs1) 0, 0)).1

/-- `std::fill_n(a.begin() + s, n, v)`. -/
def fillN (a : List Nat) (s n v : Nat) : List Nat := a.take s ++ List.replicate n v ++ a.drop (s + n)

/-- `std::inclusive_scan`, with the sum so far. -/
def inclusiveScan (s : Nat) : List Nat → List Nat
  | [] => []
  | x :: l => (s + x) :: inclusiveScan (s + x) l

/-- `row_indices`, L90-119. -/
def rowIndices (bs0 bs1 : Nat) (A : Mat R) : List Nat :=
  if bs0 = 1 ∧ bs1 = 1 then (List.range (A.nrows + 1)).map A.rowPtr
  else
    let a := (List.replicate (A.nrows * bs0 + 1) 0).set 0 (A.rowPtr 0 * bs1)
    let a := (List.range A.nrows).foldl (fun a i =>
      fillN a (1 + i * bs0) bs0 ((A.rowPtr (i + 1) - A.rowPtr i) * bs1)) a
    a.take 1 ++ inclusiveScan 0 (a.drop 1)

/-- `matrix_values`, L122-155. -/
def matrixValues [Zero R] (bs0 bs1 : Nat) (A : Mat R) : List R :=
  let nnz := A.rowPtr A.nrows
  if bs0 = 1 ∧ bs1 = 1 then (List.range nnz).map A.values
  else ((List.range A.nrows).foldl (fun s i => (List.range bs0).foldl (fun s i0 =>
    (List.range (A.rowPtr (i + 1) - A.rowPtr i)).foldl (fun s t =>
      let j := A.rowPtr i + t
      (List.range bs1).foldl (fun s i1 => push s (A.values (j * bs0 * bs1 + i0 * bs1 + i1))) s) s) s)
    (List.replicate (nnz * bs0 * bs1) 0, 0)).1

/-- The arguments of `p?Create_CompRowLoc_Matrix_dist`: the part of a scalar matrix that a rank holds. -/
structure NRLoc (R : Type) where
  m : Nat
  n : Nat
  nnzLoc : Nat
  mLoc : Nat
  firstRow : Nat
  vals : List R
  cols : List Nat
  rowptr : List Nat

/-- Exceptions. -/
inductive Err where
  | notSquare | outOfRange
  deriving DecidableEq

/-- Global size: sum of the owned sizes (`IndexMap::size_global`). -/
def sizeGlobal (w : World) : Nat := w.r0 w.P

/-- `create_supermatrix` and the constructor, L157-221, on rank `r`; `intMax` is the largest `int_t`. -/
def createSupermatrix [Zero R] (intMax : Nat) (w0 w1 : World) (bs0 bs1 : Nat) (A : Mat R) (r : Nat) :
    Except Err (NRLoc R) :=
  let m := sizeGlobal w0 * bs0
  let n := sizeGlobal w1 * bs1
  if m ≠ n then .error .notSquare
  else
    let mLoc := A.nrows * bs0
    let firstRow := w0.r0 r * bs0
    let nnzLoc := A.rowPtr A.nrows * bs0 * bs1
    if [m, n, mLoc, firstRow, nnzLoc].any (fun x => decide (intMax ≤ x)) then .error .outOfRange
    else .ok ⟨m, n, nnzLoc, mLoc, firstRow, matrixValues bs0 bs1 A, colIndices (globalIndices w1 r) bs0 bs1 A,
      rowIndices bs0 bs1 A⟩

/-- `while (size % nprow != 0) --nprow`, L407-409; `fuel` bounds the number of steps. -/
def decRow (size : Nat) : Nat → Nat → Nat
  | 0, nprow => nprow
  | fuel + 1, nprow => if size % nprow ≠ 0 then decRow size fuel (nprow - 1) else nprow

/-- Process grid, L404-410. -/
def grid (size : Nat) : Nat × Nat :=
  let nprow := decRow size size (Nat.sqrt size)
  (nprow, size / nprow)

/-- Values of the option `Fact`. -/
inductive Fact where
  | doFact | samePattern | sameRowPerm | factored
  deriving DecidableEq

/-- `set_option`, L476-551: the names that are looked up, and what is accepted for them. -/
def boolOptions : List String :=
  ["Equil", "DiagInv", "SymmetricMode", "PivotGrowth", "ConditionNumber", "ReplaceTinyPivot", "PrintStat",
    "lookahead_etree", "SymPattern", "Use_TensorCore", "Algo3d"]

/-- Enumerated options, L516-544. -/
def enumOptions : List (String × List String) :=
  [("Fact", ["DOFACT", "SamePattern", "SamePattern_SameRowPerm", "FACTORED"]),
   ("Trans", ["NOTRANS", "TRANS", "CONJ"]),
   ("ColPerm", ["NATURAL", "MMD_ATA", "MMD_AT_PLUS_A", "COLAMD", "METIS_AT_PLUS_A", "PARMETIS", "METIS_ATA", "ZOLTAN",
     "MY_PERMC"]),
   ("RowPerm", ["NOROWPERM", "LargeDiag_MC64", "LargeDiag_HWPM", "MY_PERMR"])]

/-- `set_option` succeeds. -/
def optionAccepted (name value : String) : Bool :=
  if boolOptions.contains name then value == "YES" || value == "NO"
  else match enumOptions.find? (fun e => e.1 == name) with
    | some e => e.2.contains value
    | none => false

/-- What the solver object keeps.  `held` counts the sets of factor arrays that SuperLU_DIST has allocated in
`LUstruct` and nobody has freed; `lost` those whose pointers were overwritten; `bad` records a call of `Destroy_LU`
with nothing to free. -/
structure Solver where
  mat : Nat
  fact : Fact
  isFactored : Bool
  held : Bool
  lost : Nat
  bad : Bool
  deriving DecidableEq

/-- Construction with matrix number `a`; the default of `Fact` is `DOFACT`. -/
def newSolver (a : Nat) : Solver := ⟨a, .doFact, false, false, 0, false⟩

/-- `?Destroy_LU`. -/
def destroyLU (s : Solver) : Solver := { s with held := false, bad := s.bad || !s.held }

/-- `set_A` for a matrix `a` of the same size on the same communicator, L569-622; the flag says that it threw. -/
def setA (s : Solver) (a : Nat) (f : String) : Solver × Bool :=
  let s := { s with mat := a }
  if f = "DOFACT" ∨ f = "SamePattern" then
    let s := if s.isFactored then { destroyLU s with isFactored := false } else s
    ({ s with fact := if f = "DOFACT" then .doFact else .samePattern }, false)
  else if f = "SamePattern_SameRowPerm" then ({ s with fact := .sameRowPerm }, false)
  else (s, true)

/-- `p?gssvx` as far as the factor arrays go: an illegal argument (`info < 0`) returns at once; `DOFACT` and `SamePattern`
allocate new arrays and overwrite the pointers; the other values use the arrays there are (comment at L592-595). -/
def gssvxArrays (s : Solver) (info : Int) : Solver :=
  if info < 0 then s
  else match s.fact with
    | .doFact | .samePattern => { s with held := true, lost := s.lost + if s.held then 1 else 0 }
    | _ => s

/-- `solve`, L624-698, as far as the factors go. -/
def solveState (s : Solver) (info : Int) : Solver :=
  let s := gssvxArrays s info
  if 0 ≤ info then { s with isFactored := true } else s

/-- Destructor, L553-567. -/
def destruct (s : Solver) : Solver := if s.isFactored then destroyLU s else s

/-- Calls a user can make. -/
inductive UserCall where
  | setFact (f : Fact)
  | setA (a : Nat) (f : String)
  | solve (info : Int)

/-- One call. -/
def UserCall.run (s : Solver) : UserCall → Solver
  | .setFact f => { s with fact := f }
  | .setA a f => (SuperLu.setA s a f).1
  | .solve info => solveState s info

/-- `solve`, L635-680: `u` becomes a copy of `b`, and SuperLU_DIST replaces its first `m_loc` entries by what
`gssvx` computes from the matrix and the first `m_loc` entries of the right-hand sides of all ranks. -/
def solve (gssvx : (Nat → NRLoc R) → (Nat → List R) → Nat → List R) (N : Nat → NRLoc R) (b u : Nat → List R) (r : Nat) :
    Option (List R) :=
  if (b r).length ≠ (u r).length then none
  else some (gssvx N (fun q => (b q).take (N q).mLoc) r ++ (b r).drop (N r).mLoc)

end Verif.SuperLu
