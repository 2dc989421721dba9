import Verif.Model.StdAlg
/-!
# Insertion of dense blocks into a CSR matrix

Model of `cpp/dolfinx/la/matrix_csr_impl.h` L67-232 and of
`MatrixCSR::set` / `MatrixCSR::add` (`la/MatrixCSR.h` L265-335).

Memory is a function from positions to values.  The loops produce, in program
order, the accesses `data[pos] op= value` and the points where the "Entry not in
sparsity" exception is thrown; `run` executes them and stops at the first throw.
-/
namespace Verif.Csr
open Verif.Std

variable {R : Type}

/-- `_row_ptr` and `_cols` of `MatrixCSR` (`la/MatrixCSR.h`, private members). -/
structure Pattern where
  rowPtr : Nat → Nat
  cols : List Nat

/-- Columns of one row: the range `[cit0, cit1)`. -/
def Pattern.row (P : Pattern) (r : Nat) : List Nat :=
  (P.cols.drop (P.rowPtr r)).take (P.rowPtr (r + 1) - P.rowPtr r)

/-- `std::lower_bound(cit0, cit1, col)` and the presence check (L89-95): the
position `d` in `cols`, or `none` when the entry is missing. -/
def Pattern.find (P : Pattern) (r col : Nat) : Option Nat :=
  let k := lowerBound (fun c => decide (c < col)) (P.row r)
  if (P.row r)[k]? = some col then some (P.rowPtr r + k) else none

/-- One access: `some (pos, v)` is `op(data[pos], v)`, `none` is the throw. -/
abbrev Ev (R : Type) := Option (Nat × R)

/-- `insert_csr<BS0,BS1>`, L67-109. -/
def insertCsr (P : Pattern) (b0 b1 : Nat) (x : Nat → R) (xrows xcols : List Nat) : List (Ev R) :=
  let nc := xcols.length
  xrows.zipIdx.flatMap fun (row, r) =>
    xcols.zipIdx.flatMap fun (col, c) =>
      match P.find row col with
      | none => [none]
      | some d =>
        (List.range b0).flatMap fun i => (List.range b1).map fun j =>
          some (d * b0 * b1 + i * b1 + j, x (r * nc * b0 * b1 + (c * b1 + i * (nc * b1)) + j))

/-- `insert_blocked_csr<BS0,BS1>`, L132-172 (matrix block size 1). -/
def insertBlockedCsr (P : Pattern) (b0 b1 : Nat) (x : Nat → R) (xrows xcols : List Nat) : List (Ev R) :=
  let nc := xcols.length
  xrows.zipIdx.flatMap fun (row, r) =>
    (List.range b0).flatMap fun i =>
      xcols.zipIdx.flatMap fun (col, c) =>
        match P.find (row * b0 + i) (col * b1) with
        | none => [none]
        | some d =>
          (List.range b1).map fun j =>
            some (d + j, x ((r * b0 + i) * nc * b1 + c * b1 + j))

/-- `insert_nonblocked_csr`, L193-232 (data block size 1). -/
def insertNonblockedCsr (P : Pattern) (b0 b1 : Nat) (x : Nat → R) (xrows xcols : List Nat) : List (Ev R) :=
  let nc := xcols.length
  xrows.zipIdx.flatMap fun (row, r) =>
    xcols.zipIdx.flatMap fun (col, c) =>
      match P.find (row / b0) (col / b1) with
      | none => [none]
      | some d => [some (d * (b0 * b1) + (row % b0) * b1 + col % b1, x (r * nc + c))]

/-- Execute the accesses; the flag tells whether the call returned normally. -/
def run (op : R → R → R) (data : Nat → R) : List (Ev R) → (Nat → R) × Bool
  | [] => (data, true)
  | none :: _ => (data, false)
  | some (p, v) :: es => run op (fun q => if q = p then op (data q) v else data q) es

/-- `MatrixCSR::set`: `op = (·, v) ↦ v`; `MatrixCSR::add`: `op = (+)`. -/
def setOp : R → R → R := fun _ v => v

/-- Dispatch on block sizes in `set`/`add` (`la/MatrixCSR.h` L265-335): data block
size `B`, matrix block size `b`.  `none` = `assert(BS0 == 1 and BS1 == 1)` fails. -/
def dispatch (P : Pattern) (b0 b1 B0 B1 : Nat) (x : Nat → R) (xrows xcols : List Nat) :
    Option (List (Ev R)) :=
  if b0 = B0 ∧ b1 = B1 then some (insertCsr P B0 B1 x xrows xcols)
  else if b0 = 1 ∧ b1 = 1 then some (insertBlockedCsr P B0 B1 x xrows xcols)
  else if B0 = 1 ∧ B1 = 1 then some (insertNonblockedCsr P b0 b1 x xrows xcols)
  else none

end Verif.Csr
