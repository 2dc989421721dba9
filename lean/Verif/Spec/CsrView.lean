import Verif.Model.CsrInsert
/-!
# What a CSR matrix represents

`Stored P b0 b1 I J p`: with blocks of size `b0 × b1`, the scalar entry (row `I`,
column `J`) is in the sparsity pattern and its value is kept at position `p`.

`contribs`: the values a dense block `x` holds for the scalar entry `(I, J)`, where
the dense block has `B0` rows for each index in `xrows` and `B1` columns for each
index in `xcols`, stored row-major.
-/
namespace Verif.Spec
open Verif.Csr

variable {R : Type}

/-- Position of the scalar entry `(I, J)`. -/
def Stored (P : Pattern) (b0 b1 I J p : Nat) : Prop :=
  ∃ d, P.rowPtr (I / b0) ≤ d ∧ d < P.rowPtr (I / b0 + 1) ∧ P.cols[d]? = some (J / b1) ∧
    p = (d * b0 + I % b0) * b1 + J % b1

/-- Dense-block values addressed to `(I, J)`, in row-major order of the block. -/
def contribs (B0 B1 : Nat) (x : Nat → R) (xrows xcols : List Nat) (I J : Nat) : List R :=
  xrows.zipIdx.flatMap fun (row, r) => xcols.zipIdx.flatMap fun (col, c) =>
    if row = I / B0 ∧ col = J / B1 then
      [x ((r * B0 + I % B0) * (xcols.length * B1) + (c * B1 + J % B1))]
    else []

/-- A well-formed CSR pattern: row pointers increase up to the number of columns
entries, each row's columns strictly increase. -/
structure PatternOk (P : Pattern) (nrows : Nat) : Prop where
  mono : ∀ r, r < nrows → P.rowPtr r ≤ P.rowPtr (r + 1)
  bound : P.rowPtr nrows ≤ P.cols.length
  sorted : ∀ r, r < nrows → (P.row r).Pairwise (· < ·)

end Verif.Spec
