import Verif.Spec.GlobalIndex
import Verif.Model.MatrixView
import Mathlib.Algebra.BigOperators.Group.Finset.Basic
/-! Specification: what the local CSR arrays of a rank stand for. -/
namespace Verif.Spec.MatrixView
open Verif.World Verif.Spec Finset

variable {R : Type} [AddCommMonoid R]

/-- Component (`k0`, `k1`) of the block that a rank stores for its local row `i` and the global column `J`. -/
def rowEntry (w1 : World) (rowPtr : Nat → Nat) (cols : List Nat) (bs0 bs1 : Nat) (data : Nat → R) (q i k0 J k1 : Nat) : R :=
  ∑ t ∈ range (rowPtr (i + 1) - rowPtr i),
    if globalOf w1 q (cols.getD (rowPtr i + t) 0) = some J then data ((rowPtr i + t) * (bs0 * bs1) + (k0 * bs1 + k1)) else 0

/-- The same for a local column `c`. -/
def localColEntry (rowPtr : Nat → Nat) (cols : List Nat) (bs0 bs1 : Nat) (data : Nat → R) (i k0 c k1 : Nat) : R :=
  ∑ t ∈ range (rowPtr (i + 1) - rowPtr i),
    if cols.getD (rowPtr i + t) 0 = c then data ((rowPtr i + t) * (bs0 * bs1) + (k0 * bs1 + k1)) else 0

/-- Arrays of `n` local rows as the constructor has them: no row holds a column twice. -/
structure RowsOk (n nc : Nat) (rowPtr : Nat → Nat) (cols : List Nat) : Prop where
  zero : rowPtr 0 = 0
  mono : ∀ i, i < n → rowPtr i ≤ rowPtr (i + 1)
  len : rowPtr n = cols.length
  range : ∀ c ∈ cols, c < nc
  distinct : ∀ i, i < n → ∀ s t, s < t → t < rowPtr (i + 1) - rowPtr i → cols.getD (rowPtr i + s) 0 ≠ cols.getD (rowPtr i + t) 0

/-- Arrays that SciPy accepts for a matrix in (block) compressed row format. -/
structure Accepted {R : Type} (M : Verif.MatrixView.SciPy R) : Prop where
  rows : ∃ n, M.nrows = M.bs0 * n ∧ M.indptr.length = n + 1
  zero : M.indptr.getD 0 0 = 0
  sorted : M.indptr.Pairwise (· ≤ ·)
  last : M.indptr.getLast? = some M.indices.length
  data : M.data.length = M.indices.length * (M.bs0 * M.bs1)
  cols : ∀ c ∈ M.indices, M.bs1 * c + M.bs1 ≤ M.ncols

/-- Entry of such a matrix. -/
def scipyEntry (M : Verif.MatrixView.SciPy R) (I J : Nat) : R :=
  ∑ j ∈ range M.indices.length,
    if M.indptr.getD (I / M.bs0) 0 ≤ j ∧ j < M.indptr.getD (I / M.bs0 + 1) 0 ∧ M.indices[j]? = some (J / M.bs1) then
      (M.data[j * (M.bs0 * M.bs1) + (I % M.bs0 * M.bs1 + J % M.bs1)]?).getD 0 else 0

end Verif.Spec.MatrixView
