import Verif.Spec.GlobalIndex
import Verif.Model.SpMV
/-! Specification: what a rank stores, in global indices. -/
namespace Verif.Spec
open Verif.World Verif.SpMV

variable {R : Type}

/-- In an owned row of rank `q` some position of the CSR arrays stands for the global block row `I` and the
global block column `J` and holds the `bs0` by `bs1` block `v`. -/
def HasEntry (w0 w1 : World) (bs0 bs1 : Nat) (M : Nat → Mat R) (q I J : Nat) (v : Nat → Nat → R) : Prop :=
  ∃ i k, i < w0.size q ∧ I = w0.r0 q + i ∧ (M q).rowPtr i ≤ k ∧ k < (M q).rowPtr (i + 1) ∧
    globalOf w1 q ((M q).cols k) = some J ∧
    ∀ k0 k1, k0 < bs0 → k1 < bs1 → v k0 k1 = (M q).values (k * bs0 * bs1 + k0 * bs1 + k1)

/-- No row of `M` stores a column twice. -/
def DistinctCols (M : Mat R) : Prop :=
  ∀ i, i < M.nrows → ∀ k k', M.rowPtr i ≤ k → k < k' → k' < M.rowPtr (i + 1) → M.cols k ≠ M.cols k'

/-- The columns of every row increase strictly. -/
def SortedRows (M : Mat R) : Prop :=
  ∀ i, i < M.nrows → ∀ k k', M.rowPtr i ≤ k → k < k' → k' < M.rowPtr (i + 1) → M.cols k < M.cols k'

end Verif.Spec
