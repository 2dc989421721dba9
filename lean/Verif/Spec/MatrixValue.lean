import Verif.Spec.GlobalIndex
import Verif.Model.SpMV
import Mathlib.Algebra.BigOperators.Group.Finset.Basic
import Mathlib.Order.Interval.Finset.Nat
/-! Specification: the dense global matrix that distributed CSR arrays with block size 1 stand for. -/
namespace Verif.Spec
open Verif.World Verif.SpMV Finset

variable {R : Type} [AddCommMonoid R]

/-- Entry (`I`, `J`): sum of the values stored for it in owned rows of all ranks. -/
def matVal (w0 w1 : World) (M : Nat → Mat R) (I J : Nat) : R :=
  ∑ q ∈ range w0.P, ∑ i ∈ range (w0.size q), if w0.r0 q + i = I then
    ∑ k ∈ Ico ((M q).rowPtr i) ((M q).rowPtr (i + 1)), if globalOf w1 q ((M q).cols k) = some J then (M q).values k else 0
  else 0

end Verif.Spec
