import Verif.Spec.GlobalIndex
import Mathlib.Algebra.BigOperators.Group.Finset.Basic
/-! Specification: the global matrix represented by local CSR arrays. -/
namespace Verif.Spec
open Verif.World Finset

variable {R : Type} [AddCommMonoid R]

/-- Component `b` of what rank `q` stores for the global entry (`I`, `J`): the sum over all of
its local rows (owned and ghost) and all positions of the row.  A block has `bs2` components. -/
def localEntry (w0 w1 : World) (rowPtr : Nat → Nat → Nat) (cols : Nat → List Nat) (bs2 : Nat)
    (data : Nat → Nat → R) (q I J b : Nat) : R :=
  ∑ i ∈ range (w0.size q + (w0.ghosts q).length), ∑ t ∈ range (rowPtr q (i + 1) - rowPtr q i),
    if globalOf w0 q i = some I ∧ globalOf w1 q ((cols q).getD (rowPtr q i + t) 0) = some J
    then data q ((rowPtr q i + t) * bs2 + b) else 0

/-- The entry of the represented operator: the sum over all ranks. -/
def globalEntry (w0 w1 : World) (rowPtr : Nat → Nat → Nat) (cols : Nat → List Nat) (bs2 : Nat)
    (data : Nat → Nat → R) (I J b : Nat) : R :=
  ∑ q ∈ range w0.P, localEntry w0 w1 rowPtr cols bs2 data q I J b

/-- Arrays as built from a finalised sparsity pattern: row pointers increase, columns are local
column indices, owned rows are strictly sorted, and the owner of a ghost row stores every
entry of that row. -/
structure MatOk (w0 w1 : World) (rowPtr : Nat → Nat → Nat) (cols : Nat → List Nat) : Prop where
  mono : ∀ q, q < w0.P → ∀ i, i < w0.size q + (w0.ghosts q).length → rowPtr q i ≤ rowPtr q (i + 1)
  len : ∀ q, q < w0.P → rowPtr q (w0.size q + (w0.ghosts q).length) ≤ (cols q).length
  range : ∀ q, q < w0.P → ∀ c ∈ cols q, c < w1.size q + (w1.ghosts q).length
  sorted : ∀ q, q < w0.P → ∀ i, i < w0.size q → ∀ s t, s < t → t < rowPtr q (i + 1) - rowPtr q i →
    (cols q).getD (rowPtr q i + s) 0 < (cols q).getD (rowPtr q i + t) 0
  closed : ∀ q, q < w0.P → ∀ k r I : Nat, (w0.owners q)[k]? = some r → (w0.ghosts q)[k]? = some I →
    ∀ t, t < rowPtr q (w0.size q + k + 1) - rowPtr q (w0.size q + k) →
    ∃ t', t' < rowPtr r (I - w0.r0 r + 1) - rowPtr r (I - w0.r0 r) ∧
      globalOf w1 r ((cols r).getD (rowPtr r (I - w0.r0 r) + t') 0) =
      globalOf w1 q ((cols q).getD (rowPtr q (w0.size q + k) + t) 0)

end Verif.Spec
