import Verif.Model.CollectiveTrace
import Verif.Prelude
/-!
# C22: do all ranks make the same collective calls?
-/
namespace Verif.Props
open Verif.World Verif.CollectiveTrace

/-- A rank without neighbours: it owns no ghosted column and ghosts none. -/
def Isolated (w : World) (r : Nat) : Prop := w.src r = [] ∧ w.dest r = []

theorem fastPath_iff (w : World) (r : Nat) : fastPath w r = true ↔ w.P = 1 ∨ Isolated w r := by
  simp [fastPath, Isolated]

/-- `transpose`: two ranks make the same sequence of collective calls exactly when there is one
rank, or both have neighbours, or neither has. -/
theorem C22_transpose_same_iff (w : World) (r q : Nat) :
    transposeTrace w r = transposeTrace w q ↔ (w.P = 1 ∨ (Isolated w r ↔ Isolated w q)) := by
  have h1 := fastPath_iff w r
  have h2 := fastPath_iff w q
  unfold transposeTrace
  by_cases hP : w.P = 1
  · simp [hP] at h1 h2; simp [h1, h2, hP]
  · simp only [hP, false_or] at h1 h2 ⊢
    rw [← h1, ← h2]
    cases fastPath w r <;> cases fastPath w q <;>
      simp [indexMapNoGhosts, indexMapGhosts, matrixCSR]

/-- `matmul`: the same. -/
theorem C22_matmul_same_iff (w : World) (r q : Nat) :
    matmulTrace w r = matmulTrace w q ↔ (w.P = 1 ∨ (Isolated w r ↔ Isolated w q)) := by
  have h1 := fastPath_iff w r
  have h2 := fastPath_iff w q
  unfold matmulTrace
  by_cases hP : w.P = 1
  · simp [hP] at h1 h2; simp [h1, h2, hP]
  · simp only [hP, false_or] at h1 h2 ⊢
    rw [← h1, ← h2]
    cases fastPath w r <;> cases fastPath w q <;>
      simp [indexMapNoGhosts, indexMapGhosts, matrixCSR, hP]

/-- If no rank is isolated (or all are) every rank makes the same collective calls.  Missing
for the full claim: communicators where some but not all ranks are isolated. -/
theorem C22_same_collectives_partial (w : World)
    (h : (∀ r, r < w.P → Isolated w r) ∨ (∀ r, r < w.P → ¬ Isolated w r)) (r q : Nat)
    (hr : r < w.P) (hq : q < w.P) :
    transposeTrace w r = transposeTrace w q ∧ matmulTrace w r = matmulTrace w q := by
  rw [C22_transpose_same_iff, C22_matmul_same_iff]
  rcases h with h | h
  · have := h r hr; have := h q hq; tauto
  · have := h r hr; have := h q hq; tauto

/-- Three ranks, one column each; rank 1 ghosts rank 0's column; rank 2 has no neighbours. -/
def exIsolated : World where
  P := 3
  size := fun _ => 1
  ghosts := fun r => if r = 1 then [0] else []
  owners := fun r => if r = 1 then [0] else []

theorem exIsolated_valid : exIsolated.Valid := by
  refine ⟨by decide, by decide, ?_⟩
  intro r hr k q g h1 h2
  have hr' : r = 0 ∨ r = 1 ∨ r = 2 := by simp [exIsolated] at hr; omega
  rcases hr' with h | h | h <;> subst h <;> simp [exIsolated] at h1 h2
  match k with
  | 0 =>
    simp at h1 h2
    subst h1; subst h2
    decide

/-- C22 is false: on this layout rank 2 skips the communicator creation that ranks 0 and 1
call on the whole communicator, so the first collective calls already differ. -/
theorem C22_refuted_isolated_rank :
    ∃ w : World, w.Valid ∧ ∃ r q, r < w.P ∧ q < w.P ∧
      (transposeTrace w r).head? ≠ (transposeTrace w q).head? ∧
      (matmulTrace w r).head? ≠ (matmulTrace w q).head? :=
  ⟨exIsolated, exIsolated_valid, 0, 2, by decide, by decide, by decide +kernel, by decide +kernel⟩

-- hypotheses of the partial theorem: two ranks sharing a column
example : ∀ r, r < 2 → ¬ Isolated ⟨2, fun _ => 1, fun r => if r = 1 then [0] else [], fun r => if r = 1 then [0] else []⟩ r := by
  intro r hr
  have : r = 0 ∨ r = 1 := by omega
  rcases this with h | h <;> subst h <;> unfold Isolated <;> decide +kernel

end Verif.Props
