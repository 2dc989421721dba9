import Verif.Model.VectorOps
import Verif.Lemmas.BucketFill
import Verif.Prelude
import Mathlib.Algebra.BigOperators.Ring.Finset
import Mathlib.Algebra.BigOperators.Intervals
import Mathlib.Algebra.Order.BigOperators.Group.Finset
namespace Verif.VectorOps
open Verif.World Finset

variable {K : Type} [RCLike K]

theorem foldl_range_sum {M : Type} [AddCommMonoid M] (f : Nat → M) (n : Nat) (a : M) :
    (List.range n).foldl (fun s i => s + f i) a = a + ∑ i ∈ range n, f i := by
  induction n with
  | zero => simp
  | succ n ih => rw [List.range_succ, List.foldl_append, ih, Finset.sum_range_succ]; simp [add_assoc]

theorem inner_eq (w : World) (bs : Nat) (a b : Vec K) :
    inner w bs a b = ∑ r ∈ range w.P, ∑ n ∈ range (bs * w.size r), (starRingEnd K) (a r n) * b r n := by
  unfold inner
  simp only [foldl_range_sum, zero_add]

theorem normL1_eq (w : World) (bs : Nat) (x : Vec K) :
    normL1 w bs x = ∑ r ∈ range w.P, ∑ n ∈ range (bs * w.size r), ‖x r n‖ := by
  unfold normL1
  simp only [foldl_range_sum, zero_add]

/-- Sum over ranks and owned entries = sum over all global entries. -/
theorem sum_global {M : Type} [AddCommMonoid M] (c : Nat → Nat) (P : Nat) (f : Nat → Nat → M) (F : Nat → M)
    (h : ∀ r, r < P → ∀ n, n < c r → F (Offsets.excl c r + n) = f r n) :
    ∑ r ∈ range P, ∑ n ∈ range (c r), f r n = ∑ g ∈ range (Offsets.excl c P), F g := by
  induction P with
  | zero => simp
  | succ P ih =>
    rw [Finset.sum_range_succ, ih (fun r hr => h r (by omega)), Offsets.excl_succ, Finset.sum_range_add]
    congr 1
    apply Finset.sum_congr rfl
    intro n hn
    exact (h P (by omega) n (Finset.mem_range.mp hn)).symm

theorem excl_mul (c : Nat → Nat) (bs P : Nat) : Offsets.excl (fun r => bs * c r) P = bs * Offsets.excl c P := by
  induction P with
  | zero => simp
  | succ P ih => rw [Offsets.excl_succ, Offsets.excl_succ, ih]; ring

/-- `max_element` on a non-empty range returns a position of a largest entry. -/
theorem maxElement_spec (x : Nat → K) (len : Nat) (h : 0 < len) :
    maxElement x len < len ∧ ∀ n, n < len → ‖x n‖ ≤ ‖x (maxElement x len)‖ := by
  unfold maxElement
  classical
  have : ∀ m, 0 < m → ∀ init,
      (List.range m).foldl (fun best n => if n = 0 then 0 else if ‖x best‖ ^ 2 < ‖x n‖ ^ 2 then n else best) init < m ∧
      ∀ n, n < m → ‖x n‖ ≤ ‖x ((List.range m).foldl
        (fun best n => if n = 0 then 0 else if ‖x best‖ ^ 2 < ‖x n‖ ^ 2 then n else best) init)‖ := by
    intro m
    induction m with
    | zero => intro h; omega
    | succ m ih =>
      intro _ init
      rw [List.range_succ, List.foldl_append]
      simp only [List.foldl_cons, List.foldl_nil]
      rcases Nat.eq_zero_or_pos m with hm | hm
      · subst hm
        refine ⟨by simp, ?_⟩
        intro n hn
        have : n = 0 := by omega
        subst this; simp
      · obtain ⟨h1, h2⟩ := ih hm init
        rw [if_neg (by omega)]
        set best := (List.range m).foldl
          (fun best n => if n = 0 then 0 else if ‖x best‖ ^ 2 < ‖x n‖ ^ 2 then n else best) init
        split
        · rename_i hlt
          have hlt' : ‖x best‖ ≤ ‖x m‖ := by
            by_contra hc
            have := norm_nonneg (x m)
            nlinarith [norm_nonneg (x best)]
          refine ⟨by omega, ?_⟩
          intro n hn
          rcases Nat.lt_or_ge n m with h3 | h3
          · exact le_trans (h2 n h3) hlt'
          · have : n = m := by omega
            subst this; exact le_refl _
        · rename_i hlt
          refine ⟨by omega, ?_⟩
          intro n hn
          rcases Nat.lt_or_ge n m with h3 | h3
          · exact h2 n h3
          · have : n = m := by omega
            subst this
            by_contra hc
            apply hlt
            have := norm_nonneg (x best)
            nlinarith
  exact this len h len

end Verif.VectorOps
