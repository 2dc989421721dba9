import Verif.Lemmas.GjkMain
import Mathlib.Analysis.Convex.StdSimplex
/-! Nearest points exist for real numbers. -/
namespace Verif.Gjk

/-- The mean of points. -/
noncomputable def comb {n : Nat} (s : Fin n → V ℝ) (l : Fin n → ℝ) : V ℝ := (∑ i, l i * (s i).1, ∑ i, l i * (s i).2.1, ∑ i, l i * (s i).2.2)

theorem exists_near {n : Nat} (s : Fin (n + 1) → V ℝ) :
    ∃ l : Fin (n + 1) → ℝ, (∀ i, 0 ≤ l i) ∧ ∑ i, l i = 1 ∧ ∀ i, dot3 (comb s l) (comb s l) ≤ dot3 (comb s l) (s i) := by
  have hc : Continuous fun l : Fin (n + 1) → ℝ => dot3 (comb s l) (comb s l) := by
    unfold comb dot3
    fun_prop
  have hne : (stdSimplex ℝ (Fin (n + 1))).Nonempty := ⟨_, single_mem_stdSimplex ℝ (0 : Fin (n + 1))⟩
  obtain ⟨l, hl, hmin⟩ := (isCompact_stdSimplex ℝ (Fin (n + 1))).exists_isMinOn hne hc.continuousOn
  refine ⟨l, hl.1, hl.2, fun k => ?_⟩
  by_contra hlt
  obtain ⟨p, hp⟩ : ∃ p, p = comb s l := ⟨_, rfl⟩
  rw [← hp] at hlt
  have hlt := not_le.mp hlt
  obtain ⟨d, hd⟩ : ∃ d, d = dot3 p p - dot3 p (s k) := ⟨_, rfl⟩
  obtain ⟨A, hA⟩ : ∃ A, A = dot3 (diff (s k) p) (diff (s k) p) := ⟨_, rfl⟩
  have hd0 : 0 < d := by linarith
  have hA0 : 0 ≤ A := by rw [hA]; exact dot3_nonneg _
  obtain ⟨t, ht⟩ : ∃ t, t = d / (A + d) := ⟨_, rfl⟩
  have hsum : 0 < A + d := by linarith
  have ht0 : 0 < t := by rw [ht]; positivity
  have ht1 : t ≤ 1 := by rw [ht, div_le_one hsum]; linarith
  have htA : t * (A + d) = d := by rw [ht]; field_simp
  have hmem : (fun i => (1 - t) * l i + t * (if i = k then 1 else 0)) ∈ stdSimplex ℝ (Fin (n + 1)) := by
    constructor
    · intro i
      have := mul_nonneg (sub_nonneg.mpr ht1) (hl.1 i)
      dsimp only
      split_ifs <;> simp only [mul_one, mul_zero] <;> linarith
    · rw [Finset.sum_add_distrib, ← Finset.mul_sum, ← Finset.mul_sum, hl.2]
      simp
  have hm := hmin hmem
  simp only [Set.mem_setOf_eq] at hm
  have e : comb s (fun i => (1 - t) * l i + t * (if i = k then 1 else 0)) =
      ((1 - t) * p.1 + t * (s k).1, (1 - t) * p.2.1 + t * (s k).2.1, (1 - t) * p.2.2 + t * (s k).2.2) := by
    have f : ∀ g : Fin (n + 1) → ℝ, ∑ i, ((1 - t) * l i + t * (if i = k then 1 else 0)) * g i = (1 - t) * (∑ i, l i * g i) + t * g k := by
      intro g
      have : ∀ i, ((1 - t) * l i + t * (if i = k then 1 else 0)) * g i = (1 - t) * (l i * g i) + t * (if i = k then g i else 0) := by
        intro i; split_ifs <;> ring
      simp only [this]
      rw [Finset.sum_add_distrib, ← Finset.mul_sum, ← Finset.mul_sum]
      simp
    rw [hp]
    unfold comb
    simp only [f]
  rw [e, ← hp] at hm
  have e2 : dot3 ((1 - t) * p.1 + t * (s k).1, (1 - t) * p.2.1 + t * (s k).2.1, (1 - t) * p.2.2 + t * (s k).2.2)
      ((1 - t) * p.1 + t * (s k).1, (1 - t) * p.2.1 + t * (s k).2.1, (1 - t) * p.2.2 + t * (s k).2.2) = dot3 p p - 2 * t * d + t * t * A := by
    rw [hd, hA]; simp only [dot3, diff]; ring
  rw [e2] at hm
  have h1 : 2 * d ≤ t * A := by
    have : t * (2 * d) ≤ t * (t * A) := by linarith
    exact le_of_mul_le_mul_left this ht0
  have h2 := mul_nonneg ht0.le hd0.le
  nlinarith

/-- Nearest points exist in every simplex of real points. -/
theorem hasNear_real : HasNear ℝ := by
  constructor
  · intro a b c
    obtain ⟨l, h1, h2, h3⟩ := exists_near ![a, b, c]
    refine ⟨l 0, l 1, l 2, rfl, by simp [h1], ?_, ?_⟩
    · rw [Fin.sum_univ_three] at h2
      simp only [List.sum_cons, List.sum_nil]; linarith
    · have e : comb ![a, b, c] l = pt ([l 0, l 1, l 2].zip [a, b, c]) := by
        simp [comb, pt, Fin.sum_univ_three, add_assoc]
      rw [e] at h3
      intro t ht
      simp only [List.mem_cons, List.not_mem_nil, or_false] at ht
      rcases ht with rfl | rfl | rfl
      · exact h3 0
      · exact h3 1
      · exact h3 2
  · intro a b c d
    obtain ⟨l, h1, h2, h3⟩ := exists_near ![a, b, c, d]
    refine ⟨l 0, l 1, l 2, l 3, rfl, by simp [h1], ?_, ?_⟩
    · rw [Fin.sum_univ_four] at h2
      simp only [List.sum_cons, List.sum_nil]; linarith
    · have e : comb ![a, b, c, d] l = pt ([l 0, l 1, l 2, l 3].zip [a, b, c, d]) := by
        simp [comb, pt, Fin.sum_univ_four, add_assoc]
      rw [e] at h3
      intro t ht
      simp only [List.mem_cons, List.not_mem_nil, or_false] at ht
      rcases ht with rfl | rfl | rfl | rfl
      · exact h3 0
      · exact h3 1
      · exact h3 2
      · exact h3 3

end Verif.Gjk
