import Verif.Model.Gjk
import Mathlib.Tactic.Linarith
import Mathlib.Tactic.LinearCombination
import Mathlib.Tactic.Positivity
import Mathlib.Tactic.FieldSimp
/-! The nearest point of a simplex. -/
namespace Verif.Gjk

variable {K : Type} [Field K] [LinearOrder K] [IsStrictOrderedRing K]

theorem dot3_comm (a b : V K) : dot3 a b = dot3 b a := by simp only [dot3]; ring

theorem dot3_nonneg (a : V K) : 0 ≤ dot3 a a := by
  have h1 := mul_self_nonneg a.1
  have h2 := mul_self_nonneg a.2.1
  have h3 := mul_self_nonneg a.2.2
  simp only [dot3]
  linarith

/-- Two points: weights are right. -/
theorem near2 (aa ab bb : K) (hL : 0 < aa - ab + (bb - ab)) (la lb : K)
    (h : (aa - ab < 0 ∧ la = 1 ∧ lb = 0) ∨ (¬ aa - ab < 0 ∧ bb - ab < 0 ∧ la = 0 ∧ lb = 1) ∨
      (¬ aa - ab < 0 ∧ ¬ bb - ab < 0 ∧ la = (bb - ab) * (1 / (aa - ab + (bb - ab))) ∧ lb = (aa - ab) * (1 / (aa - ab + (bb - ab))))) :
    0 ≤ la ∧ 0 ≤ lb ∧ la + lb = 1 ∧ la * (la * aa + lb * ab) + lb * (la * ab + lb * bb) ≤ la * aa + lb * ab ∧
      la * (la * aa + lb * ab) + lb * (la * ab + lb * bb) ≤ la * ab + lb * bb := by
  rcases h with ⟨h, rfl, rfl⟩ | ⟨_, h, rfl, rfl⟩ | ⟨h1, h2, rfl, rfl⟩
  · refine ⟨by norm_num, by norm_num, by norm_num, by linarith, by linarith⟩
  · refine ⟨by norm_num, by norm_num, by norm_num, by linarith, by linarith⟩
  · obtain ⟨f, hf⟩ : ∃ f, f = 1 / (aa - ab + (bb - ab)) := ⟨_, rfl⟩
    have hfL : f * (aa - ab + (bb - ab)) = 1 := by rw [hf]; field_simp
    have hf0 : 0 ≤ f := by rw [hf]; positivity
    rw [← hf]
    have e : (bb - ab) * f * aa + (aa - ab) * f * ab = (bb - ab) * f * ab + (aa - ab) * f * bb := by ring
    have e1 : (bb - ab) * f + (aa - ab) * f = 1 := by linear_combination hfL
    refine ⟨mul_nonneg (by linarith) hf0, mul_nonneg (by linarith) hf0, e1, ?_, ?_⟩
    · apply le_of_eq
      linear_combination ((bb - ab) * f * aa + (aa - ab) * f * ab) * e1 - (aa - ab) * f * e
    · apply le_of_eq
      linear_combination ((bb - ab) * f * ab + (aa - ab) * f * bb) * e1 + (bb - ab) * f * e

/-- Complementarity: points that carry weight are at the least level. -/
theorem compl3 (la lb lc ma mb mc m : K) (ha : 0 ≤ la) (hb : 0 ≤ lb) (hc : 0 ≤ lc) (h1 : la + lb + lc = 1) (hm : m = la * ma + lb * mb + lc * mc)
    (ka : m ≤ ma) (kb : m ≤ mb) (kc : m ≤ mc) : (la = 0 ∨ ma = m) ∧ (lb = 0 ∨ mb = m) ∧ (lc = 0 ∨ mc = m) := by
  have e : la * (ma - m) + lb * (mb - m) + lc * (mc - m) = 0 := by linear_combination -hm - m * h1
  have p1 := mul_nonneg ha (sub_nonneg.mpr ka)
  have p2 := mul_nonneg hb (sub_nonneg.mpr kb)
  have p3 := mul_nonneg hc (sub_nonneg.mpr kc)
  refine ⟨?_, ?_, ?_⟩
  · rcases mul_eq_zero.mp (show la * (ma - m) = 0 by linarith) with h | h
    · exact .inl h
    · exact .inr (by linarith)
  · rcases mul_eq_zero.mp (show lb * (mb - m) = 0 by linarith) with h | h
    · exact .inl h
    · exact .inr (by linarith)
  · rcases mul_eq_zero.mp (show lc * (mc - m) = 0 by linarith) with h | h
    · exact .inl h
    · exact .inr (by linarith)

/-- If all levels are equal, the weights are those of the last case. -/
theorem tri_prop (aa ab ac bb bc cc la lb lc : K) (h1 : la + lb + lc = 1)
    (e1 : la * aa + lb * ab + lc * ac = la * ab + lb * bb + lc * bc) (e2 : la * aa + lb * ab + lc * ac = la * ac + lb * bc + lc * cc)
    (va vb vc : K) (hva : va = (bb - ab) * (cc - bc) - (cc - bc) * (bb - bc) + (bb - bc) * (cc - ac))
    (hvb : vb = (aa - ab) * (cc - ac) - (cc - ac) * (aa - ac) + (aa - ac) * (cc - bc))
    (hvc : vc = (bb - bc) * (aa - ab) - (aa - ab) * (bb - ab) + (bb - ab) * (aa - ac)) :
    va = la * (va + vb + vc) ∧ vb = lb * (va + vb + vc) ∧ vc = lc * (va + vb + vc) := by
  have f1 : la * (aa - ab) - lb * (bb - ab) + lc * ((cc - bc) - (cc - ac)) = 0 := by linear_combination e1
  have f2 : la * (aa - ac) + lb * ((bb - bc) - (bb - ab)) - lc * (cc - ac) = 0 := by linear_combination e2
  have g1 : va * lb = vb * la := by
    rw [hva, hvb]
    linear_combination (-(cc - ac)) * f1 - ((cc - bc) - (cc - ac)) * f2
  have g2 : va * lc = vc * la := by
    rw [hva, hvc]
    linear_combination (-((bb - bc) - (bb - ab))) * f1 - (bb - ab) * f2
  have g3 : vb * lc = vc * lb := by
    rw [hvb, hvc]
    linear_combination (aa - ac) * f1 - (aa - ab) * f2
  refine ⟨?_, ?_, ?_⟩
  · linear_combination (-va) * h1 + g1 + g2
  · linear_combination (-vb) * h1 - g1 + g3
  · linear_combination (-vc) * h1 - g2 - g3

/-- The last case of three points: none of the other cases applies. -/
theorem tri_last (aa ab ac bb bc cc la lb lc : K) (ha : 0 ≤ la) (hb : 0 ≤ lb) (hc : 0 ≤ lc) (h1 : la + lb + lc = 1)
    (ka : la * (la * aa + lb * ab + lc * ac) + lb * (la * ab + lb * bb + lc * bc) + lc * (la * ac + lb * bc + lc * cc) ≤ la * aa + lb * ab + lc * ac)
    (kb : la * (la * aa + lb * ab + lc * ac) + lb * (la * ab + lb * bb + lc * bc) + lc * (la * ac + lb * bc + lc * cc) ≤ la * ab + lb * bb + lc * bc)
    (kc : la * (la * aa + lb * ab + lc * ac) + lb * (la * ab + lb * bb + lc * bc) + lc * (la * ac + lb * bc + lc * cc) ≤ la * ac + lb * bc + lc * cc)
    (va vb vc : K) (hva : va = (bb - ab) * (cc - bc) - (cc - bc) * (bb - bc) + (bb - bc) * (cc - ac))
    (hvb : vb = (aa - ab) * (cc - ac) - (cc - ac) * (aa - ac) + (aa - ac) * (cc - bc))
    (hvc : vc = (bb - bc) * (aa - ab) - (aa - ab) * (bb - ab) + (bb - ab) * (aa - ac))
    (Lab : 0 < aa - ab + (bb - ab)) (Lac : 0 < aa - ac + (cc - ac)) (Lbc : 0 < bb - bc + (cc - bc))
    (nA : ¬ (aa - ab < 0 ∧ aa - ac < 0)) (nB : ¬ (bb - ab < 0 ∧ bb - bc < 0)) (nC : ¬ (cc - ac < 0 ∧ cc - bc < 0))
    (nAB : ¬ (vc < 0 ∧ 0 < aa - ab ∧ 0 < bb - ab)) (nAC : ¬ (vb < 0 ∧ 0 < aa - ac ∧ 0 < cc - ac)) (nBC : ¬ (va < 0 ∧ 0 < bb - bc ∧ 0 < cc - bc))
    (tA : aa - ab = 0 → 0 ≤ aa - ac) (tA' : aa - ac = 0 → 0 ≤ aa - ab) (tB : bb - ab = 0 → 0 ≤ bb - bc) (tB' : bb - bc = 0 → 0 ≤ bb - ab)
    (tC : cc - ac = 0 → 0 ≤ cc - bc) (tC' : cc - bc = 0 → 0 ≤ cc - ac) :
    va = la * (va + vb + vc) ∧ vb = lb * (va + vb + vc) ∧ vc = lc * (va + vb + vc) := by
  obtain ⟨ma, hma⟩ : ∃ m, m = la * aa + lb * ab + lc * ac := ⟨_, rfl⟩
  obtain ⟨mb, hmb⟩ : ∃ m, m = la * ab + lb * bb + lc * bc := ⟨_, rfl⟩
  obtain ⟨mc, hmc⟩ : ∃ m, m = la * ac + lb * bc + lc * cc := ⟨_, rfl⟩
  rw [← hma, ← hmb, ← hmc] at ka kb kc
  obtain ⟨c1, c2, c3⟩ := compl3 la lb lc ma mb mc _ ha hb hc h1 rfl ka kb kc
  obtain ⟨m, hm⟩ : ∃ m, m = la * ma + lb * mb + lc * mc := ⟨_, rfl⟩
  rw [← hm] at ka kb kc c1 c2 c3
  have prop : ma = mb → ma = mc → va = la * (va + vb + vc) ∧ vb = lb * (va + vb + vc) ∧ vc = lc * (va + vb + vc) := by
    intro e1 e2
    exact tri_prop aa ab ac bb bc cc la lb lc h1 (by rw [← hma, ← hmb]; exact e1) (by rw [← hma, ← hmc]; exact e2) va vb vc hva hvb hvc
  rcases eq_or_lt_of_le ha with a0 | a0 <;> rcases eq_or_lt_of_le hb with b0 | b0 <;> rcases eq_or_lt_of_le hc with c0 | c0
  · exfalso; linarith
  · -- C
    subst a0 b0
    obtain rfl : lc = 1 := by linarith
    have q1 : cc - ac ≤ 0 := by linarith
    have q2 : cc - bc ≤ 0 := by linarith
    have q : cc - ac = 0 ∧ cc - bc = 0 := by
      rcases eq_or_lt_of_le q1 with r1 | r1
      · exact ⟨r1, le_antisymm q2 (tC r1)⟩
      · rcases eq_or_lt_of_le q2 with r2 | r2
        · exact ⟨le_antisymm q1 (tC' r2), r2⟩
        · exact absurd ⟨r1, r2⟩ nC
    rw [q.1, q.2] at hva hvb
    refine ⟨by rw [hva]; ring, by rw [hvb]; ring, by rw [hva, hvb]; ring⟩
  · -- B
    subst a0 c0
    obtain rfl : lb = 1 := by linarith
    have q1 : bb - ab ≤ 0 := by linarith
    have q2 : bb - bc ≤ 0 := by linarith
    have q : bb - ab = 0 ∧ bb - bc = 0 := by
      rcases eq_or_lt_of_le q1 with r1 | r1
      · exact ⟨r1, le_antisymm q2 (tB r1)⟩
      · rcases eq_or_lt_of_le q2 with r2 | r2
        · exact ⟨le_antisymm q1 (tB' r2), r2⟩
        · exact absurd ⟨r1, r2⟩ nB
    rw [q.1, q.2] at hva hvc
    refine ⟨by rw [hva]; ring, by rw [hva, hvc]; ring, by rw [hvc]; ring⟩
  · -- BC
    subst a0
    have e : mb = mc := by rw [c2.resolve_left b0.ne', c3.resolve_left c0.ne']
    have hd4 : bb - bc = lc * (bb - bc + (cc - bc)) := by linear_combination (-(bb - bc)) * h1 - hmb + hmc + e
    have hd6 : cc - bc = lb * (bb - bc + (cc - bc)) := by linear_combination (-(cc - bc)) * h1 + hmb - hmc - e
    have hv : va = (bb - bc + (cc - bc)) * (mb - ma) := by
      rw [hva, hma, hmb]
      linear_combination (-(cc - bc) + (cc - ac)) * hd4 + (bb - ab) * hd6
    have p4 : 0 < bb - bc := by rw [hd4]; exact mul_pos c0 Lbc
    have p6 : 0 < cc - bc := by rw [hd6]; exact mul_pos b0 Lbc
    have hle : va ≤ 0 := by
      rw [hv, c2.resolve_left b0.ne']
      exact mul_nonpos_of_nonneg_of_nonpos Lbc.le (by linarith)
    have h0 : va = 0 := by
      rcases eq_or_lt_of_le hle with h | h
      · exact h
      · exact absurd ⟨h, p4, p6⟩ nBC
    have : mb - ma = 0 := by
      rcases mul_eq_zero.mp (hv.symm.trans h0) with h | h
      · exact absurd h Lbc.ne'
      · exact h
    exact prop (by linarith) (by linarith)
  · -- A
    subst b0 c0
    obtain rfl : la = 1 := by linarith
    have q1 : aa - ab ≤ 0 := by linarith
    have q2 : aa - ac ≤ 0 := by linarith
    have q : aa - ab = 0 ∧ aa - ac = 0 := by
      rcases eq_or_lt_of_le q1 with r1 | r1
      · exact ⟨r1, le_antisymm q2 (tA r1)⟩
      · rcases eq_or_lt_of_le q2 with r2 | r2
        · exact ⟨le_antisymm q1 (tA' r2), r2⟩
        · exact absurd ⟨r1, r2⟩ nA
    rw [q.1, q.2] at hvb hvc
    refine ⟨by rw [hvb, hvc]; ring, by rw [hvb]; ring, by rw [hvc]; ring⟩
  · -- AC
    subst b0
    have e : ma = mc := by rw [c1.resolve_left a0.ne', c3.resolve_left c0.ne']
    have hd2 : aa - ac = lc * (aa - ac + (cc - ac)) := by linear_combination (-(aa - ac)) * h1 - hma + hmc + e
    have hd5 : cc - ac = la * (aa - ac + (cc - ac)) := by linear_combination (-(cc - ac)) * h1 + hma - hmc - e
    have hv : vb = (aa - ac + (cc - ac)) * (ma - mb) := by
      rw [hvb, hma, hmb]
      linear_combination (-(cc - ac) + (cc - bc)) * hd2 + (aa - ab) * hd5
    have p2 : 0 < aa - ac := by rw [hd2]; exact mul_pos c0 Lac
    have p5 : 0 < cc - ac := by rw [hd5]; exact mul_pos a0 Lac
    have hle : vb ≤ 0 := by
      rw [hv, c1.resolve_left a0.ne']
      exact mul_nonpos_of_nonneg_of_nonpos Lac.le (by linarith)
    have h0 : vb = 0 := by
      rcases eq_or_lt_of_le hle with h | h
      · exact h
      · exact absurd ⟨h, p2, p5⟩ nAC
    have : ma - mb = 0 := by
      rcases mul_eq_zero.mp (hv.symm.trans h0) with h | h
      · exact absurd h Lac.ne'
      · exact h
    exact prop (by linarith) e
  · -- AB
    subst c0
    have e : ma = mb := by rw [c1.resolve_left a0.ne', c2.resolve_left b0.ne']
    have hd1 : aa - ab = lb * (aa - ab + (bb - ab)) := by linear_combination (-(aa - ab)) * h1 - hma + hmb + e
    have hd3 : bb - ab = la * (aa - ab + (bb - ab)) := by linear_combination (-(bb - ab)) * h1 + hma - hmb - e
    have hv : vc = (aa - ab + (bb - ab)) * (ma - mc) := by
      rw [hvc, hma, hmc]
      linear_combination (-(bb - ab) + (bb - bc)) * hd1 + (aa - ac) * hd3
    have p1 : 0 < aa - ab := by rw [hd1]; exact mul_pos b0 Lab
    have p3 : 0 < bb - ab := by rw [hd3]; exact mul_pos a0 Lab
    have hle : vc ≤ 0 := by
      rw [hv, c1.resolve_left a0.ne']
      exact mul_nonpos_of_nonneg_of_nonpos Lab.le (by linarith)
    have h0 : vc = 0 := by
      rcases eq_or_lt_of_le hle with h | h
      · exact h
      · exact absurd ⟨h, p1, p3⟩ nAB
    have : ma - mc = 0 := by
      rcases mul_eq_zero.mp (hv.symm.trans h0) with h | h
      · exact absurd h Lab.ne'
      · exact h
    exact prop e (by linarith)
  · exact prop (by rw [c1.resolve_left a0.ne', c2.resolve_left b0.ne']) (by rw [c1.resolve_left a0.ne', c3.resolve_left c0.ne'])

end Verif.Gjk
