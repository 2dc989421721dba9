import Verif.Lemmas.GjkSimplex
import Mathlib.Algebra.BigOperators.Group.List.Basic
/-! The nearest point of a simplex: two and three points. -/
namespace Verif.Gjk

variable {K : Type} [Field K] [LinearOrder K] [IsStrictOrderedRing K]

/-- The mean of points with weights. -/
def pt (l : List (K × V K)) : V K :=
  ((l.map fun a => a.1 * a.2.1).sum, (l.map fun a => a.1 * a.2.2.1).sum, (l.map fun a => a.1 * a.2.2.2).sum)

/-- The weights `ws` give the point of the hull of `ss` that is nearest to the origin. -/
structure Near (ws : List K) (ss : List (V K)) : Prop where
  len : ws.length = ss.length
  nonneg : ∀ w ∈ ws, 0 ≤ w
  one : ws.sum = 1
  le : ∀ t ∈ ss, dot3 (pt (ws.zip ss)) (pt (ws.zip ss)) ≤ dot3 (pt (ws.zip ss)) t

theorem near_two (a b : V K) (la lb : K) (h : 0 ≤ la ∧ 0 ≤ lb ∧ la + lb = 1 ∧
    la * (la * dot3 a a + lb * dot3 a b) + lb * (la * dot3 a b + lb * dot3 b b) ≤ la * dot3 a a + lb * dot3 a b ∧
    la * (la * dot3 a a + lb * dot3 a b) + lb * (la * dot3 a b + lb * dot3 b b) ≤ la * dot3 a b + lb * dot3 b b) : Near [la, lb] [a, b] := by
  obtain ⟨h1, h2, h3, h4, h5⟩ := h
  have e : pt ([la, lb].zip [a, b]) = (la * a.1 + lb * b.1, la * a.2.1 + lb * b.2.1, la * a.2.2 + lb * b.2.2) := by simp [pt]
  refine ⟨rfl, by simp [h1, h2], by simpa using h3, ?_⟩
  rw [e]
  have k0 : dot3 (la * a.1 + lb * b.1, la * a.2.1 + lb * b.2.1, la * a.2.2 + lb * b.2.2) (la * a.1 + lb * b.1, la * a.2.1 + lb * b.2.1, la * a.2.2 + lb * b.2.2) =
      la * (la * dot3 a a + lb * dot3 a b) + lb * (la * dot3 a b + lb * dot3 b b) := by simp only [dot3]; ring
  have k1 : dot3 (la * a.1 + lb * b.1, la * a.2.1 + lb * b.2.1, la * a.2.2 + lb * b.2.2) a = la * dot3 a a + lb * dot3 a b := by
    simp only [dot3]; ring
  have k2 : dot3 (la * a.1 + lb * b.1, la * a.2.1 + lb * b.2.1, la * a.2.2 + lb * b.2.2) b = la * dot3 a b + lb * dot3 b b := by
    simp only [dot3]; ring
  intro t ht
  rw [k0]
  rcases List.mem_pair.mp ht with rfl | rfl
  · rw [k1]; exact h4
  · rw [k2]; exact h5

/-- Two different points. -/
theorem nearest2_near (a b : V K) (hab : 0 < dot3 a a - dot3 a b + (dot3 b b - dot3 a b)) : Near (nearest2 a b) [a, b] := by
  unfold nearest2
  rw [dot3_comm b a]
  by_cases h1 : dot3 a a - dot3 a b < 0
  · simp only [if_pos h1]
    exact near_two a b 1 0 (near2 _ _ _ hab _ _ (.inl ⟨h1, rfl, rfl⟩))
  · by_cases h2 : dot3 b b - dot3 a b < 0
    · simp only [if_neg h1, if_pos h2]
      exact near_two a b 0 1 (near2 _ _ _ hab _ _ (.inr (.inl ⟨h1, h2, rfl, rfl⟩)))
    · simp only [if_neg h1, if_neg h2]
      exact near_two a b _ _ (near2 _ _ _ hab _ _ (.inr (.inr ⟨h1, h2, rfl, rfl⟩)))

theorem near_three_iff (a b c : V K) (la lb lc : K) : Near [la, lb, lc] [a, b, c] ↔ (0 ≤ la ∧ 0 ≤ lb ∧ 0 ≤ lc ∧ la + lb + lc = 1 ∧
    la * (la * dot3 a a + lb * dot3 a b + lc * dot3 a c) + lb * (la * dot3 a b + lb * dot3 b b + lc * dot3 b c) +
      lc * (la * dot3 a c + lb * dot3 b c + lc * dot3 c c) ≤ la * dot3 a a + lb * dot3 a b + lc * dot3 a c ∧
    la * (la * dot3 a a + lb * dot3 a b + lc * dot3 a c) + lb * (la * dot3 a b + lb * dot3 b b + lc * dot3 b c) +
      lc * (la * dot3 a c + lb * dot3 b c + lc * dot3 c c) ≤ la * dot3 a b + lb * dot3 b b + lc * dot3 b c ∧
    la * (la * dot3 a a + lb * dot3 a b + lc * dot3 a c) + lb * (la * dot3 a b + lb * dot3 b b + lc * dot3 b c) +
      lc * (la * dot3 a c + lb * dot3 b c + lc * dot3 c c) ≤ la * dot3 a c + lb * dot3 b c + lc * dot3 c c) := by
  obtain ⟨p, hp⟩ : ∃ p : V K, p = (la * a.1 + (lb * b.1 + lc * c.1), la * a.2.1 + (lb * b.2.1 + lc * c.2.1), la * a.2.2 + (lb * b.2.2 + lc * c.2.2)) := ⟨_, rfl⟩
  have e : pt ([la, lb, lc].zip [a, b, c]) = p := by rw [hp]; simp [pt]
  have k0 : dot3 p p = la * (la * dot3 a a + lb * dot3 a b + lc * dot3 a c) + lb * (la * dot3 a b + lb * dot3 b b + lc * dot3 b c) +
      lc * (la * dot3 a c + lb * dot3 b c + lc * dot3 c c) := by rw [hp]; simp only [dot3]; ring
  have k1 : dot3 p a = la * dot3 a a + lb * dot3 a b + lc * dot3 a c := by rw [hp]; simp only [dot3]; ring
  have k2 : dot3 p b = la * dot3 a b + lb * dot3 b b + lc * dot3 b c := by rw [hp]; simp only [dot3]; ring
  have k3 : dot3 p c = la * dot3 a c + lb * dot3 b c + lc * dot3 c c := by rw [hp]; simp only [dot3]; ring
  rw [← k0, ← k1, ← k2, ← k3]
  constructor
  · rintro ⟨_, h1, h2, h3⟩
    rw [e] at h3
    refine ⟨h1 la (by simp), h1 lb (by simp), h1 lc (by simp), ?_, h3 a (by simp), h3 b (by simp), h3 c (by simp)⟩
    simp only [List.sum_cons, List.sum_nil] at h2
    linarith
  · rintro ⟨h1, h2, h3, h4, h5, h6, h7⟩
    refine ⟨rfl, by simp [h1, h2, h3], by simp only [List.sum_cons, List.sum_nil]; linarith, ?_⟩
    rw [e]
    intro t ht
    simp only [List.mem_cons, List.not_mem_nil, or_false] at ht
    rcases ht with rfl | rfl | rfl
    · exact h5
    · exact h6
    · exact h7

/-- An edge of three points: the third point is beyond. -/
theorem edge_sound (aa ab ac bb bc : K) (f : K) (hf : f * (aa - ab + (bb - ab)) = 1) (hf0 : 0 ≤ f)
    (hv : (bb - bc) * (aa - ab) - (aa - ab) * (bb - ab) + (bb - ab) * (aa - ac) ≤ 0) (la lb : K) (hla : la = (bb - ab) * f) (hlb : lb = (aa - ab) * f) :
    la + lb = 1 ∧ la * aa + lb * ab = la * ab + lb * bb ∧ la * aa + lb * ab ≤ la * ac + lb * bc := by
  subst hla hlb
  refine ⟨by linear_combination hf, by ring, ?_⟩
  have := mul_nonpos_of_nonneg_of_nonpos hf0 hv
  have e : (bb - ab) * f * aa + (aa - ab) * f * ab - ((bb - ab) * f * ac + (aa - ab) * f * bc) =
      f * ((bb - bc) * (aa - ab) - (aa - ab) * (bb - ab) + (bb - ab) * (aa - ac)) := by ring
  linarith

/-- The Gram determinant of two edges. -/
def gram (a b c : V K) : K :=
  (dot3 a a - dot3 a b + (dot3 b b - dot3 a b)) * (dot3 a a - dot3 a c + (dot3 c c - dot3 a c)) -
    (dot3 a a - dot3 a b - dot3 a c + dot3 b c) * (dot3 a a - dot3 a b - dot3 a c + dot3 b c)

theorem len_nonneg (a b : V K) : 0 ≤ dot3 a a - dot3 a b + (dot3 b b - dot3 a b) := by
  have h1 := mul_self_nonneg (a.1 - b.1)
  have h2 := mul_self_nonneg (a.2.1 - b.2.1)
  have h3 := mul_self_nonneg (a.2.2 - b.2.2)
  have : dot3 a a - dot3 a b + (dot3 b b - dot3 a b) = (a.1 - b.1) * (a.1 - b.1) + (a.2.1 - b.2.1) * (a.2.1 - b.2.1) + (a.2.2 - b.2.2) * (a.2.2 - b.2.2) := by
    simp only [dot3]; ring
  linarith

theorem len_zero (a b : V K) (h : dot3 a a - dot3 a b + (dot3 b b - dot3 a b) = 0) : a = b := by
  have h1 := mul_self_nonneg (a.1 - b.1)
  have h2 := mul_self_nonneg (a.2.1 - b.2.1)
  have h3 := mul_self_nonneg (a.2.2 - b.2.2)
  have : dot3 a a - dot3 a b + (dot3 b b - dot3 a b) = (a.1 - b.1) * (a.1 - b.1) + (a.2.1 - b.2.1) * (a.2.1 - b.2.1) + (a.2.2 - b.2.2) * (a.2.2 - b.2.2) := by
    simp only [dot3]; ring
  have e1 := mul_self_eq_zero.mp (show (a.1 - b.1) * (a.1 - b.1) = 0 by linarith)
  have e2 := mul_self_eq_zero.mp (show (a.2.1 - b.2.1) * (a.2.1 - b.2.1) = 0 by linarith)
  have e3 := mul_self_eq_zero.mp (show (a.2.2 - b.2.2) * (a.2.2 - b.2.2) = 0 by linarith)
  exact Prod.ext (by linarith) (Prod.ext (by linarith) (by linarith))

theorem len_pos (a b : V K) (h : a ≠ b) : 0 < dot3 a a - dot3 a b + (dot3 b b - dot3 a b) :=
  lt_of_le_of_ne (len_nonneg a b) fun h0 => h (len_zero a b h0.symm)

/-- Points that are not on a line are different. -/
theorem gram_len (a b c : V K) (h : 0 < gram a b c) :
    0 < dot3 a a - dot3 a b + (dot3 b b - dot3 a b) ∧ 0 < dot3 a a - dot3 a c + (dot3 c c - dot3 a c) ∧ 0 < dot3 b b - dot3 b c + (dot3 c c - dot3 b c) := by
  refine ⟨len_pos a b ?_, len_pos a c ?_, len_pos b c ?_⟩
  · rintro rfl
    have : gram a a c = 0 := by simp only [gram]; ring
    rw [this] at h; exact lt_irrefl _ h
  · rintro rfl
    have : gram a b a = 0 := by simp only [gram]; rw [dot3_comm b a]; ring
    rw [this] at h; exact lt_irrefl _ h
  · rintro rfl
    have : gram a b b = 0 := by simp only [gram]; ring
    rw [this] at h; exact lt_irrefl _ h

/-- Three points that are not on a line, without ties. -/
theorem nearest3_near (a b c : V K) (hG : 0 < gram a b c) (hex : ∃ la lb lc, Near [la, lb, lc] [a, b, c])
    (tA : dot3 a b = dot3 a a → dot3 a c ≤ dot3 a a) (tA' : dot3 a c = dot3 a a → dot3 a b ≤ dot3 a a)
    (tB : dot3 b a = dot3 b b → dot3 b c ≤ dot3 b b) (tB' : dot3 b c = dot3 b b → dot3 b a ≤ dot3 b b)
    (tC : dot3 c a = dot3 c c → dot3 c b ≤ dot3 c c) (tC' : dot3 c b = dot3 c c → dot3 c a ≤ dot3 c c) :
    Near (nearest3 a b c) [a, b, c] := by
  obtain ⟨Lab, Lac, Lbc⟩ := gram_len a b c hG
  rw [dot3_comm b a] at tB tB'
  rw [dot3_comm c a, dot3_comm c b] at tC tC'
  obtain ⟨la, lb, lc, hn⟩ := hex
  rw [near_three_iff] at hn
  have hgram : gram a b c = ((dot3 b b - dot3 a b) * (dot3 c c - dot3 b c) - (dot3 c c - dot3 b c) * (dot3 b b - dot3 b c) + (dot3 b b - dot3 b c) * (dot3 c c - dot3 a c)) +
      ((dot3 a a - dot3 a b) * (dot3 c c - dot3 a c) - (dot3 c c - dot3 a c) * (dot3 a a - dot3 a c) + (dot3 a a - dot3 a c) * (dot3 c c - dot3 b c)) +
      ((dot3 b b - dot3 b c) * (dot3 a a - dot3 a b) - (dot3 a a - dot3 a b) * (dot3 b b - dot3 a b) + (dot3 b b - dot3 a b) * (dot3 a a - dot3 a c)) := by
    simp only [gram]; ring
  rw [hgram] at hG
  clear hgram
  unfold nearest3
  dsimp only
  have key := near_three_iff a b c
  generalize dot3 a a = aa at *
  generalize dot3 a b = ab at *
  generalize dot3 a c = ac at *
  generalize dot3 b b = bb at *
  generalize dot3 b c = bc at *
  generalize dot3 c c = cc at *
  by_cases nA : aa - ab < 0 ∧ aa - ac < 0
  · rw [if_pos nA, key]
    obtain ⟨h1, h2⟩ := nA
    refine ⟨by norm_num, by norm_num, by norm_num, by norm_num, by linarith, by linarith, by linarith⟩
  rw [if_neg nA]
  by_cases nB : bb - ab < 0 ∧ bb - bc < 0
  · rw [if_pos nB, key]
    obtain ⟨h1, h2⟩ := nB
    refine ⟨by norm_num, by norm_num, by norm_num, by norm_num, by linarith, by linarith, by linarith⟩
  rw [if_neg nB]
  by_cases nC : cc - ac < 0 ∧ cc - bc < 0
  · rw [if_pos nC, key]
    obtain ⟨h1, h2⟩ := nC
    refine ⟨by norm_num, by norm_num, by norm_num, by norm_num, by linarith, by linarith, by linarith⟩
  rw [if_neg nC]
  by_cases nAB : (bb - bc) * (aa - ab) - (aa - ab) * (bb - ab) + (bb - ab) * (aa - ac) < 0 ∧ 0 < aa - ab ∧ 0 < bb - ab
  · rw [if_pos nAB, key]
    obtain ⟨h1, h2, h3⟩ := nAB
    obtain ⟨f, hf⟩ : ∃ f, f = 1 / (aa - ab + (bb - ab)) := ⟨_, rfl⟩
    have hf1 : f * (aa - ab + (bb - ab)) = 1 := by rw [hf]; field_simp
    have hf0 : 0 ≤ f := by rw [hf]; positivity
    rw [← hf]
    obtain ⟨r1, r2, r3⟩ := edge_sound aa ab ac bb bc f hf1 hf0 h1.le _ _ rfl rfl
    have q1 := mul_nonneg h3.le hf0
    have q2 := mul_nonneg h2.le hf0
    generalize (bb - ab) * f = x at *
    generalize (aa - ab) * f = y at *
    have e : x * (x * aa + y * ab + 0 * ac) + y * (x * ab + y * bb + 0 * bc) + 0 * (x * ac + y * bc + 0 * cc) = x * aa + y * ab := by
      linear_combination (x * aa + y * ab) * r1 - y * r2
    refine ⟨q1, q2, le_refl _, by linarith, ?_, ?_, ?_⟩ <;> rw [e] <;> linarith
  rw [if_neg nAB]
  by_cases nAC : (aa - ab) * (cc - ac) - (cc - ac) * (aa - ac) + (aa - ac) * (cc - bc) < 0 ∧ 0 < aa - ac ∧ 0 < cc - ac
  · rw [if_pos nAC, key]
    obtain ⟨h1, h2, h3⟩ := nAC
    obtain ⟨f, hf⟩ : ∃ f, f = 1 / (aa - ac + (cc - ac)) := ⟨_, rfl⟩
    have hf1 : f * (aa - ac + (cc - ac)) = 1 := by rw [hf]; field_simp
    have hf0 : 0 ≤ f := by rw [hf]; positivity
    rw [← hf]
    obtain ⟨r1, r2, r3⟩ := edge_sound aa ac ab cc bc f hf1 hf0 (by linarith) _ _ rfl rfl
    have q1 := mul_nonneg h3.le hf0
    have q2 := mul_nonneg h2.le hf0
    generalize (cc - ac) * f = x at *
    generalize (aa - ac) * f = y at *
    have e : x * (x * aa + 0 * ab + y * ac) + 0 * (x * ab + 0 * bb + y * bc) + y * (x * ac + 0 * bc + y * cc) = x * aa + y * ac := by
      linear_combination (x * aa + y * ac) * r1 - y * r2
    refine ⟨q1, le_refl _, q2, by linarith, ?_, ?_, ?_⟩ <;> rw [e] <;> linarith
  rw [if_neg nAC]
  by_cases nBC : (bb - ab) * (cc - bc) - (cc - bc) * (bb - bc) + (bb - bc) * (cc - ac) < 0 ∧ 0 < bb - bc ∧ 0 < cc - bc
  · rw [if_pos nBC, key]
    obtain ⟨h1, h2, h3⟩ := nBC
    obtain ⟨f, hf⟩ : ∃ f, f = 1 / (bb - bc + (cc - bc)) := ⟨_, rfl⟩
    have hf1 : f * (bb - bc + (cc - bc)) = 1 := by rw [hf]; field_simp
    have hf0 : 0 ≤ f := by rw [hf]; positivity
    rw [← hf]
    obtain ⟨r1, r2, r3⟩ := edge_sound bb bc ab cc ac f hf1 hf0 (by linarith) _ _ rfl rfl
    have q1 := mul_nonneg h3.le hf0
    have q2 := mul_nonneg h2.le hf0
    generalize (cc - bc) * f = x at *
    generalize (bb - bc) * f = y at *
    have e : 0 * (0 * aa + x * ab + y * ac) + x * (0 * ab + x * bb + y * bc) + y * (0 * ac + x * bc + y * cc) = x * bb + y * bc := by
      linear_combination (x * bb + y * bc) * r1 - y * r2
    refine ⟨le_refl _, q1, q2, by linarith, ?_, ?_, ?_⟩ <;> rw [e] <;> linarith
  rw [if_neg nBC]
  obtain ⟨n1, n2, n3, n4, n5, n6, n7⟩ := hn
  obtain ⟨va, hva⟩ : ∃ v, v = (bb - ab) * (cc - bc) - (cc - bc) * (bb - bc) + (bb - bc) * (cc - ac) := ⟨_, rfl⟩
  obtain ⟨vb, hvb⟩ : ∃ v, v = (aa - ab) * (cc - ac) - (cc - ac) * (aa - ac) + (aa - ac) * (cc - bc) := ⟨_, rfl⟩
  obtain ⟨vc, hvc⟩ : ∃ v, v = (bb - bc) * (aa - ab) - (aa - ab) * (bb - ab) + (bb - ab) * (aa - ac) := ⟨_, rfl⟩
  rw [← hva, ← hvb, ← hvc] at hG ⊢
  rw [← hvc] at nAB
  rw [← hvb] at nAC
  rw [← hva] at nBC
  obtain ⟨r1, r2, r3⟩ := tri_last aa ab ac bb bc cc la lb lc n1 n2 n3 n4 n5 n6 n7 va vb vc hva hvb hvc Lab Lac Lbc nA nB nC nAB nAC nBC
    (fun h => by linarith [tA (by linarith)]) (fun h => by linarith [tA' (by linarith)]) (fun h => by linarith [tB (by linarith)])
    (fun h => by linarith [tB' (by linarith)]) (fun h => by linarith [tC (by linarith)]) (fun h => by linarith [tC' (by linarith)])
  have w : ∀ v l, v = l * (va + vb + vc) → v * (1 / (va + vb + vc)) = l := by
    intro v l h
    rw [h]
    field_simp
  rw [w va la r1, w vb lb r2, w vc lc r3, key]
  exact ⟨n1, n2, n3, n4, n5, n6, n7⟩

end Verif.Gjk
