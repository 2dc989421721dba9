import Verif.Lemmas.GjkNear
/-! The nearest point of a simplex: four points. -/
namespace Verif.Gjk

variable {K : Type} [Field K] [LinearOrder K] [IsStrictOrderedRing K]

/-- `v` for the edge from `a` to `b` and the point `c`. -/
def ev (a b c : V K) : K :=
  (dot3 b b - dot3 b c) * (dot3 a a - dot3 a b) - (dot3 a a - dot3 a b) * (dot3 b b - dot3 b a) + (dot3 b b - dot3 b a) * (dot3 a a - dot3 a c)

def crossv (u v : V K) : V K := (u.2.1 * v.2.2 - u.2.2 * v.2.1, u.2.2 * v.1 - u.1 * v.2.2, u.1 * v.2.1 - u.2.1 * v.1)

/-- Determinant of three vectors. -/
def det (a b c : V K) : K := dot3 a (crossv b c)

/-- Determinant of the edges at `a`. -/
def vol (a b c e : V K) : K := dot3 (crossv (diff b a) (diff c a)) (diff e a)

/-- The mean of four points. -/
def p4 (l0 l1 l2 l3 : K) (a b c e : V K) : V K :=
  (l0 * a.1 + l1 * b.1 + l2 * c.1 + l3 * e.1, l0 * a.2.1 + l1 * b.2.1 + l2 * c.2.1 + l3 * e.2.1, l0 * a.2.2 + l1 * b.2.2 + l2 * c.2.2 + l3 * e.2.2)

theorem near_four_iff (a b c e : V K) (l0 l1 l2 l3 : K) : Near [l0, l1, l2, l3] [a, b, c, e] ↔ (0 ≤ l0 ∧ 0 ≤ l1 ∧ 0 ≤ l2 ∧ 0 ≤ l3 ∧ l0 + l1 + l2 + l3 = 1 ∧
    dot3 (p4 l0 l1 l2 l3 a b c e) (p4 l0 l1 l2 l3 a b c e) ≤ dot3 (p4 l0 l1 l2 l3 a b c e) a ∧
    dot3 (p4 l0 l1 l2 l3 a b c e) (p4 l0 l1 l2 l3 a b c e) ≤ dot3 (p4 l0 l1 l2 l3 a b c e) b ∧
    dot3 (p4 l0 l1 l2 l3 a b c e) (p4 l0 l1 l2 l3 a b c e) ≤ dot3 (p4 l0 l1 l2 l3 a b c e) c ∧
    dot3 (p4 l0 l1 l2 l3 a b c e) (p4 l0 l1 l2 l3 a b c e) ≤ dot3 (p4 l0 l1 l2 l3 a b c e) e) := by
  have h : pt ([l0, l1, l2, l3].zip [a, b, c, e]) = p4 l0 l1 l2 l3 a b c e := by
    simp only [pt, p4, List.zip_cons_cons, List.zip_nil_right, List.map_cons, List.map_nil, List.sum_cons, List.sum_nil]
    refine Prod.ext ?_ (Prod.ext ?_ ?_) <;> ring
  constructor
  · rintro ⟨_, h1, h2, h3⟩
    rw [h] at h3
    refine ⟨h1 l0 (by simp), h1 l1 (by simp), h1 l2 (by simp), h1 l3 (by simp), ?_, h3 a (by simp), h3 b (by simp), h3 c (by simp), h3 e (by simp)⟩
    simp only [List.sum_cons, List.sum_nil] at h2
    linarith
  · rintro ⟨h1, h2, h3, h4, h5, h6, h7, h8, h9⟩
    refine ⟨rfl, by simp [h1, h2, h3, h4], by simp only [List.sum_cons, List.sum_nil]; linarith, ?_⟩
    rw [h]
    intro t ht
    simp only [List.mem_cons, List.not_mem_nil, or_false] at ht
    rcases ht with rfl | rfl | rfl | rfl
    · exact h6
    · exact h7
    · exact h8
    · exact h9

/-- Vectors orthogonal to two others are along their cross product. -/
theorem perp (u w p x : V K) (hu : dot3 p u = 0) (hw : dot3 p w = 0) :
    dot3 p x * dot3 (crossv u w) (crossv u w) = dot3 p (crossv u w) * dot3 (crossv u w) x := by
  simp only [dot3, crossv] at *
  obtain ⟨n1, h1⟩ : ∃ n, n = u.2.1 * w.2.2 - u.2.2 * w.2.1 := ⟨_, rfl⟩
  obtain ⟨n2, h2⟩ : ∃ n, n = u.2.2 * w.1 - u.1 * w.2.2 := ⟨_, rfl⟩
  obtain ⟨n3, h3⟩ : ∃ n, n = u.1 * w.2.1 - u.2.1 * w.1 := ⟨_, rfl⟩
  rw [← h1, ← h2, ← h3]
  have q1 : p.2.1 * n3 - p.2.2 * n2 = 0 := by rw [h3, h2]; linear_combination u.1 * hw - w.1 * hu
  have q2 : p.2.2 * n1 - p.1 * n3 = 0 := by rw [h3, h1]; linear_combination u.2.1 * hw - w.2.1 * hu
  have q3 : p.1 * n2 - p.2.1 * n1 = 0 := by rw [h1, h2]; linear_combination u.2.2 * hw - w.2.2 * hu
  linear_combination (x.2.2 * n2 - x.2.1 * n3) * (-q1) + (x.1 * n3 - x.2.2 * n1) * (-q2) + (x.2.1 * n1 - x.1 * n2) * (-q3)

theorem gram_cross (a b c : V K) : gram a b c = dot3 (crossv (diff b a) (diff c a)) (crossv (diff b a) (diff c a)) := by
  simp only [gram, dot3, crossv, diff]; ring

theorem zero_of_dot (p : V K) (h : dot3 p p = 0) : p = (0, 0, 0) := by
  have h1 := mul_self_nonneg p.1
  have h2 := mul_self_nonneg p.2.1
  have h3 := mul_self_nonneg p.2.2
  simp only [dot3] at h
  exact Prod.ext (mul_self_eq_zero.mp (by linarith)) (Prod.ext (mul_self_eq_zero.mp (by linarith)) (mul_self_eq_zero.mp (by linarith)))

theorem gram_pos (a b c e : V K) (h : vol a b c e ≠ 0) : 0 < gram a b c := by
  rw [gram_cross]
  refine lt_of_le_of_ne (dot3_nonneg _) fun h0 => h ?_
  unfold vol
  rw [zero_of_dot _ h0.symm]
  simp [dot3]

theorem gram_ev (a b c : V K) : gram a b c = ev b c a + ev a c b + ev a b c := by
  simp only [gram, ev, dot3]; ring

theorem dot_diff (p a b : V K) : dot3 p (diff b a) = dot3 p b - dot3 p a := by simp only [dot3, diff]; ring

theorem dot_normal (a b c : V K) : dot3 a (crossv (diff b a) (diff c a)) = det a b c := by
  simp only [det, dot3, diff, crossv]; ring

/-- An edge returned is the nearest part. -/
theorem edge4 (a b c e : V K) (hL : 0 < dot3 a a - dot3 a b + (dot3 b b - dot3 b a)) (hc : ev a b c ≤ 0) (he : ev a b e ≤ 0)
    (h1 : 0 ≤ dot3 a a - dot3 a b) (h2 : 0 ≤ dot3 b b - dot3 b a) (f la lb : K) (hf : f = 1 / (dot3 a a - dot3 a b + (dot3 b b - dot3 b a)))
    (hla : la = f * (dot3 b b - dot3 b a)) (hlb : lb = f * (dot3 a a - dot3 a b)) (p : V K)
    (hp : p = (la * a.1 + lb * b.1, la * a.2.1 + lb * b.2.1, la * a.2.2 + lb * b.2.2)) :
    0 ≤ la ∧ 0 ≤ lb ∧ la + lb = 1 ∧ dot3 p p ≤ dot3 p a ∧ dot3 p p ≤ dot3 p b ∧ dot3 p p ≤ dot3 p c ∧ dot3 p p ≤ dot3 p e := by
  have hf1 : f * (dot3 a a - dot3 a b + (dot3 b b - dot3 b a)) = 1 := by rw [hf]; field_simp
  have hf0 : 0 ≤ f := by rw [hf]; positivity
  have hs : la + lb = 1 := by rw [hla, hlb]; linear_combination hf1
  have ka : dot3 p a = la * dot3 a a + lb * dot3 b a := by rw [hp]; simp only [dot3]; ring
  have kb : dot3 p b = la * dot3 a b + lb * dot3 b b := by rw [hp]; simp only [dot3]; ring
  have kc : ∀ c, dot3 p c = la * dot3 a c + lb * dot3 b c := by intro c; rw [hp]; simp only [dot3]; ring
  have kp : dot3 p p = la * dot3 p a + lb * dot3 p b := by
    rw [hp]; simp only [dot3]; ring
  have hab : dot3 p a = dot3 p b := by
    rw [ka, kb, hla, hlb, dot3_comm b a]; ring
  have hpp : dot3 p p = dot3 p a := by rw [kp, ← hab]; linear_combination dot3 p a * hs
  have hx : ∀ c, ev a b c ≤ 0 → dot3 p p ≤ dot3 p c := by
    intro c hc
    have := mul_nonpos_of_nonneg_of_nonpos hf0 hc
    have e : dot3 p a - dot3 p c = f * ev a b c := by
      rw [ka, kc c, hla, hlb]; simp only [ev]; rw [dot3_comm b a]; ring
    rw [hpp]; linarith
  exact ⟨by rw [hla]; exact mul_nonneg hf0 h2, by rw [hlb]; exact mul_nonneg hf0 h1, hs, hpp.le, by rw [hpp, hab], hx c hc, hx e he⟩

/-- A facet returned is the nearest part. -/
theorem facet4 (a b c e : V K) (ha : 0 < ev b c a) (hb : 0 < ev a c b) (hc : 0 < ev a b c) (hw : -det a b c * vol a b c e < 0)
    (f la lb lc : K) (hf : f = 1 / (ev b c a + ev a c b + ev a b c)) (hla : la = ev b c a * f) (hlb : lb = ev a c b * f) (hlc : lc = ev a b c * f)
    (p : V K) (hp : p = (la * a.1 + lb * b.1 + lc * c.1, la * a.2.1 + lb * b.2.1 + lc * c.2.1, la * a.2.2 + lb * b.2.2 + lc * c.2.2)) :
    0 ≤ la ∧ 0 ≤ lb ∧ 0 ≤ lc ∧ la + lb + lc = 1 ∧ dot3 p p ≤ dot3 p a ∧ dot3 p p ≤ dot3 p b ∧ dot3 p p ≤ dot3 p c ∧ dot3 p p ≤ dot3 p e := by
  have hS : 0 < ev b c a + ev a c b + ev a b c := by linarith
  have hf1 : f * (ev b c a + ev a c b + ev a b c) = 1 := by rw [hf]; field_simp
  have hf0 : 0 ≤ f := by rw [hf]; positivity
  have hs : la + lb + lc = 1 := by rw [hla, hlb, hlc]; linear_combination hf1
  have kx : ∀ x, dot3 p x = la * dot3 a x + lb * dot3 b x + lc * dot3 c x := by intro x; rw [hp]; simp only [dot3]; ring
  have kp : dot3 p p = la * dot3 p a + lb * dot3 p b + lc * dot3 p c := by rw [hp]; simp only [dot3]; ring
  have hab : dot3 p a = dot3 p b := by
    rw [kx, kx, hla, hlb, hlc]; simp only [ev]; rw [dot3_comm b a, dot3_comm c a, dot3_comm c b]; ring
  have hac : dot3 p a = dot3 p c := by
    rw [kx, kx, hla, hlb, hlc]; simp only [ev]; rw [dot3_comm b a, dot3_comm c a, dot3_comm c b]; ring
  have hpp : dot3 p p = dot3 p a := by rw [kp, ← hab, ← hac]; linear_combination dot3 p a * hs
  have hperp := perp (diff b a) (diff c a) p (diff e a) (by rw [dot_diff]; linarith) (by rw [dot_diff]; linarith)
  have hn : dot3 p (crossv (diff b a) (diff c a)) = det a b c := by
    have e1 : dot3 b (crossv (diff b a) (diff c a)) = det a b c := by simp only [det, dot3, diff, crossv]; ring
    have e2 : dot3 c (crossv (diff b a) (diff c a)) = det a b c := by simp only [det, dot3, diff, crossv]; ring
    rw [kx, dot_normal, e1, e2]
    linear_combination det a b c * hs
  have hg : 0 < dot3 (crossv (diff b a) (diff c a)) (crossv (diff b a) (diff c a)) := by rw [← gram_cross, gram_ev]; exact hS
  have he : 0 < dot3 p (diff e a) := by
    have : 0 < dot3 p (diff e a) * dot3 (crossv (diff b a) (diff c a)) (crossv (diff b a) (diff c a)) := by
      rw [hperp, hn]
      have : vol a b c e = dot3 (crossv (diff b a) (diff c a)) (diff e a) := rfl
      rw [← this]
      linarith
    exact (pos_iff_pos_of_mul_pos this).mpr hg
  rw [dot_diff] at he
  exact ⟨by rw [hla]; exact mul_nonneg ha.le hf0, by rw [hlb]; exact mul_nonneg hb.le hf0, by rw [hlc]; exact mul_nonneg hc.le hf0, hs, hpp.le,
    by rw [hpp, hab], by rw [hpp, hac], by rw [hpp]; linarith⟩

/-- If the nearest point is on an edge, the test says so. -/
theorem edge_case (a b c e : V K) (la lb : K) (ha : 0 ≤ la) (hb : 0 ≤ lb) (hs : la + lb = 1) (p : V K)
    (hp : p = (la * a.1 + lb * b.1, la * a.2.1 + lb * b.2.1, la * a.2.2 + lb * b.2.2)) (hab : dot3 p a = dot3 p b)
    (hc : dot3 p a ≤ dot3 p c) (he : dot3 p a ≤ dot3 p e) :
    ev a b c ≤ 0 ∧ ev a b e ≤ 0 ∧ 0 ≤ dot3 a a - dot3 a b ∧ 0 ≤ dot3 b b - dot3 b a := by
  have hL := len_nonneg a b
  have kx : ∀ x, dot3 p x = la * dot3 a x + lb * dot3 b x := by intro x; rw [hp]; simp only [dot3]; ring
  have e1 : dot3 a a - dot3 a b = lb * (dot3 a a - dot3 a b + (dot3 b b - dot3 a b)) := by
    have := hab
    rw [kx, kx, dot3_comm b a] at this
    linear_combination (-(dot3 a a - dot3 a b)) * hs + this
  have e2 : dot3 b b - dot3 b a = la * (dot3 a a - dot3 a b + (dot3 b b - dot3 a b)) := by
    have := hab
    rw [kx, kx, dot3_comm b a] at this
    rw [dot3_comm b a]
    linear_combination (-(dot3 b b - dot3 a b)) * hs - this
  have hx : ∀ x, dot3 p a ≤ dot3 p x → ev a b x ≤ 0 := by
    intro x hx
    have : ev a b x = (dot3 a a - dot3 a b + (dot3 b b - dot3 a b)) * (dot3 p a - dot3 p x) := by
      rw [kx a, kx x]
      simp only [ev]
      rw [dot3_comm b a] at e2 ⊢
      linear_combination (-(dot3 b b - dot3 a b) + (dot3 b b - dot3 b x)) * e1 + (dot3 a a - dot3 a x) * e2
    rw [this]
    exact mul_nonpos_of_nonneg_of_nonpos hL (by linarith)
  exact ⟨hx c hc, hx e he, by rw [e1]; exact mul_nonneg hb hL, by rw [e2]; exact mul_nonneg ha hL⟩

/-- If the nearest point is on a facet, the test says so, or the point is the origin. -/
theorem facet_case (a b c e : V K) (hv : vol a b c e ≠ 0) (la lb lc : K) (ha : 0 < la) (hb : 0 < lb) (hc : 0 < lc) (hs : la + lb + lc = 1) (p : V K)
    (hp : p = (la * a.1 + lb * b.1 + lc * c.1, la * a.2.1 + lb * b.2.1 + lc * c.2.1, la * a.2.2 + lb * b.2.2 + lc * c.2.2))
    (hab : dot3 p a = dot3 p b) (hac : dot3 p a = dot3 p c) (he : dot3 p a ≤ dot3 p e) :
    (-det a b c * vol a b c e < 0 ∧ 0 < ev b c a ∧ 0 < ev a c b ∧ 0 < ev a b c) ∨ p = (0, 0, 0) := by
  have kx : ∀ x, dot3 p x = la * dot3 a x + lb * dot3 b x + lc * dot3 c x := by intro x; rw [hp]; simp only [dot3]; ring
  have hG := gram_pos a b c e hv
  have hperp := perp (diff b a) (diff c a) p (diff e a) (by rw [dot_diff]; linarith) (by rw [dot_diff]; linarith)
  have hperp' := perp (diff b a) (diff c a) p p (by rw [dot_diff]; linarith) (by rw [dot_diff]; linarith)
  have hn : dot3 p (crossv (diff b a) (diff c a)) = det a b c := by
    have e1 : dot3 b (crossv (diff b a) (diff c a)) = det a b c := by simp only [det, dot3, diff, crossv]; ring
    have e2 : dot3 c (crossv (diff b a) (diff c a)) = det a b c := by simp only [det, dot3, diff, crossv]; ring
    rw [kx, dot_normal, e1, e2]
    linear_combination det a b c * hs
  rw [hn, ← gram_cross] at hperp hperp'
  have hvol : vol a b c e = dot3 (crossv (diff b a) (diff c a)) (diff e a) := rfl
  rw [← hvol, dot_diff] at hperp
  have hle : -det a b c * vol a b c e ≤ 0 := by
    have := mul_nonneg (sub_nonneg.mpr he) hG.le
    linarith
  rcases eq_or_lt_of_le hle with h0 | h0
  · right
    have hd : det a b c = 0 := by
      rcases mul_eq_zero.mp h0 with h | h
      · linarith
      · exact absurd h hv
    rw [hd, zero_mul] at hperp'
    rcases mul_eq_zero.mp hperp' with h | h
    · exact zero_of_dot p h
    · exact absurd h hG.ne'
  · left
    have hab' := hab
    have hac' := hac
    rw [kx, kx, dot3_comm b a, dot3_comm c a] at hab' hac'
    rw [dot3_comm c b] at hab'
    obtain ⟨r1, r2, r3⟩ := tri_prop (dot3 a a) (dot3 a b) (dot3 a c) (dot3 b b) (dot3 b c) (dot3 c c) la lb lc hs hab' hac' (ev b c a) (ev a c b) (ev a b c)
      (by simp only [ev]; rw [dot3_comm b a, dot3_comm c a, dot3_comm c b]; ring) (by simp only [ev]; rw [dot3_comm c a, dot3_comm c b]; ring)
      (by simp only [ev]; rw [dot3_comm b a])
    rw [← gram_ev] at r1 r2 r3
    exact ⟨h0, by rw [r1]; exact mul_pos ha hG, by rw [r2]; exact mul_pos hb hG, by rw [r3]; exact mul_pos hc hG⟩

/-- If all levels are equal the nearest point is the origin. -/
theorem inside_case (a b c e : V K) (hv : vol a b c e ≠ 0) (p : V K) (hab : dot3 p a = dot3 p b) (hac : dot3 p a = dot3 p c) (hae : dot3 p a = dot3 p e) :
    p = (0, 0, 0) := by
  have hG := gram_pos a b c e hv
  have hperp := perp (diff b a) (diff c a) p (diff e a) (by rw [dot_diff]; linarith) (by rw [dot_diff]; linarith)
  have hperp' := perp (diff b a) (diff c a) p p (by rw [dot_diff]; linarith) (by rw [dot_diff]; linarith)
  rw [← gram_cross] at hperp hperp'
  have hvol : vol a b c e = dot3 (crossv (diff b a) (diff c a)) (diff e a) := rfl
  rw [← hvol, dot_diff, hae, sub_self, zero_mul] at hperp
  have hn : dot3 p (crossv (diff b a) (diff c a)) = 0 := by
    rcases mul_eq_zero.mp hperp.symm with h | h
    · exact h
    · exact absurd h hv
  rw [hn, zero_mul] at hperp'
  rcases mul_eq_zero.mp hperp' with h | h
  · exact zero_of_dot p h
  · exact absurd h hG.ne'

end Verif.Gjk
