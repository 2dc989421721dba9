import Verif.Lemmas.GjkTetra
/-! `nearest_simplex` for four points: facets and inside. -/
namespace Verif.Gjk

variable {K : Type} [Field K] [LinearOrder K] [IsStrictOrderedRing K]

/-- Where the nearest point is, one of the tests says so, or it is the origin. -/
theorem cases4 (junk : Nat → K) (hj : ∀ i, junk i ≤ 0) (a b c e : V K) (hv : vol a b c e ≠ 0) (l0 l1 l2 l3 : K) (hn : Near [l0, l1, l2, l3] [a, b, c, e]) :
    (∃ i ∈ [0, 1, 2, 3], vertexOut junk (four a b c e) i = true) ∨ (∃ i ∈ [0, 1, 2, 3, 4, 5], edgeOn (four a b c e) i = true) ∨
    (-det a b c * vol a b c e < 0 ∧ 0 < ev b c a ∧ 0 < ev a c b ∧ 0 < ev a b c) ∨
    (det a b e * vol a b c e < 0 ∧ 0 < ev b e a ∧ 0 < ev a e b ∧ 0 < ev a b e) ∨
    (-det a c e * vol a b c e < 0 ∧ 0 < ev c e a ∧ 0 < ev a e c ∧ 0 < ev a c e) ∨
    (det b c e * vol a b c e < 0 ∧ 0 < ev c e b ∧ 0 < ev b e c ∧ 0 < ev b c e) ∨ p4 l0 l1 l2 l3 a b c e = (0, 0, 0) := by
  obtain ⟨v0, v1, v2, v3⟩ := vertexOut_iff junk hj a b c e
  obtain ⟨w2, w1, w0⟩ := vol_perm a b c e
  rw [near_four_iff] at hn
  obtain ⟨n0, n1, n2, n3, hs, k0, k1, k2, k3⟩ := hn
  obtain ⟨p, hp⟩ : ∃ p, p = p4 l0 l1 l2 l3 a b c e := ⟨_, rfl⟩
  have hm : dot3 p p = l0 * dot3 p a + l1 * dot3 p b + l2 * dot3 p c + l3 * dot3 p e := by rw [hp]; simp only [p4, dot3]; ring
  rw [← hp] at k0 k1 k2 k3 ⊢
  obtain ⟨c0, c1, c2, c3⟩ := compl4 l0 l1 l2 l3 _ _ _ _ _ n0 n1 n2 n3 hs hm k0 k1 k2 k3
  have f : ∀ l m : K, 0 ≤ l → (l = 0 ∨ m = dot3 p p) → (l = 0) ∨ (0 < l ∧ m = dot3 p p) := by
    intro l m hl h
    rcases eq_or_lt_of_le hl with h' | h'
    · exact .inl h'.symm
    · rcases h with h | h
      · exact .inl h
      · exact .inr ⟨h', h⟩
  rcases f _ _ n0 c0 with z0 | ⟨s0, e0⟩ <;> rcases f _ _ n1 c1 with z1 | ⟨s1, e1⟩ <;> rcases f _ _ n2 c2 with z2 | ⟨s2, e2⟩ <;>
    rcases f _ _ n3 c3 with z3 | ⟨s3, e3⟩
  · exfalso; linarith
  · left; refine ⟨3, by simp, ?_⟩
    subst z0
    subst z1
    subst z2
    have hl : l3 = 1 := by linarith
    rw [hl] at hp
    have hp' : p = e := by rw [hp]; simp [p4]
    rw [v3, ← hp']
    exact ⟨k0, k1, k2⟩
  · left; refine ⟨2, by simp, ?_⟩
    subst z0
    subst z1
    subst z3
    have hl : l2 = 1 := by linarith
    rw [hl] at hp
    have hp' : p = c := by rw [hp]; simp [p4]
    rw [v2, ← hp']
    exact ⟨k0, k1, k3⟩
  · right; left; refine ⟨0, by simp, ?_⟩
    subst z0
    subst z1
    rw [edgeOn_iff a b c e 0 (by omega)]
    exact edge_case c e a b l2 l3 s2.le s3.le (by linarith) p (by rw [hp]; simp [p4]) (by linarith) (by linarith) (by linarith)
  · left; refine ⟨1, by simp, ?_⟩
    subst z0
    subst z2
    subst z3
    have hl : l1 = 1 := by linarith
    rw [hl] at hp
    have hp' : p = b := by rw [hp]; simp [p4]
    rw [v1, ← hp']
    exact ⟨k0, k2, k3⟩
  · right; left; refine ⟨1, by simp, ?_⟩
    subst z0
    subst z2
    rw [edgeOn_iff a b c e 1 (by omega)]
    exact edge_case b e a c l1 l3 s1.le s3.le (by linarith) p (by rw [hp]; simp [p4]) (by linarith) (by linarith) (by linarith)
  · right; left; refine ⟨2, by simp, ?_⟩
    subst z0
    subst z3
    rw [edgeOn_iff a b c e 2 (by omega)]
    exact edge_case b c a e l1 l2 s1.le s2.le (by linarith) p (by rw [hp]; simp [p4]) (by linarith) (by linarith) (by linarith)
  · right; right
    subst z0
    rcases facet_case b c e a (by rw [w0]; exact neg_ne_zero.mpr hv) l1 l2 l3 s1 s2 s3 (by linarith) p (by rw [hp]; simp [p4]) (by linarith) (by linarith) (by linarith) with h | h
    · exact .inr (.inr (.inr (.inl (by rw [w0] at h; exact ⟨by linarith [h.1], h.2⟩))))
    · exact .inr (.inr (.inr (.inr h)))
  · left; refine ⟨0, by simp, ?_⟩
    subst z1
    subst z2
    subst z3
    have hl : l0 = 1 := by linarith
    rw [hl] at hp
    have hp' : p = a := by rw [hp]; simp [p4]
    rw [v0, ← hp']
    exact ⟨k1, k2, k3⟩
  · right; left; refine ⟨3, by simp, ?_⟩
    subst z1
    subst z2
    rw [edgeOn_iff a b c e 3 (by omega)]
    exact edge_case a e b c l0 l3 s0.le s3.le (by linarith) p (by rw [hp]; simp [p4]) (by linarith) (by linarith) (by linarith)
  · right; left; refine ⟨4, by simp, ?_⟩
    subst z1
    subst z3
    rw [edgeOn_iff a b c e 4 (by omega)]
    exact edge_case a c b e l0 l2 s0.le s2.le (by linarith) p (by rw [hp]; simp [p4]) (by linarith) (by linarith) (by linarith)
  · right; right
    subst z1
    rcases facet_case a c e b (by rw [w1]; exact hv) l0 l2 l3 s0 s2 s3 (by linarith) p (by rw [hp]; simp [p4]) (by linarith) (by linarith) (by linarith) with h | h
    · exact .inr (.inr (.inl (by rw [w1] at h; exact h)))
    · exact .inr (.inr (.inr (.inr h)))
  · right; left; refine ⟨5, by simp, ?_⟩
    subst z2
    subst z3
    rw [edgeOn_iff a b c e 5 (by omega)]
    exact edge_case a b c e l0 l1 s0.le s1.le (by linarith) p (by rw [hp]; simp [p4]) (by linarith) (by linarith) (by linarith)
  · right; right
    subst z2
    rcases facet_case a b e c (by rw [w2]; exact neg_ne_zero.mpr hv) l0 l1 l3 s0 s1 s3 (by linarith) p (by rw [hp]; simp [p4]) (by linarith) (by linarith) (by linarith) with h | h
    · exact .inr (.inl (by rw [w2] at h; exact ⟨by linarith [h.1], h.2⟩))
    · exact .inr (.inr (.inr (.inr h)))
  · right; right
    subst z3
    rcases facet_case a b c e (by exact hv) l0 l1 l2 s0 s1 s2 (by linarith) p (by rw [hp]; simp [p4]) (by linarith) (by linarith) (by linarith) with h | h
    · exact .inl (by exact h)
    · exact .inr (.inr (.inr (.inr h)))
  · exact .inr (.inr (.inr (.inr (.inr (.inr (inside_case a b c e hv p (by linarith) (by linarith) (by linarith)))))))

/-- The part of the code for facets and the interior. -/
theorem nearest4_facets (junk : Nat → K) (hj : ∀ i, junk i ≤ 0) (a b c e : V K) (hv : vol a b c e ≠ 0) (hex : ∃ l0 l1 l2 l3, Near [l0, l1, l2, l3] [a, b, c, e])
    (hV : ∀ i ∈ [0, 1, 2, 3], vertexOut junk (four a b c e) i ≠ true) (hE : ∀ i ∈ [0, 1, 2, 3, 4, 5], edgeOn (four a b c e) i ≠ true)
    (σ : K) (hσ : σ * σ = 1) (w : Nat → K) (hw : ∀ k, w k = σ * det4 (four a b c e) k) (wsum : K) (hws : wsum = σ * vol a b c e) (hpos : 0 < wsum) :
    Near (facets (four a b c e) w wsum) [a, b, c, e] := by
  obtain ⟨d0, d1, d2, d3⟩ := vol_dets a b c e
  obtain ⟨q2, q1, q0⟩ := vol_perm a b c e
  have sg : ∀ x y : K, x = σ * y → (x < 0 ↔ y * vol a b c e < 0) := by
    intro x y h
    have : x * wsum = y * vol a b c e := by rw [h, hws]; linear_combination (y * vol a b c e) * hσ
    rw [← this]
    constructor
    · intro hx; exact mul_neg_of_neg_of_pos hx hpos
    · intro hx
      by_contra hc
      exact absurd (mul_nonneg (not_lt.mp hc) hpos.le) (not_le.mpr hx)
  have t0 := sg (w 0) (-det a b c) (by rw [hw, d0])
  have t1 := sg (w 1) (det a b e) (by rw [hw, d1])
  have t2 := sg (w 2) (-det a c e) (by rw [hw, d2])
  have t3 := sg (w 3) (det b c e) (by rw [hw, d3])
  obtain ⟨⟨u00, u01⟩, ⟨u10, u11⟩, ⟨u20, u21⟩, ⟨u30, u31⟩, ⟨u40, u41⟩, ⟨u50, u51⟩⟩ := vv_four a b c e
  unfold facets
  dsimp only
  rw [u00, u01, u10, u11, u20, u21, u30, u31, u40, u41, u50, u51]
  split_ifs with h1 h2 h3 h4
  · rw [t0] at h1
    obtain ⟨r0, r1, r2, r3⟩ := h1
    obtain ⟨x0, x1, x2, x3, x4, x5, x6, x7⟩ := facet4 a b c e r1 r2 r3 r0 _ _ _ _ rfl rfl rfl rfl _ rfl
    rw [near_four_iff]
    generalize ev b c a * (1 / (ev b c a + ev a c b + ev a b c)) = x at *
    generalize ev a c b * (1 / (ev b c a + ev a c b + ev a b c)) = y at *
    generalize ev a b c * (1 / (ev b c a + ev a c b + ev a b c)) = z at *
    have hp : p4 x y z 0 a b c e = (x * a.1 + y * b.1 + z * c.1, x * a.2.1 + y * b.2.1 + z * c.2.1, x * a.2.2 + y * b.2.2 + z * c.2.2) := by simp [p4]
    rw [hp]
    exact ⟨x0, x1, x2, le_refl _, by linarith, x4, x5, x6, x7⟩
  · rw [t1] at h2
    obtain ⟨r0, r1, r2, r3⟩ := h2
    obtain ⟨x0, x1, x2, x3, x4, x5, x6, x7⟩ := facet4 a b e c r1 r2 r3 (by rw [q2]; linarith) _ _ _ _ rfl rfl rfl rfl _ rfl
    rw [near_four_iff]
    generalize ev b e a * (1 / (ev b e a + ev a e b + ev a b e)) = x at *
    generalize ev a e b * (1 / (ev b e a + ev a e b + ev a b e)) = y at *
    generalize ev a b e * (1 / (ev b e a + ev a e b + ev a b e)) = z at *
    have hp : p4 x y 0 z a b c e = (x * a.1 + y * b.1 + z * e.1, x * a.2.1 + y * b.2.1 + z * e.2.1, x * a.2.2 + y * b.2.2 + z * e.2.2) := by simp [p4]
    rw [hp]
    exact ⟨x0, x1, le_refl _, x2, by linarith, x4, x5, x7, x6⟩
  · rw [t2] at h3
    obtain ⟨r0, r1, r2, r3⟩ := h3
    obtain ⟨x0, x1, x2, x3, x4, x5, x6, x7⟩ := facet4 a c e b r1 r2 r3 (by rw [q1]; linarith) _ _ _ _ rfl rfl rfl rfl _ rfl
    rw [near_four_iff]
    generalize ev c e a * (1 / (ev c e a + ev a e c + ev a c e)) = x at *
    generalize ev a e c * (1 / (ev c e a + ev a e c + ev a c e)) = y at *
    generalize ev a c e * (1 / (ev c e a + ev a e c + ev a c e)) = z at *
    have hp : p4 x 0 y z a b c e = (x * a.1 + y * c.1 + z * e.1, x * a.2.1 + y * c.2.1 + z * e.2.1, x * a.2.2 + y * c.2.2 + z * e.2.2) := by simp [p4]
    rw [hp]
    exact ⟨x0, le_refl _, x1, x2, by linarith, x4, x7, x5, x6⟩
  · rw [t3] at h4
    obtain ⟨r0, r1, r2, r3⟩ := h4
    obtain ⟨x0, x1, x2, x3, x4, x5, x6, x7⟩ := facet4 b c e a r1 r2 r3 (by rw [q0]; linarith) _ _ _ _ rfl rfl rfl rfl _ rfl
    rw [near_four_iff]
    generalize ev c e b * (1 / (ev c e b + ev b e c + ev b c e)) = x at *
    generalize ev b e c * (1 / (ev c e b + ev b e c + ev b c e)) = y at *
    generalize ev b c e * (1 / (ev c e b + ev b e c + ev b c e)) = z at *
    have hp : p4 0 x y z a b c e = (x * b.1 + y * c.1 + z * e.1, x * b.2.1 + y * c.2.1 + z * e.2.1, x * b.2.2 + y * c.2.2 + z * e.2.2) := by simp [p4]
    rw [hp]
    exact ⟨le_refl _, x0, x1, x2, by linarith, x7, x4, x5, x6⟩
  · rw [t0] at h1
    rw [t1] at h2
    rw [t2] at h3
    rw [t3] at h4
    obtain ⟨l0, l1, l2, l3, hn⟩ := hex
    rcases cases4 junk hj a b c e hv l0 l1 l2 l3 hn with ⟨i, hi, h⟩ | ⟨i, hi, h⟩ | h | h | h | h | h
    · exact absurd h (hV i hi)
    · exact absurd h (hE i hi)
    · exact absurd h h1
    · exact absurd h h2
    · exact absurd h h3
    · exact absurd h h4
    · obtain ⟨b0, b1, b2, b3⟩ := bary a b c e l0 l1 l2 l3 ((near_four_iff a b c e l0 l1 l2 l3).mp hn).2.2.2.2.1 h
      have q : ∀ x y l : K, x = σ * y → y = l * vol a b c e → x / wsum = l := by
        intro x y l h1 h2
        rw [div_eq_iff hpos.ne', h1, h2, hws]
        ring
      rw [q (w 3) _ l0 (by rw [hw, d3]) b0, q (w 2) _ l1 (by rw [hw, d2]) b1, q (w 1) _ l2 (by rw [hw, d1]) b2, q (w 0) _ l3 (by rw [hw, d0]) b3]
      exact hn

/-- Four points that are not in a plane. -/
theorem nearest4_near (junk : Nat → K) (hj : ∀ i, junk i ≤ 0) (a b c e : V K) (hv : vol a b c e ≠ 0) (hex : ∃ l0 l1 l2 l3, Near [l0, l1, l2, l3] [a, b, c, e]) :
    Near (nearest4 junk (four a b c e)) [a, b, c, e] := by
  unfold nearest4
  cases h1 : [0, 1, 2, 3].find? (vertexOut junk (four a b c e)) with
  | some i => exact nearest4_vertex junk hj a b c e i h1
  | none =>
    cases h2 : [0, 1, 2, 3, 4, 5].find? (edgeOn (four a b c e)) with
    | some i => exact nearest4_edge a b c e hv i h2
    | none =>
      dsimp only
      rw [vol_sum]
      have hV := List.find?_eq_none.mp h1
      have hE := List.find?_eq_none.mp h2
      by_cases h : vol a b c e < 0
      · rw [if_pos h]
        exact nearest4_facets junk hj a b c e hv hex hV hE (-1) (by norm_num) _ (fun k => by ring) _ (by ring) (by linarith)
      · rw [if_neg h]
        exact nearest4_facets junk hj a b c e hv hex hV hE 1 (by norm_num) _ (fun k => by ring) _ (by ring) (lt_of_le_of_ne (not_lt.mp h) (Ne.symm hv))

end Verif.Gjk
