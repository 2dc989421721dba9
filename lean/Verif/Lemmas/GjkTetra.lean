import Verif.Lemmas.GjkTet
/-! `nearest_simplex` for four points. -/
namespace Verif.Gjk

variable {K : Type} [Field K] [LinearOrder K] [IsStrictOrderedRing K]

/-- Four points as a function. -/
def four (a b c e : V K) (i : Nat) : V K := [a, b, c, e].getD i (0, 0, 0)

/-- Complementarity for four points. -/
theorem compl4 (l0 l1 l2 l3 m0 m1 m2 m3 m : K) (h0 : 0 ≤ l0) (h1 : 0 ≤ l1) (h2 : 0 ≤ l2) (h3 : 0 ≤ l3) (hs : l0 + l1 + l2 + l3 = 1)
    (hm : m = l0 * m0 + l1 * m1 + l2 * m2 + l3 * m3) (k0 : m ≤ m0) (k1 : m ≤ m1) (k2 : m ≤ m2) (k3 : m ≤ m3) :
    (l0 = 0 ∨ m0 = m) ∧ (l1 = 0 ∨ m1 = m) ∧ (l2 = 0 ∨ m2 = m) ∧ (l3 = 0 ∨ m3 = m) := by
  have e : l0 * (m0 - m) + l1 * (m1 - m) + l2 * (m2 - m) + l3 * (m3 - m) = 0 := by linear_combination -hm - m * hs
  have p0 := mul_nonneg h0 (sub_nonneg.mpr k0)
  have p1 := mul_nonneg h1 (sub_nonneg.mpr k1)
  have p2 := mul_nonneg h2 (sub_nonneg.mpr k2)
  have p3 := mul_nonneg h3 (sub_nonneg.mpr k3)
  have f : ∀ l n : K, l * (n - m) = 0 → l = 0 ∨ n = m := by
    intro l n h
    rcases mul_eq_zero.mp h with h | h
    · exact .inl h
    · exact .inr (by linarith)
  exact ⟨f _ _ (by linarith), f _ _ (by linarith), f _ _ (by linarith), f _ _ (by linarith)⟩

theorem vol_dets (a b c e : V K) : det4 (four a b c e) 0 = -det a b c ∧ det4 (four a b c e) 1 = det a b e ∧ det4 (four a b c e) 2 = -det a c e ∧
    det4 (four a b c e) 3 = det b c e := by
  refine ⟨?_, ?_, ?_, ?_⟩ <;> simp only [det4, four, det, dot3, crossv, List.getD_cons_zero, List.getD_cons_succ] <;> norm_num <;> ring

theorem vol_sum (a b c e : V K) : det4 (four a b c e) 0 + det4 (four a b c e) 1 + det4 (four a b c e) 2 + det4 (four a b c e) 3 = vol a b c e := by
  obtain ⟨h0, h1, h2, h3⟩ := vol_dets a b c e
  rw [h0, h1, h2, h3]
  simp only [det, vol, dot3, crossv, diff]; ring

theorem vol_perm (a b c e : V K) : vol a b e c = -vol a b c e ∧ vol a c e b = vol a b c e ∧ vol b c e a = -vol a b c e := by
  refine ⟨?_, ?_, ?_⟩ <;> simp only [vol, dot3, crossv, diff] <;> ring

/-- If the origin has these barycentric coordinates, they are those of the last case. -/
theorem bary (a b c e : V K) (l0 l1 l2 l3 : K) (hs : l0 + l1 + l2 + l3 = 1) (h : p4 l0 l1 l2 l3 a b c e = (0, 0, 0)) :
    det b c e = l0 * vol a b c e ∧ -det a c e = l1 * vol a b c e ∧ det a b e = l2 * vol a b c e ∧ -det a b c = l3 * vol a b c e := by
  have x : l0 * a.1 + l1 * b.1 + l2 * c.1 + l3 * e.1 = 0 := congrArg (·.1) h
  have y : l0 * a.2.1 + l1 * b.2.1 + l2 * c.2.1 + l3 * e.2.1 = 0 := congrArg (·.2.1) h
  have z : l0 * a.2.2 + l1 * b.2.2 + l2 * c.2.2 + l3 * e.2.2 = 0 := congrArg (·.2.2) h
  have g : ∀ u v : V K, l0 * det a u v + l1 * det b u v + l2 * det c u v + l3 * det e u v = 0 := by
    intro u v
    simp only [det, dot3, crossv]
    linear_combination (u.2.1 * v.2.2 - u.2.2 * v.2.1) * x + (u.2.2 * v.1 - u.1 * v.2.2) * y + (u.1 * v.2.1 - u.2.1 * v.1) * z
  have hv : vol a b c e = det b c e - det a c e + det a b e - det a b c := by simp only [vol, det, dot3, crossv, diff]; ring
  have z1 : ∀ u v : V K, det u u v = 0 := by intro u v; simp only [det, dot3, crossv]; ring
  have z2 : ∀ u v : V K, det v u v = 0 := by intro u v; simp only [det, dot3, crossv]; ring
  have sw : ∀ u v w : V K, det v u w = -det u v w := by intro u v w; simp only [det, dot3, crossv]; ring
  have ro : ∀ u v w : V K, det w u v = det u v w := by intro u v w; simp only [det, dot3, crossv]; ring
  have gce := g c e
  have gbe := g b e
  have gbc := g b c
  have gae := g a e
  have gac := g a c
  have gab := g a b
  simp only [z1, z2, mul_zero, add_zero, zero_add] at gce gbe gbc gae gac gab
  rw [sw b c e] at gbe
  rw [ro b c e] at gbc
  rw [sw a b e, sw a c e] at gae
  rw [sw a b c, ro a c e] at gac
  rw [ro a b c, ro a b e] at gab
  rw [hv]
  refine ⟨?_, ?_, ?_, ?_⟩
  · linear_combination (-det b c e) * hs + gce - gbe + gbc
  · linear_combination det a c e * hs - gce + gae - gac
  · linear_combination (-det a b e) * hs + gbe - gae + gab
  · linear_combination det a b c * hs - gbc + gac - gab

/-- Sums with a zero weight. -/
theorem p4_perm (l0 l1 l2 l3 : K) (a b c e : V K) : p4 l0 l1 l2 l3 a b c e = p4 l1 l0 l2 l3 b a c e ∧ p4 l0 l1 l2 l3 a b c e = p4 l0 l2 l1 l3 a c b e ∧
    p4 l0 l1 l2 l3 a b c e = p4 l0 l1 l3 l2 a b e c := by
  refine ⟨?_, ?_, ?_⟩ <;> simp only [p4] <;> refine Prod.ext ?_ (Prod.ext ?_ ?_) <;> ring

theorem vv_four (a b c e : V K) :
    (vv (four a b c e) 0 0 = ev c e a ∧ vv (four a b c e) 0 1 = ev c e b) ∧ (vv (four a b c e) 1 0 = ev b e a ∧ vv (four a b c e) 1 1 = ev b e c) ∧
    (vv (four a b c e) 2 0 = ev b c a ∧ vv (four a b c e) 2 1 = ev b c e) ∧ (vv (four a b c e) 3 0 = ev a e b ∧ vv (four a b c e) 3 1 = ev a e c) ∧
    (vv (four a b c e) 4 0 = ev a c b ∧ vv (four a b c e) 4 1 = ev a c e) ∧ (vv (four a b c e) 5 0 = ev a b c ∧ vv (four a b c e) 5 1 = ev a b e) :=
  ⟨⟨rfl, rfl⟩, ⟨rfl, rfl⟩, ⟨rfl, rfl⟩, ⟨rfl, rfl⟩, ⟨rfl, rfl⟩, ⟨rfl, rfl⟩⟩

/-- What the test of a vertex means. -/
theorem vertexOut_iff (junk : Nat → K) (hj : ∀ i, junk i ≤ 0) (a b c e : V K) :
    (vertexOut junk (four a b c e) 0 = true ↔ dot3 a a ≤ dot3 a b ∧ dot3 a a ≤ dot3 a c ∧ dot3 a a ≤ dot3 a e) ∧
    (vertexOut junk (four a b c e) 1 = true ↔ dot3 b b ≤ dot3 b a ∧ dot3 b b ≤ dot3 b c ∧ dot3 b b ≤ dot3 b e) ∧
    (vertexOut junk (four a b c e) 2 = true ↔ dot3 c c ≤ dot3 c a ∧ dot3 c c ≤ dot3 c b ∧ dot3 c c ≤ dot3 c e) ∧
    (vertexOut junk (four a b c e) 3 = true ↔ dot3 e e ≤ dot3 e a ∧ dot3 e e ≤ dot3 e b ∧ dot3 e e ≤ dot3 e c) := by
  refine ⟨?_, ?_, ?_, ?_⟩ <;> simp [vertexOut, dd, four, hj]

/-- What the test of an edge means. -/
theorem edgeOn_iff (a b c e : V K) (i : Nat) (hi : i < 6) : edgeOn (four a b c e) i = true ↔
    (vv (four a b c e) i 0 ≤ 0 ∧ vv (four a b c e) i 1 ≤ 0 ∧ 0 ≤ dd (four a b c e) (edges.getD i (0, 0)).1 (edges.getD i (0, 0)).2 ∧
      0 ≤ dd (four a b c e) (edges.getD i (0, 0)).2 (edges.getD i (0, 0)).1) := by
  simp [edgeOn]

/-- A vertex returned is the nearest point. -/
theorem vertex4 (a b c e : V K) (h : dot3 a a ≤ dot3 a b ∧ dot3 a a ≤ dot3 a c ∧ dot3 a a ≤ dot3 a e) (p : V K) (hp : p = a) :
    dot3 p p ≤ dot3 p a ∧ dot3 p p ≤ dot3 p b ∧ dot3 p p ≤ dot3 p c ∧ dot3 p p ≤ dot3 p e := by
  subst hp
  exact ⟨le_refl _, h⟩

/-- Four points that are not in a plane are different. -/
theorem vol_len (a b c e : V K) (h : vol a b c e ≠ 0) : (a ≠ b ∧ a ≠ c ∧ a ≠ e) ∧ b ≠ c ∧ b ≠ e ∧ c ≠ e := by
  refine ⟨⟨?_, ?_, ?_⟩, ?_, ?_, ?_⟩ <;> rintro rfl <;> apply h <;> simp only [vol, dot3, crossv, diff] <;> ring

theorem len_pos' (a b : V K) (h : a ≠ b) : 0 < dot3 a a - dot3 a b + (dot3 b b - dot3 b a) := by
  have := len_pos a b h
  rwa [dot3_comm b a]

/-- The part of the code for vertices. -/
theorem nearest4_vertex (junk : Nat → K) (hj : ∀ i, junk i ≤ 0) (a b c e : V K) (i : Nat) (h : [0, 1, 2, 3].find? (vertexOut junk (four a b c e)) = some i) :
    Near ([0, 1, 2, 3].map fun k => if k = i then (1 : K) else 0) [a, b, c, e] := by
  obtain ⟨v0, v1, v2, v3⟩ := vertexOut_iff junk hj a b c e
  have hm := List.mem_of_find?_eq_some h
  have ht := List.find?_some h
  simp only [List.mem_cons, List.not_mem_nil, or_false] at hm
  rcases hm with rfl | rfl | rfl | rfl
  · have := vertex4 a b c e (v0.mp ht) (p4 1 0 0 0 a b c e) (by simp [p4])
    show Near [1, 0, 0, 0] [a, b, c, e]
    rw [near_four_iff]
    obtain ⟨q0, q1, q2, q3⟩ := this
    exact ⟨by norm_num, by norm_num, by norm_num, by norm_num, by norm_num, q0, q1, q2, q3⟩
  · have := vertex4 b a c e (v1.mp ht) (p4 0 1 0 0 a b c e) (by simp [p4])
    show Near [0, 1, 0, 0] [a, b, c, e]
    rw [near_four_iff]
    obtain ⟨q0, q1, q2, q3⟩ := this
    exact ⟨by norm_num, by norm_num, by norm_num, by norm_num, by norm_num, q1, q0, q2, q3⟩
  · have := vertex4 c a b e (v2.mp ht) (p4 0 0 1 0 a b c e) (by simp [p4])
    show Near [0, 0, 1, 0] [a, b, c, e]
    rw [near_four_iff]
    obtain ⟨q0, q1, q2, q3⟩ := this
    exact ⟨by norm_num, by norm_num, by norm_num, by norm_num, by norm_num, q1, q2, q0, q3⟩
  · have := vertex4 e a b c (v3.mp ht) (p4 0 0 0 1 a b c e) (by simp [p4])
    show Near [0, 0, 0, 1] [a, b, c, e]
    rw [near_four_iff]
    obtain ⟨q0, q1, q2, q3⟩ := this
    exact ⟨by norm_num, by norm_num, by norm_num, by norm_num, by norm_num, q1, q2, q3, q0⟩

/-- The part of the code for edges. -/
theorem nearest4_edge (a b c e : V K) (hv : vol a b c e ≠ 0) (i : Nat) (h : [0, 1, 2, 3, 4, 5].find? (edgeOn (four a b c e)) = some i) :
    Near (edgeWeights (four a b c e) i) [a, b, c, e] := by
  obtain ⟨⟨nab, nac, nae⟩, nbc, nbe, nce⟩ := vol_len a b c e hv
  have hm := List.mem_of_find?_eq_some h
  have ht := List.find?_some h
  simp only [List.mem_cons, List.not_mem_nil, or_false] at hm
  rw [edgeOn_iff a b c e i (by omega)] at ht
  rcases hm with rfl | rfl | rfl | rfl | rfl | rfl
  · obtain ⟨t1, t2, t3, t4⟩ := ht
    obtain ⟨q0, q1, q2, q3, q4, q5, q6⟩ := edge4 c e a b (len_pos' c e nce) t1 t2 t3 t4 _ _ _ rfl rfl rfl _ rfl
    show Near [0, 0, 1 / (dot3 c c - dot3 c e + (dot3 e e - dot3 e c)) * (dot3 e e - dot3 e c), 1 / (dot3 c c - dot3 c e + (dot3 e e - dot3 e c)) * (dot3 c c - dot3 c e)] [a, b, c, e]
    rw [near_four_iff]
    generalize 1 / (dot3 c c - dot3 c e + (dot3 e e - dot3 e c)) * (dot3 e e - dot3 e c) = x at *
    generalize 1 / (dot3 c c - dot3 c e + (dot3 e e - dot3 e c)) * (dot3 c c - dot3 c e) = y at *
    have hp : p4 0 0 x y a b c e = (x * c.1 + y * e.1, x * c.2.1 + y * e.2.1, x * c.2.2 + y * e.2.2) := by simp [p4]
    rw [hp]
    exact ⟨le_refl _, le_refl _, q0, q1, by linarith, q5, q6, q3, q4⟩
  · obtain ⟨t1, t2, t3, t4⟩ := ht
    obtain ⟨q0, q1, q2, q3, q4, q5, q6⟩ := edge4 b e a c (len_pos' b e nbe) t1 t2 t3 t4 _ _ _ rfl rfl rfl _ rfl
    show Near [0, 1 / (dot3 b b - dot3 b e + (dot3 e e - dot3 e b)) * (dot3 e e - dot3 e b), 0, 1 / (dot3 b b - dot3 b e + (dot3 e e - dot3 e b)) * (dot3 b b - dot3 b e)] [a, b, c, e]
    rw [near_four_iff]
    generalize 1 / (dot3 b b - dot3 b e + (dot3 e e - dot3 e b)) * (dot3 e e - dot3 e b) = x at *
    generalize 1 / (dot3 b b - dot3 b e + (dot3 e e - dot3 e b)) * (dot3 b b - dot3 b e) = y at *
    have hp : p4 0 x 0 y a b c e = (x * b.1 + y * e.1, x * b.2.1 + y * e.2.1, x * b.2.2 + y * e.2.2) := by simp [p4]
    rw [hp]
    exact ⟨le_refl _, q0, le_refl _, q1, by linarith, q5, q3, q6, q4⟩
  · obtain ⟨t1, t2, t3, t4⟩ := ht
    obtain ⟨q0, q1, q2, q3, q4, q5, q6⟩ := edge4 b c a e (len_pos' b c nbc) t1 t2 t3 t4 _ _ _ rfl rfl rfl _ rfl
    show Near [0, 1 / (dot3 b b - dot3 b c + (dot3 c c - dot3 c b)) * (dot3 c c - dot3 c b), 1 / (dot3 b b - dot3 b c + (dot3 c c - dot3 c b)) * (dot3 b b - dot3 b c), 0] [a, b, c, e]
    rw [near_four_iff]
    generalize 1 / (dot3 b b - dot3 b c + (dot3 c c - dot3 c b)) * (dot3 c c - dot3 c b) = x at *
    generalize 1 / (dot3 b b - dot3 b c + (dot3 c c - dot3 c b)) * (dot3 b b - dot3 b c) = y at *
    have hp : p4 0 x y 0 a b c e = (x * b.1 + y * c.1, x * b.2.1 + y * c.2.1, x * b.2.2 + y * c.2.2) := by simp [p4]
    rw [hp]
    exact ⟨le_refl _, q0, q1, le_refl _, by linarith, q5, q3, q4, q6⟩
  · obtain ⟨t1, t2, t3, t4⟩ := ht
    obtain ⟨q0, q1, q2, q3, q4, q5, q6⟩ := edge4 a e b c (len_pos' a e nae) t1 t2 t3 t4 _ _ _ rfl rfl rfl _ rfl
    show Near [1 / (dot3 a a - dot3 a e + (dot3 e e - dot3 e a)) * (dot3 e e - dot3 e a), 0, 0, 1 / (dot3 a a - dot3 a e + (dot3 e e - dot3 e a)) * (dot3 a a - dot3 a e)] [a, b, c, e]
    rw [near_four_iff]
    generalize 1 / (dot3 a a - dot3 a e + (dot3 e e - dot3 e a)) * (dot3 e e - dot3 e a) = x at *
    generalize 1 / (dot3 a a - dot3 a e + (dot3 e e - dot3 e a)) * (dot3 a a - dot3 a e) = y at *
    have hp : p4 x 0 0 y a b c e = (x * a.1 + y * e.1, x * a.2.1 + y * e.2.1, x * a.2.2 + y * e.2.2) := by simp [p4]
    rw [hp]
    exact ⟨q0, le_refl _, le_refl _, q1, by linarith, q3, q5, q6, q4⟩
  · obtain ⟨t1, t2, t3, t4⟩ := ht
    obtain ⟨q0, q1, q2, q3, q4, q5, q6⟩ := edge4 a c b e (len_pos' a c nac) t1 t2 t3 t4 _ _ _ rfl rfl rfl _ rfl
    show Near [1 / (dot3 a a - dot3 a c + (dot3 c c - dot3 c a)) * (dot3 c c - dot3 c a), 0, 1 / (dot3 a a - dot3 a c + (dot3 c c - dot3 c a)) * (dot3 a a - dot3 a c), 0] [a, b, c, e]
    rw [near_four_iff]
    generalize 1 / (dot3 a a - dot3 a c + (dot3 c c - dot3 c a)) * (dot3 c c - dot3 c a) = x at *
    generalize 1 / (dot3 a a - dot3 a c + (dot3 c c - dot3 c a)) * (dot3 a a - dot3 a c) = y at *
    have hp : p4 x 0 y 0 a b c e = (x * a.1 + y * c.1, x * a.2.1 + y * c.2.1, x * a.2.2 + y * c.2.2) := by simp [p4]
    rw [hp]
    exact ⟨q0, le_refl _, q1, le_refl _, by linarith, q3, q5, q4, q6⟩
  · obtain ⟨t1, t2, t3, t4⟩ := ht
    obtain ⟨q0, q1, q2, q3, q4, q5, q6⟩ := edge4 a b c e (len_pos' a b nab) t1 t2 t3 t4 _ _ _ rfl rfl rfl _ rfl
    show Near [1 / (dot3 a a - dot3 a b + (dot3 b b - dot3 b a)) * (dot3 b b - dot3 b a), 1 / (dot3 a a - dot3 a b + (dot3 b b - dot3 b a)) * (dot3 a a - dot3 a b), 0, 0] [a, b, c, e]
    rw [near_four_iff]
    generalize 1 / (dot3 a a - dot3 a b + (dot3 b b - dot3 b a)) * (dot3 b b - dot3 b a) = x at *
    generalize 1 / (dot3 a a - dot3 a b + (dot3 b b - dot3 b a)) * (dot3 a a - dot3 a b) = y at *
    have hp : p4 x y 0 0 a b c e = (x * a.1 + y * b.1, x * a.2.1 + y * b.2.1, x * a.2.2 + y * b.2.2) := by simp [p4]
    rw [hp]
    exact ⟨q0, q1, le_refl _, le_refl _, by linarith, q3, q4, q5, q6⟩

end Verif.Gjk
