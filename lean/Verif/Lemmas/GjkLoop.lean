import Verif.Lemmas.GjkInside
import Verif.Spec.Gjk
/-! The iteration of `compute_distance_gjk`. -/
namespace Verif.Gjk

variable {K : Type} [Field K] [LinearOrder K] [IsStrictOrderedRing K]

/-- Points in general position. -/
def Indep : List (V K) → Prop
  | [_] => True
  | [a, b] => a ≠ b
  | [a, b, c] => 0 < gram a b c
  | _ => False

/-- What holds for the point `x` and the simplex `s` at the start of each iteration. -/
structure Inv (D : V K → Prop) (x : V K) (s : List (V K)) : Prop where
  mem : ∀ t ∈ s, D t
  mean : ∃ ws : List K, ws.length = s.length ∧ (∀ w ∈ ws, 0 < w) ∧ ws.sum = 1 ∧ pt (ws.zip s) = x
  level : ∀ t ∈ s, dot3 x t = dot3 x x
  indep : Indep s

theorem pt_cons (w : K) (t : V K) (l : List (K × V K)) : pt ((w, t) :: l) = (w * t.1 + (pt l).1, w * t.2.1 + (pt l).2.1, w * t.2.2 + (pt l).2.2) := by
  simp [pt]

theorem dot_pt (y : V K) (l : List (K × V K)) : dot3 y (pt l) = (l.map fun a => a.1 * dot3 y a.2).sum := by
  induction l with
  | nil => simp [pt, dot3]
  | cons a l ih =>
    rw [pt_cons, List.map_cons, List.sum_cons, ← ih]
    simp only [dot3]; ring

theorem zip_fst_sum (ws : List K) (s : List (V K)) (h : ws.length = s.length) : ((ws.zip s).map fun a => a.1).sum = ws.sum := by
  rw [show (ws.zip s).map (fun a => a.1) = ws from List.map_fst_zip h.le]

/-- A weighted mean is at least a lower bound of its terms. -/
theorem mean_ge (y : V K) (m : K) (l : List (K × V K)) (h : ∀ a ∈ l, 0 ≤ a.1 ∧ m ≤ dot3 y a.2) :
    m * (l.map fun a => a.1).sum ≤ dot3 y (pt l) := by
  rw [dot_pt]
  induction l with
  | nil => simp
  | cons a l ih =>
    have h1 := h a (by simp)
    have h2 := ih fun b hb => h b (by simp [hb])
    have := mul_le_mul_of_nonneg_left h1.2 h1.1
    simp only [List.map_cons, List.sum_cons]
    rw [mul_add]
    linarith

/-- Terms with weight are at the bound if the mean is. -/
theorem mean_eq (y : V K) (m : K) (l : List (K × V K)) (h : ∀ a ∈ l, 0 ≤ a.1 ∧ m ≤ dot3 y a.2) (he : dot3 y (pt l) ≤ m * (l.map fun a => a.1).sum) :
    ∀ a ∈ l, 0 < a.1 → dot3 y a.2 = m := by
  induction l with
  | nil => simp
  | cons a l ih =>
    have h1 := h a (by simp)
    have h2 := mean_ge y m l fun b hb => h b (by simp [hb])
    have h3 : dot3 y (pt (a :: l)) = a.1 * dot3 y a.2 + dot3 y (pt l) := by
      rw [dot_pt, dot_pt, List.map_cons, List.sum_cons]
    rw [h3, List.map_cons, List.sum_cons, mul_add] at he
    have h4 := mul_le_mul_of_nonneg_left h1.2 h1.1
    intro b hb hpos
    rcases List.mem_cons.mp hb with rfl | hb
    · refine le_antisymm ?_ h1.2
      by_contra hc
      have := mul_lt_mul_of_pos_left (not_le.mp hc) hpos
      linarith
    · exact ih (fun b hb => h b (by simp [hb])) (by linarith) b hb hpos

theorem combine_from (x : V K) (l : List (K × V K)) (h : ∀ a ∈ l, 0 ≤ a.1) :
    combine x l = (x.1 + (pt l).1, x.2.1 + (pt l).2.1, x.2.2 + (pt l).2.2) := by
  induction l generalizing x with
  | nil => simp [combine, pt]
  | cons a l ih =>
    obtain ⟨w, t⟩ := a
    unfold combine
    have hw : 0 ≤ w := h (w, t) (by simp)
    have ih' := fun x => ih x fun b hb => h b (by simp [hb])
    by_cases h0 : 0 < w
    · rw [if_pos h0, ih', pt_cons]
      refine Prod.ext ?_ (Prod.ext ?_ ?_) <;> simp <;> ring
    · obtain rfl : w = 0 := le_antisymm (not_lt.mp h0) hw
      rw [if_neg h0, ih', pt_cons]
      refine Prod.ext ?_ (Prod.ext ?_ ?_) <;> simp

theorem combine_pt (l : List (K × V K)) (h : ∀ a ∈ l, 0 ≤ a.1) : combine (0, 0, 0) l = pt l := by
  rw [combine_from _ l h]
  refine Prod.ext ?_ (Prod.ext ?_ ?_) <;> simp

/-- Without terms of weight zero the mean is the same. -/
theorem pt_filter (l : List (K × V K)) (h : ∀ a ∈ l, 0 ≤ a.1) :
    pt (l.filter fun p => decide (0 < p.1)) = pt l ∧ ((l.filter fun p => decide (0 < p.1)).map fun a => a.1).sum = (l.map fun a => a.1).sum := by
  induction l with
  | nil => simp
  | cons a l ih =>
    obtain ⟨i1, i2⟩ := ih fun b hb => h b (by simp [hb])
    obtain ⟨w, t⟩ := a
    have hw : 0 ≤ w := h (w, t) (by simp)
    by_cases h0 : 0 < w
    · rw [List.filter_cons_of_pos (by simpa using h0), pt_cons, pt_cons, i1]
      exact ⟨rfl, by rw [List.map_cons, List.map_cons, List.sum_cons, List.sum_cons, i2]⟩
    · obtain rfl : w = 0 := le_antisymm (not_lt.mp h0) hw
      rw [List.filter_cons_of_neg (by simp), pt_cons, i1]
      refine ⟨?_, by rw [List.map_cons, List.sum_cons, i2, zero_add]⟩
      refine Prod.ext ?_ (Prod.ext ?_ ?_) <;> simp

theorem zip_map_self {α β : Type} (l : List (α × β)) : (l.map fun a => a.1).zip (l.map fun a => a.2) = l := by
  induction l with
  | nil => rfl
  | cons a l ih => simp [ih]

/-- Adding a point below the level of the simplex. -/
theorem indep3 (a b c x : V K) (hab : a ≠ b) (h1 : dot3 x a = dot3 x b) (h2 : dot3 x c ≠ dot3 x a) : 0 < gram a b c := by
  have hL := len_pos a b hab
  obtain ⟨L, hLd⟩ : ∃ L, L = dot3 a a - dot3 a b + (dot3 b b - dot3 a b) := ⟨_, rfl⟩
  obtain ⟨m, hm⟩ : ∃ m, m = dot3 a a - dot3 a b - dot3 a c + dot3 b c := ⟨_, rfl⟩
  obtain ⟨z, hz⟩ : ∃ z : V K, z = (L * (c.1 - a.1) - m * (b.1 - a.1), L * (c.2.1 - a.2.1) - m * (b.2.1 - a.2.1), L * (c.2.2 - a.2.2) - m * (b.2.2 - a.2.2)) := ⟨_, rfl⟩
  have e1 : dot3 z z = L * gram a b c := by
    rw [hz, hm]
    simp only [gram, dot3] at *
    rw [hLd]
    ring
  have e2 : dot3 x z = L * (dot3 x c - dot3 x a) - m * (dot3 x b - dot3 x a) := by
    rw [hz]; simp only [dot3]; ring
  rw [← h1, sub_self, mul_zero, sub_zero] at e2
  rw [← hLd] at hL
  have hz0 : 0 < dot3 z z := by
    refine lt_of_le_of_ne (dot3_nonneg z) fun h0 => ?_
    rw [zero_of_dot z h0.symm] at e2
    have : dot3 x ((0, 0, 0) : V K) = 0 := by simp [dot3]
    rw [this] at e2
    rcases mul_eq_zero.mp e2.symm with h | h
    · exact absurd h hL.ne'
    · exact h2 (by linarith)
  rw [e1] at hz0
  exact (pos_iff_pos_of_mul_pos hz0).mp hL

theorem indep4 (a b c e x : V K) (hG : 0 < gram a b c) (h1 : dot3 x a = dot3 x b) (h2 : dot3 x a = dot3 x c) (h3 : dot3 x e ≠ dot3 x a) : vol a b c e ≠ 0 := by
  have hp := perp (diff b a) (diff c a) x (diff e a) (by rw [dot_diff]; linarith) (by rw [dot_diff]; linarith)
  rw [← gram_cross, dot_diff] at hp
  intro h0
  have : vol a b c e = dot3 (crossv (diff b a) (diff c a)) (diff e a) := rfl
  rw [← this, h0, mul_zero] at hp
  rcases mul_eq_zero.mp hp with h | h
  · exact h3 (by linarith)
  · exact absurd h hG.ne'

/-- There are nearest points. -/
def HasNear (K : Type) [Field K] [LinearOrder K] [IsStrictOrderedRing K] : Prop :=
  (∀ a b c : V K, ∃ la lb lc, Near [la, lb, lc] [a, b, c]) ∧ ∀ a b c e : V K, ∃ l0 l1 l2 l3, Near [l0, l1, l2, l3] [a, b, c, e]

/-- No ties among the vectors in `D`: here `x` is the point nearest to the origin on the line through `a` and `b`, and `c` is lowest in direction `x`. -/
def Free (D : V K → Prop) : Prop := ∀ a b c x l m, D a → D b → D c → 0 < l → 0 < m → l + m = 1 →
  x = (l * a.1 + m * b.1, l * a.2.1 + m * b.2.1, l * a.2.2 + m * b.2.2) → dot3 x a = dot3 x x → dot3 x b = dot3 x x →
  (∀ t, D t → dot3 x c ≤ dot3 x t) → dot3 x c < dot3 x x → dot3 c a = dot3 c c → dot3 c b ≤ dot3 c c

/-- What is independent after the new point is added. -/
def Indep' : List (V K) → Prop
  | [a, b] => a ≠ b
  | [a, b, c] => 0 < gram a b c
  | [a, b, c, e] => vol a b c e ≠ 0
  | _ => False

theorem add_indep (D : V K → Prop) (x : V K) (s : List (V K)) (sk : V K) (hI : Inv D x s) (hne : sk ∉ s) (hlt : dot3 x sk < dot3 x x) : Indep' (s ++ [sk]) := by
  have hi := hI.indep
  have hl := hI.level
  match s, hi with
  | [a], _ => exact fun h => hne (by simp [h])
  | [a, b], hi =>
    have e1 := hl a (by simp)
    have e2 := hl b (by simp)
    exact indep3 a b sk x hi (by linarith) (by intro h; linarith)
  | [a, b, c], hi =>
    have e1 := hl a (by simp)
    have e2 := hl b (by simp)
    have e3 := hl c (by simp)
    exact indep4 a b c sk x hi (by linarith) (by linarith) (by intro h; linarith)

/-- The coordinates computed are those of the nearest point. -/
theorem nearest_near (hK : HasNear K) (junk : Nat → K) (hj : ∀ i, junk i ≤ 0) (S : List (V K))
    (hF : ∀ a b c, S = [a, b, c] → (dot3 c a = dot3 c c → dot3 c b ≤ dot3 c c) ∧ (dot3 c b = dot3 c c → dot3 c a ≤ dot3 c c))
    (hi : Indep' S) (hst : ∀ a b c, S = [a, b, c] → dot3 a b < dot3 a a ∧ dot3 a b < dot3 b b) : ∃ ws, nearest junk S = some ws ∧ Near ws S := by
  match S, hi with
  | [a, b], hi => exact ⟨_, rfl, nearest2_near a b (len_pos a b hi)⟩
  | [a, b, c], hi =>
    obtain ⟨s1, s2⟩ := hst a b c rfl
    refine ⟨_, rfl, nearest3_near a b c hi (hK.1 a b c) (fun h => absurd h s1.ne) (fun _ => s1.le) (fun h => ?_) (fun _ => ?_)
      (hF a b c rfl).1 (hF a b c rfl).2⟩
    · rw [dot3_comm] at h; exact absurd h s2.ne
    · rw [dot3_comm]; exact s2.le
  | [a, b, c, e], hi => exact ⟨_, rfl, nearest4_near junk hj a b c e hi (hK.2 a b c e)⟩

/-- What remains is independent, unless the nearest point is the origin. -/
theorem kept_indep (ws : List K) (S : List (V K)) (hi : Indep' S) (hn : Near ws S) (hne : pt (ws.zip S) ≠ (0, 0, 0)) : Indep (kept (ws.zip S)) := by
  obtain ⟨p, hp⟩ : ∃ p, p = pt (ws.zip S) := ⟨_, rfl⟩
  have hnn : ∀ a ∈ ws.zip S, 0 ≤ a.1 ∧ dot3 p p ≤ dot3 p a.2 := by
    intro a ha
    rw [hp]
    exact ⟨hn.nonneg _ (List.of_mem_zip ha).1, hn.le _ (List.of_mem_zip ha).2⟩
  have hone : ((ws.zip S).map fun a => a.1).sum = 1 := by rw [zip_fst_sum ws S hn.len, hn.one]
  have hlev := mean_eq p (dot3 p p) (ws.zip S) hnn (by rw [hone, mul_one, ← hp])
  have hlen := hn.len
  have hnon : ∀ w ∈ ws, 0 ≤ w := hn.nonneg
  have hsum := hn.one
  rw [← hp] at hne
  clear hp hnn hone hn
  match S, hi with
  | [a, b], hi =>
    match ws, hlen with
    | [w0, w1], _ =>
      by_cases h0 : 0 < w0 <;> by_cases h1 : 0 < w1 <;> simp only [kept, List.zip_cons_cons, List.zip_nil_right, List.filter_cons, List.filter_nil, h0, h1, decide_true, decide_false, if_true, Bool.false_eq_true, if_false, List.map_cons, List.map_nil]
      · exact hi
      · trivial
      · trivial
      · simp only [List.sum_cons, List.sum_nil] at hsum; linarith
  | [a, b, c], hi =>
    have hab : a ≠ b := by
      rintro rfl
      have : gram a a c = 0 := by simp only [gram]; ring
      exact absurd this (ne_of_gt hi)
    have hac : a ≠ c := by
      rintro rfl
      have : gram a b a = 0 := by simp only [gram]; rw [dot3_comm b a]; ring
      exact absurd this (ne_of_gt hi)
    have hbc : b ≠ c := by
      rintro rfl
      have : gram a b b = 0 := by simp only [gram]; ring
      exact absurd this (ne_of_gt hi)
    match ws, hlen with
    | [w0, w1, w2], _ =>
      by_cases h0 : 0 < w0 <;> by_cases h1 : 0 < w1 <;> by_cases h2 : 0 < w2 <;> simp only [kept, List.zip_cons_cons, List.zip_nil_right, List.filter_cons, List.filter_nil, h0, h1, h2, decide_true, decide_false, if_true, Bool.false_eq_true, if_false, List.map_cons, List.map_nil]
      · exact hi
      · exact hab
      · exact hac
      · trivial
      · exact hbc
      · trivial
      · trivial
      · simp only [List.sum_cons, List.sum_nil] at hsum; linarith
  | [a, b, c, e], hi =>
    obtain ⟨⟨nab, nac, nae⟩, nbc, nbe, nce⟩ := vol_len a b c e hi
    obtain ⟨q2, q1, q0⟩ := vol_perm a b c e
    have hi' : vol a b c e ≠ 0 := hi
    match ws, hlen with
    | [w0, w1, w2, w3], _ =>
      by_cases h0 : 0 < w0 <;> by_cases h1 : 0 < w1 <;> by_cases h2 : 0 < w2 <;> by_cases h3 : 0 < w3 <;> simp only [kept, List.zip_cons_cons, List.zip_nil_right, List.filter_cons, List.filter_nil, h0, h1, h2, h3, decide_true, decide_false, if_true, Bool.false_eq_true, if_false, List.map_cons, List.map_nil]
      · exfalso
        have e0 := hlev (w0, a) (by simp) h0
        have e1 := hlev (w1, b) (by simp) h1
        have e2 := hlev (w2, c) (by simp) h2
        have e3 := hlev (w3, e) (by simp) h3
        exact hne (inside_case a b c e hi' p (by linarith) (by linarith) (by linarith))
      · exact gram_pos a b c e hi'
      · exact gram_pos a b e c (by rw [q2]; exact neg_ne_zero.mpr hi')
      · exact nab
      · exact gram_pos a c e b (by rw [q1]; exact hi')
      · exact nac
      · exact nae
      · trivial
      · exact gram_pos b c e a (by rw [q0]; exact neg_ne_zero.mpr hi')
      · exact nbc
      · exact nbe
      · trivial
      · exact nce
      · trivial
      · trivial
      · simp only [List.sum_cons, List.sum_nil] at hsum; linarith

/-- The point on a segment of the simplex is inside it. -/
theorem inv_two (D : V K → Prop) (x a b : V K) (hI : Inv D x [a, b]) : dot3 a b < dot3 a a ∧ dot3 a b < dot3 b b := by
  have hab : a ≠ b := hI.indep
  have hL := len_pos a b hab
  have e1 := hI.level a (by simp)
  have e2 := hI.level b (by simp)
  obtain ⟨ws, v1, v2, v3, v4⟩ := hI.mean
  match ws, v1 with
  | [l, m], _ =>
    have hl := v2 l (by simp)
    have hm := v2 m (by simp)
    simp only [List.sum_cons, List.sum_nil] at v3
    have hx : x = (l * a.1 + m * b.1, l * a.2.1 + m * b.2.1, l * a.2.2 + m * b.2.2) := by rw [← v4]; simp [pt]
    have k1 : dot3 x a = l * dot3 a a + m * dot3 a b := by rw [hx]; simp only [dot3]; ring
    have k2 : dot3 x b = l * dot3 a b + m * dot3 b b := by rw [hx]; simp only [dot3]; ring
    have e : l * (dot3 a a - dot3 a b) = m * (dot3 b b - dot3 a b) := by linarith
    have r1 : dot3 a a - dot3 a b = m * (dot3 a a - dot3 a b + (dot3 b b - dot3 a b)) := by linear_combination (-(dot3 a a - dot3 a b)) * v3 + e
    have r2 : dot3 b b - dot3 a b = l * (dot3 a a - dot3 a b + (dot3 b b - dot3 a b)) := by linear_combination (-(dot3 b b - dot3 a b)) * v3 - e
    have p1 := mul_pos hm hL
    have p2 := mul_pos hl hL
    exact ⟨by linarith, by linarith⟩

/-- The tie is excluded for a segment and the new point. -/
theorem inv_tie (D : V K → Prop) (hF : Free D) (x a b c : V K) (hc : D c) (hlow : ∀ t, D t → dot3 x c ≤ dot3 x t) (hlt : dot3 x c < dot3 x x)
    (hI : Inv D x [a, b]) : (dot3 c a = dot3 c c → dot3 c b ≤ dot3 c c) ∧ (dot3 c b = dot3 c c → dot3 c a ≤ dot3 c c) := by
  have e1 := hI.level a (by simp)
  have e2 := hI.level b (by simp)
  have da := hI.mem a (by simp)
  have db := hI.mem b (by simp)
  obtain ⟨ws, v1, v2, v3, v4⟩ := hI.mean
  match ws, v1 with
  | [l, m], _ =>
    have hl := v2 l (by simp)
    have hm := v2 m (by simp)
    simp only [List.sum_cons, List.sum_nil, add_zero] at v3
    have hx : x = (l * a.1 + m * b.1, l * a.2.1 + m * b.2.1, l * a.2.2 + m * b.2.2) := by rw [← v4]; simp [pt]
    refine ⟨hF a b c x l m da db hc hl hm v3 hx e1 e2 hlow hlt, hF b a c x m l db da hc hm hl (by rw [add_comm]; exact v3) ?_ e2 e1 hlow hlt⟩
    rw [hx]
    refine Prod.ext ?_ (Prod.ext ?_ ?_) <;> exact add_comm _ _

/-- What an iteration gives once the new point is known. -/
theorem advance_ok (hK : HasNear K) (D : V K → Prop) (hF : Free D) (junk : Nat → K) (hj : ∀ i, junk i ≤ 0) (eps : K) (heps : 0 < eps) (x : V K) (s : List (V K))
    (sk : V K) (hsk : D sk) (hlow : ∀ t, D t → dot3 x sk ≤ dot3 x t) (hI : Inv D x s) :
    (advance junk eps x s sk = .done x ∧ (dot3 x x ≤ dot3 x sk ∨ dot3 x x - dot3 x sk < eps * dot3 x x ∨ dot3 x x - dot3 x sk < eps)) ∨
    (∃ (y : V K) (ws : List K) (S : List (V K)), advance junk eps x s sk = .done y ∧ ws.length = S.length ∧ (∀ w ∈ ws, 0 ≤ w) ∧ ws.sum = 1 ∧ pt (ws.zip S) = y ∧ (∀ t ∈ S, D t) ∧ dot3 y y < eps * eps ∧ dot3 y y < dot3 x x) ∨
    (∃ y t, advance junk eps x s sk = .next y t ∧ Inv D y t ∧ dot3 y y < dot3 x x) := by
  unfold advance
  by_cases h1 : sk ∈ s
  · rw [if_pos h1]
    exact .inl ⟨rfl, .inl (hI.level sk h1).ge⟩
  rw [if_neg h1]
  dsimp only
  by_cases h2 : dot3 x x - dot3 x sk < eps * dot3 x x ∨ dot3 x x - dot3 x sk < eps
  · rw [if_pos h2]
    exact .inl ⟨rfl, .inr h2⟩
  rw [if_neg h2]
  right
  have hlt : dot3 x sk < dot3 x x := by
    have := not_or.mp h2
    have := not_lt.mp this.2
    linarith
  have hD : ∀ t ∈ s ++ [sk], D t := by
    intro t ht
    rcases List.mem_append.mp ht with h | h
    · exact hI.mem t h
    · rw [List.mem_singleton.mp h]; exact hsk
  have hi := add_indep D x s sk hI h1 hlt
  obtain ⟨ws, hws, hn⟩ := nearest_near hK junk hj (s ++ [sk]) (by
    intro a b c he
    match s, he with
    | [a', b'], he =>
      simp only [List.cons_append, List.nil_append, List.cons.injEq, and_true] at he
      obtain ⟨rfl, rfl, rfl⟩ := he
      exact inv_tie D hF x a' b' sk hsk hlow hlt hI
    | [], he => simp at he
    | [_], he => simp at he
    | _ :: _ :: _ :: _, he => simp at he) hi (by
    intro a b c he
    match s, he with
    | [a', b'], he =>
      simp only [List.cons_append, List.nil_append, List.cons.injEq, and_true] at he
      obtain ⟨rfl, rfl, _⟩ := he
      exact inv_two D x a' b' hI
    | [], he => simp at he
    | [_], he => simp at he
    | _ :: _ :: _ :: _, he => simp at he)
  rw [hws]
  dsimp only
  have hnn : ∀ a ∈ ws.zip (s ++ [sk]), 0 ≤ a.1 := fun a ha => hn.nonneg _ (List.of_mem_zip ha).1
  rw [combine_pt _ hnn]
  obtain ⟨y, hy⟩ : ∃ y, y = pt (ws.zip (s ++ [sk])) := ⟨_, rfl⟩
  have hle := hn.le
  rw [← hy] at hle ⊢
  have hyx : dot3 y y ≤ dot3 y x := by
    obtain ⟨vs, v1, v2, v3, v4⟩ := hI.mean
    have := mean_ge y (dot3 y y) (vs.zip s) fun a ha => ⟨(v2 _ (List.of_mem_zip ha).1).le, hle _ (List.mem_append_left _ (List.of_mem_zip ha).2)⟩
    rw [zip_fst_sum vs s v1, v3, mul_one, v4] at this
    exact this
  have hdec : dot3 y y < dot3 x x := by
    have hd : dot3 (diff x y) (diff x y) = dot3 x x - 2 * dot3 y x + dot3 y y := by simp only [dot3, diff]; ring
    have h0 := dot3_nonneg (diff x y)
    rcases lt_or_eq_of_le (show dot3 y y ≤ dot3 x x by linarith) with h | h
    · exact h
    · exfalso
      have hz : dot3 (diff x y) (diff x y) = 0 := by linarith
      have hz := zero_of_dot _ hz
      have e : x = y := by
        have a1 : x.1 - y.1 = 0 := congrArg (·.1) hz
        have a2 : x.2.1 - y.2.1 = 0 := congrArg (·.2.1) hz
        have a3 : x.2.2 - y.2.2 = 0 := congrArg (·.2.2) hz
        exact Prod.ext (by linarith) (Prod.ext (by linarith) (by linarith))
      have := hle sk (by simp)
      rw [← e] at this
      linarith
  rw [if_neg (not_le.mpr hdec)]
  by_cases h3 : dot3 y y < eps * eps
  · rw [if_pos h3]
    exact .inl ⟨y, ws, s ++ [sk], rfl, hn.len, hn.nonneg, hn.one, hy.symm, hD, h3, hdec⟩
  rw [if_neg h3]
  refine .inr ⟨y, _, rfl, ⟨?_, ?_, ?_, ?_⟩, hdec⟩
  · intro t ht
    obtain ⟨a, ha, rfl⟩ := List.mem_map.mp ht
    exact hD _ (List.of_mem_zip (List.mem_filter.mp ha).1).2
  · obtain ⟨f1, f2⟩ := pt_filter (ws.zip (s ++ [sk])) hnn
    refine ⟨((ws.zip (s ++ [sk])).filter fun p => decide (0 < p.1)).map fun a => a.1, by simp [kept], ?_, ?_, ?_⟩
    · intro w hw
      obtain ⟨a, ha, rfl⟩ := List.mem_map.mp hw
      simpa using (List.mem_filter.mp ha).2
    · rw [f2, zip_fst_sum _ _ hn.len, hn.one]
    · unfold kept
      rw [zip_map_self, f1, hy]
  · intro t ht
    obtain ⟨a, ha, rfl⟩ := List.mem_map.mp ht
    refine mean_eq y (dot3 y y) (ws.zip (s ++ [sk])) (fun a ha => ⟨hnn a ha, hle _ (List.of_mem_zip ha).2⟩) ?_ a (List.mem_filter.mp ha).1 (by simpa using (List.mem_filter.mp ha).2)
    rw [zip_fst_sum _ _ hn.len, hn.one, mul_one, ← hy]
  · refine kept_indep ws _ hi hn fun h0 => h3 ?_
    rw [hy, h0]
    have : dot3 ((0, 0, 0) : V K) (0, 0, 0) = 0 := by simp [dot3]
    rw [this]
    exact mul_pos heps heps

end Verif.Gjk
