import Verif.Lemmas.GjkReal
import Verif.Props.C01_C02_LocalRange
import Mathlib.Algebra.Order.Field.Rat
import Mathlib.Analysis.Real.Sqrt
/-! # C95: `compute_distance_gjk` gives the shortest vector between two convex bodies -/
namespace Verif.Props

open Verif.Gjk
open Verif.Spec.Gjk (Hull Between Least NoTie)

variable {K : Type} [Field K] [LinearOrder K] [IsStrictOrderedRing K]

theorem sub_diff (p q : V K) : p - q = diff p q := rfl

theorem free_of_noTie (P Q : List (V K)) (h : NoTie P Q) : Free (Dif P Q) := by
  intro a b c x l m ha hb hc
  exact h a b c x l m ha hb hc

/-- A stronger condition that is easier to check. -/
theorem noTie_of (P Q : List (V K)) (h : ∀ a b c, (∃ p ∈ P, ∃ q ∈ Q, a = p - q) → (∃ p ∈ P, ∃ q ∈ Q, b = p - q) → (∃ p ∈ P, ∃ q ∈ Q, c = p - q) →
    Spec.Gjk.inner a b < Spec.Gjk.inner a a → Spec.Gjk.inner a b < Spec.Gjk.inner b b → Spec.Gjk.inner c a = Spec.Gjk.inner c c →
    Spec.Gjk.inner c b ≤ Spec.Gjk.inner c c) : NoTie P Q := by
  intro a b c x l m ha hb hc hl hm hlm hx e1 e2 _ h3 h4
  by_cases hab : a = b
  · rw [← hab]; exact h4.le
  have hL := len_pos a b hab
  have k1 : dot3 x a = l * dot3 a a + m * dot3 a b := by rw [hx]; simp only [dot3]; ring
  have k2 : dot3 x b = l * dot3 a b + m * dot3 b b := by rw [hx]; simp only [dot3]; ring
  have e1' : dot3 x a = dot3 x x := e1
  have e2' : dot3 x b = dot3 x x := e2
  have e : l * (dot3 a a - dot3 a b) = m * (dot3 b b - dot3 a b) := by linarith
  have r1 : dot3 a a - dot3 a b = m * (dot3 a a - dot3 a b + (dot3 b b - dot3 a b)) := by linear_combination (-(dot3 a a - dot3 a b)) * hlm + e
  have r2 : dot3 b b - dot3 a b = l * (dot3 a a - dot3 a b + (dot3 b b - dot3 a b)) := by linear_combination (-(dot3 b b - dot3 a b)) * hlm - e
  have p1 := mul_pos hm hL
  have p2 := mul_pos hl hL
  refine h a b c ha hb hc ?_ ?_ h4
  · show dot3 a b < dot3 a a
    linarith
  · show dot3 a b < dot3 b b
    linarith


/-- A mean of differences is a difference of means. -/
theorem between_of_mean (P Q : List (V K)) (l : List (K × V K)) (h : ∀ a ∈ l, 0 ≤ a.1 ∧ Dif P Q a.2) :
    ∃ lp lq : List (K × V K), (∀ a ∈ lp, 0 ≤ a.1 ∧ a.2 ∈ P) ∧ (∀ a ∈ lq, 0 ≤ a.1 ∧ a.2 ∈ Q) ∧ (lp.map fun a => a.1).sum = (l.map fun a => a.1).sum ∧
      (lq.map fun a => a.1).sum = (l.map fun a => a.1).sum ∧ pt l = diff (pt lp) (pt lq) := by
  induction l with
  | nil => exact ⟨[], [], by simp, by simp, rfl, rfl, by simp [pt, diff]⟩
  | cons a l ih =>
    obtain ⟨lp, lq, h1, h2, h3, h4, h5⟩ := ih fun b hb => h b (by simp [hb])
    obtain ⟨w, t⟩ := a
    obtain ⟨hw, p, hp, q, hq, ht⟩ := h (w, t) (by simp)
    dsimp only at ht hw
    refine ⟨(w, p) :: lp, (w, q) :: lq, ?_, ?_, by simp [h3], by simp [h4], ?_⟩
    · intro b hb
      rcases List.mem_cons.mp hb with rfl | hb
      · exact ⟨hw, hp⟩
      · exact h1 b hb
    · intro b hb
      rcases List.mem_cons.mp hb with rfl | hb
      · exact ⟨hw, hq⟩
      · exact h2 b hb
    · rw [pt_cons, pt_cons, pt_cons, h5, ht]
      simp only [diff]
      refine Prod.ext ?_ (Prod.ext ?_ ?_) <;> ring

theorem hull_ge (S : List (V K)) (p y : V K) (m : K) (hp : Hull S p) (h : ∀ t ∈ S, m ≤ dot3 y t) : m ≤ dot3 y p := by
  obtain ⟨l, h1, h2, h3⟩ := hp
  have : p = pt l := h3
  rw [this]
  have := mean_ge y m l fun a ha => ⟨(h1 a ha).1, h a.2 (h1 a ha).2⟩
  rwa [h2, mul_one] at this

/-- Every vector between the bodies is at least as high as the differences of points. -/
theorem between_ge (P Q : List (V K)) (v u : V K) (m : K) (h : ∀ t, Dif P Q t → m ≤ dot3 v t) (hu : Between P Q u) : m ≤ dot3 v u := by
  obtain ⟨p, q, hp, hq, rfl⟩ := hu
  have h1 : ∀ b ∈ Q, m + dot3 v b ≤ dot3 v p := by
    intro b hb
    refine hull_ge P p v _ hp fun t ht => ?_
    have := h (diff t b) ⟨t, ht, b, hb, rfl⟩
    rw [dot_diff] at this
    linarith
  have h2 : m - dot3 v p ≤ dot3 (-v.1, -v.2.1, -v.2.2) q := by
    refine hull_ge Q q _ _ hq fun b hb => ?_
    have e : dot3 (-v.1, -v.2.1, -v.2.2) b = -dot3 v b := by simp only [dot3]; ring
    rw [e]
    have := h1 b hb
    linarith
  have e : dot3 (-v.1, -v.2.1, -v.2.2) q = -dot3 v q := by simp only [dot3]; ring
  rw [e] at h2
  rw [sub_diff, dot_diff]
  linarith

theorem good_spec (P Q : List (V K)) (eps : K) (heps : 0 < eps) (h1 : eps ≤ 1) (v : V K) (h : Good P Q eps v) :
    Between P Q v ∧ Least P Q (2 * max eps (eps * Spec.Gjk.inner v v)) v := by
  obtain ⟨⟨l, l1, l2, l3⟩, h⟩ := h
  constructor
  · obtain ⟨lp, lq, k1, k2, k3, k4, k5⟩ := between_of_mean P Q l l1
    exact ⟨pt lp, pt lq, ⟨lp, k1, by rw [k3, l2], rfl⟩, ⟨lq, k2, by rw [k4, l2], rfl⟩, by rw [sub_diff, ← k5, l3]⟩
  · intro u hu
    have hv : Spec.Gjk.inner v v = dot3 v v := rfl
    have hu' : Spec.Gjk.inner u u = dot3 u u := rfl
    rw [hv, hu']
    have m1 := le_max_left eps (eps * dot3 v v)
    have hu0 := dot3_nonneg u
    rcases h with h | h
    · have : eps * eps ≤ eps * 1 := mul_le_mul_of_nonneg_left h1 heps.le
      linarith
    · have := between_ge P Q v u _ h hu
      have e : dot3 (diff u v) (diff u v) = dot3 u u - 2 * dot3 v u + dot3 v v := by simp only [dot3, diff]; ring
      have := dot3_nonneg (diff u v)
      linarith

theorem first_inv (P Q : List (V K)) (x : V K) (hx : Dif P Q x) : Inv (Dif P Q) x [x] := by
  refine ⟨by simpa using hx, ⟨[1], rfl, by simp, by simp, by simp [pt]⟩, by simp, trivial⟩

theorem distance_good (hK : HasNear K) (P Q : List (V K)) (hT : NoTie P Q) (junk : Nat → K) (hj : ∀ i, junk i ≤ 0) (sqrt : K → K)
    (hsq : ∀ t, 0 < t → 0 < sqrt t) (eps : K) (heps : 0 < eps) (hP : P ≠ []) (hQ : Q ≠ []) :
    (∃ v, distance junk sqrt eps P Q = .ok v ∧ Good P Q eps v) ∨ distance junk sqrt eps P Q = .error .limit := by
  match P, Q, hP, hQ with
  | p :: P', q :: Q', hP, hQ =>
    rcases loop_ok hK _ _ (free_of_noTie _ _ hT) junk hj sqrt hsq eps heps hP hQ 15 (diff p q) [diff p q]
      (first_inv _ _ _ ⟨p, by simp, q, by simp, rfl⟩) with ⟨v, h1, h2, _⟩ | h
    · exact .inl ⟨v, h1, h2⟩
    · exact .inr h

/-- C95: the vector returned leads from the hull of `Q` to the hull of `P`, and no such vector is shorter, up to the tolerance.  Exact arithmetic; bodies
without ties; the numbers on the diagonal of the local array are not positive. -/
theorem C95_distance_partial (P Q : List (V ℝ)) (hT : NoTie P Q) (junk : Nat → ℝ) (hj : ∀ i, junk i ≤ 0) (sqrt : ℝ → ℝ) (hsq : ∀ t, 0 < t → 0 < sqrt t)
    (eps : ℝ) (heps : 0 < eps) (h1 : eps ≤ 1) (v : V ℝ) (h : distance junk sqrt eps P Q = .ok v) :
    Between P Q v ∧ Least P Q (2 * max eps (eps * Spec.Gjk.inner v v)) v := by
  have hne : P ≠ [] ∧ Q ≠ [] := by
    constructor
    · rintro rfl; cases h
    · rintro rfl; cases P <;> cases h
  rcases distance_good hasNear_real P Q hT junk hj sqrt hsq eps heps hne.1 hne.2 with ⟨w, e1, e2⟩ | e
  · rw [h] at e1
    cases e1
    exact good_spec P Q eps heps h1 v e2
  · rw [h] at e; cases e

/-- C95: the only failure is the limit for the number of iterations. -/
theorem C95_only_limit (P Q : List (V ℝ)) (hP : P ≠ []) (hQ : Q ≠ []) (hT : NoTie P Q) (junk : Nat → ℝ) (hj : ∀ i, junk i ≤ 0) (sqrt : ℝ → ℝ)
    (hsq : ∀ t, 0 < t → 0 < sqrt t) (eps : ℝ) (heps : 0 < eps) (e : Err) (h : distance junk sqrt eps P Q = .error e) : e = .limit := by
  rcases distance_good hasNear_real P Q hT junk hj sqrt hsq eps heps hP hQ with ⟨w, e1, _⟩ | e1
  · rw [h] at e1; cases e1
  · rw [h] at e1; cases e1; rfl

/-- Bodies with a common point have no ties. -/
theorem noTie_common (P Q : List (V K)) (p : V K) (hp : Hull P p) (hq : Hull Q p) : NoTie P Q := by
  intro a b c x l m ha hb hc hl hm hlm hx e1 e2 hlow _ h4
  have h0 : dot3 x c ≤ dot3 x (p - p) := between_ge P Q x (p - p) (dot3 x c) hlow ⟨p, p, hp, hq, rfl⟩
  have hz : dot3 x (p - p) = 0 := by simp [dot3]
  have hxc : dot3 x c = l * dot3 c a + m * dot3 c b := by rw [hx]; simp only [dot3]; ring
  have h4' : dot3 c a = dot3 c c := h4
  have hcc := dot3_nonneg c
  show dot3 c b ≤ dot3 c c
  by_contra h
  have h' := not_le.mp h
  have q1 := mul_nonneg hl.le hcc
  have q2 := mul_pos hm (lt_of_le_of_lt hcc h')
  rw [hz, hxc, h4'] at h0
  linarith

/-- C95: bodies with a common point give a vector that is zero up to the tolerance; so a longer vector shows that the bodies are apart.  This holds also
with ties. -/
theorem C95_apart (P Q : List (V ℝ)) (junk : Nat → ℝ) (hj : ∀ i, junk i ≤ 0) (sqrt : ℝ → ℝ) (hsq : ∀ t, 0 < t → 0 < sqrt t)
    (eps : ℝ) (heps : 0 < eps) (h1 : eps < 1 / 2) (v : V ℝ) (h : distance junk sqrt eps P Q = .ok v) (p : V ℝ) (hp : Hull P p) (hq : Hull Q p) :
    Spec.Gjk.inner v v ≤ 2 * eps := by
  have := (C95_distance_partial P Q (noTie_common P Q p hp hq) junk hj sqrt hsq eps heps (by linarith) v h).2 (p - p) ⟨p, p, hp, hq, rfl⟩
  have e : Spec.Gjk.inner (p - p) (p - p) = 0 := by simp [Spec.Gjk.inner]
  rw [e, zero_add] at this
  rcases le_total (Spec.Gjk.inner v v) 1 with h' | h'
  · have : eps * Spec.Gjk.inner v v ≤ eps := by nlinarith
    rwa [max_eq_left this] at *
  · have h2 : eps ≤ eps * Spec.Gjk.inner v v := by nlinarith
    rw [max_eq_right h2] at this
    nlinarith

/-! ### The square root does not matter -/

theorem supportLoop_scale (k : K) (hk : 0 < k) (v : V K) : ∀ (ps : List (V K)) (m i : Nat) (q : K),
    supportLoop (k * v.1, k * v.2.1, k * v.2.2) m i (k * q) ps = supportLoop v m i q ps := by
  intro ps
  induction ps with
  | nil => intros; rfl
  | cons p ps ih =>
    intro m i q
    have e : dot3 p (k * v.1, k * v.2.1, k * v.2.2) = k * dot3 p v := by simp only [dot3]; ring
    unfold supportLoop
    rw [e, ih, ih]
    by_cases h : dot3 p v > q
    · rw [if_pos h, if_pos (mul_lt_mul_of_pos_left h hk)]
    · rw [if_neg h, if_neg (not_lt.mpr (mul_le_mul_of_nonneg_left (not_lt.mp h) hk.le))]

theorem support_scale (k : K) (hk : 0 < k) (bd : List (V K)) (v : V K) : support bd (k * v.1, k * v.2.1, k * v.2.2) = support bd v := by
  cases bd with
  | nil => rfl
  | cons p ps =>
    have e : dot3 p (k * v.1, k * v.2.1, k * v.2.2) = k * dot3 p v := by simp only [dot3]; ring
    show some (supportLoop (k * v.1, k * v.2.1, k * v.2.2) 1 0 (dot3 p (k * v.1, k * v.2.1, k * v.2.2)) ps) = some (supportLoop v 1 0 (dot3 p v) ps)
    rw [e]
    exact congrArg some (supportLoop_scale k hk v ps 1 0 _)

theorem step_sqrt (junk : Nat → K) (sqrt : K → K) (hsq : ∀ t, 0 < t → 0 < sqrt t) (eps : K) (P Q : List (V K)) (x : V K) (s : List (V K)) :
    step junk sqrt eps P Q x s = step junk (fun _ => 1) eps P Q x s := by
  obtain ⟨k, hk, hn⟩ := normalized_pos sqrt hsq eps x
  obtain ⟨k', hk', hn'⟩ := normalized_pos (fun _ => (1 : K)) (fun _ _ => one_pos) eps x
  have neg : ∀ c : K, 0 < c → support P (-(c * x.1), -(c * x.2.1), -(c * x.2.2)) = support P (-x.1, -x.2.1, -x.2.2) := by
    intro c hc
    have := support_scale c hc P (-x.1, -x.2.1, -x.2.2)
    simpa [mul_neg] using this
  unfold step
  rw [hn, hn']
  dsimp only
  rw [neg k hk, neg k' hk', support_scale k hk Q x, support_scale k' hk' Q x]

theorem loop_sqrt (junk : Nat → K) (sqrt : K → K) (hsq : ∀ t, 0 < t → 0 < sqrt t) (eps : K) (P Q : List (V K)) : ∀ (n : Nat) (x : V K) (s : List (V K)),
    loop junk sqrt eps P Q n x s = loop junk (fun _ => 1) eps P Q n x s := by
  intro n
  induction n with
  | zero => intros; rfl
  | succ n ih =>
    intro x s
    unfold loop
    rw [step_sqrt junk sqrt hsq eps P Q x s]
    cases step junk (fun _ => 1) eps P Q x s with
    | done y => rfl
    | fail e => rfl
    | next y t => exact ih y t

theorem distance_sqrt (junk : Nat → K) (sqrt : K → K) (hsq : ∀ t, 0 < t → 0 < sqrt t) (eps : K) (P Q : List (V K)) :
    distance junk sqrt eps P Q = distance junk (fun _ => 1) eps P Q := by
  cases P with
  | nil => rfl
  | cons p P' =>
    cases Q with
    | nil => rfl
    | cons q Q' => exact loop_sqrt junk sqrt hsq eps _ _ 15 _ _

/-! ### Where the code is wrong -/

/-- Without the absence of ties the claim is false: for this triangle and the origin the vector returned is `(7/3, 0, 0)`, no point of the triangle; the
shortest vector is `(1, 0, 0)`.  Both for `U` with 64 and with 53 digits. -/
theorem C95_refuted_tie (sqrt : ℚ → ℚ) (hsq : ∀ t, 0 < t → 0 < sqrt t) (e : Nat) (he : e = 63 ∨ e = 52) :
    ∃ P : List (V ℚ), distance (fun _ => 0) sqrt (1000 / 2 ^ e) P [(0, 0, 0)] = .ok (7 / 3, 0, 0) ∧ ¬ Between P [(0, 0, 0)] (7 / 3, 0, 0) ∧
      Between P [(0, 0, 0)] (1, 0, 0) := by
  refine ⟨[(1, 3, 0), (2, -1, 0), (1, 0, 0)], ?_, ?_, ?_⟩
  · rw [distance_sqrt _ sqrt hsq]
    rcases he with rfl | rfl <;> decide +kernel
  · intro h
    have := between_ge [(1, 3, 0), (2, -1, 0), (1, 0, 0)] [(0, 0, 0)] (-1, 0, 0) (7 / 3, 0, 0) (-2) ?_ h
    · simp only [dot3] at this; norm_num at this
    · rintro t ⟨p, hp, q, hq, rfl⟩
      simp only [List.mem_cons, List.not_mem_nil, or_false] at hp hq
      subst hq
      rcases hp with rfl | rfl | rfl <;> simp only [dot3, diff] <;> norm_num
  · exact ⟨(1, 0, 0), (0, 0, 0), ⟨[(1, (1, 0, 0))], by simp, by simp, by simp⟩, ⟨[(1, (0, 0, 0))], by simp, by simp, by simp⟩, by simp⟩

/-- The diagonal of the array `d` in `nearest_simplex` matters although it is never set: if a number there is positive the result is wrong. -/
theorem C95_refuted_uninitialised (sqrt : ℚ → ℚ) (hsq : ∀ t, 0 < t → 0 < sqrt t) (e : Nat) (he : e = 63 ∨ e = 52) :
    ∃ P : List (V ℚ), NoTie P [(0, 0, 0)] ∧ distance (fun _ => 0) sqrt (1000 / 2 ^ e) P [(0, 0, 0)] = .ok (-1, 0, -1) ∧
      distance (fun _ => 1) sqrt (1000 / 2 ^ e) P [(0, 0, 0)] = .ok (-3, 0, -3) := by
  refine ⟨[(-1, -3, -2), (-3, 1, 0), (-1, 0, -1), (-1, 2, -2)], ?_, ?_, ?_⟩
  · refine noTie_of _ _ ?_
    rintro a b c ⟨p, hp, q, hq, rfl⟩ ⟨p', hp', q', hq', rfl⟩ ⟨p'', hp'', q'', hq'', rfl⟩ h1 h2 h3
    simp only [List.mem_cons, List.not_mem_nil, or_false] at hp hq hp' hq' hp'' hq''
    subst hq hq' hq''
    rcases hp with rfl | rfl | rfl | rfl <;> rcases hp' with rfl | rfl | rfl | rfl <;> rcases hp'' with rfl | rfl | rfl | rfl <;>
      revert h1 h2 h3 <;> decide +kernel
  · rw [distance_sqrt _ sqrt hsq]
    rcases he with rfl | rfl <;> decide +kernel
  · rw [distance_sqrt _ sqrt hsq]
    rcases he with rfl | rfl <;> decide +kernel

/-- The tolerance is absolute: for small bodies the vector returned can be a thousand times as long as the shortest one. -/
theorem C95_refuted_small (sqrt : ℚ → ℚ) (hsq : ∀ t, 0 < t → 0 < sqrt t) (e : Nat) (he : e = 63 ∨ e = 52) :
    ∃ (P : List (V ℚ)) (v u : V ℚ), NoTie P [(0, 0, 0)] ∧ distance (fun _ => 0) sqrt (1000 / 2 ^ e) P [(0, 0, 0)] = .ok v ∧ Between P [(0, 0, 0)] u ∧
      Spec.Gjk.inner v v > 1000000 * Spec.Gjk.inner u u := by
  refine ⟨[(1 / 2 ^ 40, 1 / 2 ^ 30, 0), (1 / 2 ^ 40, -1 / 2 ^ 30, 0)], (1 / 2 ^ 40, 1 / 2 ^ 30, 0), (1 / 2 ^ 40, 0, 0), ?_, ?_, ?_, ?_⟩
  · refine noTie_of _ _ ?_
    rintro a b c ⟨p, hp, q, hq, rfl⟩ ⟨p', hp', q', hq', rfl⟩ ⟨p'', hp'', q'', hq'', rfl⟩ h1 h2 h3
    simp only [List.mem_cons, List.not_mem_nil, or_false] at hp hq hp' hq' hp'' hq''
    subst hq hq' hq''
    rcases hp with rfl | rfl <;> rcases hp' with rfl | rfl <;> rcases hp'' with rfl | rfl <;> revert h1 h2 h3 <;> decide +kernel
  · rw [distance_sqrt _ sqrt hsq]
    rcases he with rfl | rfl <;> decide +kernel
  · refine ⟨(1 / 2 ^ 40, 0, 0), (0, 0, 0), ⟨[(1 / 2, (1 / 2 ^ 40, 1 / 2 ^ 30, 0)), (1 / 2, (1 / 2 ^ 40, -1 / 2 ^ 30, 0))], ?_, ?_, ?_⟩, ⟨[(1, (0, 0, 0))], by simp, by simp, by simp⟩, by simp⟩
    · intro a ha
      simp only [List.mem_cons, List.not_mem_nil, or_false] at ha
      rcases ha with rfl | rfl <;> simp
    · norm_num
    · norm_num
  · simp only [Spec.Gjk.inner]; norm_num

/-- The points of a polygon that bisect a parabola. -/
def bent : List (V ℚ) :=
  ([0, 262144, 131072, 65536, 98304, 81920, 73728, 77824, 79872, 78848, 78336, 78080, 78208, 78144, 78112, 78128, 78136, 78132, 78130, 78129] : List ℚ).map
    fun t => (t / 2 ^ 18 - 1 / 2, t * t / 2 ^ 36 + 1 / 4, 0)

/-- A polygon with 20 points, all of them double precision numbers, for which 15 iterations are not enough. -/
theorem C95_refuted_limit (sqrt : ℚ → ℚ) (hsq : ∀ t, 0 < t → 0 < sqrt t) (e : Nat) (he : e = 63 ∨ e = 52) :
    distance (fun _ => 0) sqrt (1000 / 2 ^ e) bent [(0, 0, 0)] = .error .limit := by
  rw [distance_sqrt _ sqrt hsq]
  rcases he with rfl | rfl <;> decide +kernel

/-! ### Many bodies -/

theorem written_length {β : Type} (zero : β) (total : Nat) (ws : List (Nat × β)) : (written zero total ws).length = total := by
  unfold written
  have : ∀ (ws : List (Nat × β)) (r : List β), (ws.foldl (fun r w => r.set w.1 w.2) r).length = r.length := by
    intro ws
    induction ws with
    | nil => intro r; rfl
    | cons w ws ih => intro r; rw [List.foldl_cons, ih, List.length_set]
  rw [this, List.length_replicate]

theorem written_get {β : Type} (ws : List (Nat × β)) (j : Nat) (v : β) (h1 : (j, v) ∈ ws) (h2 : ∀ v', (j, v') ∈ ws → v' = v) : ∀ r : List β, j < r.length →
    (ws.foldl (fun r w => r.set w.1 w.2) r)[j]? = some v := by
  have keep : ∀ (ws : List (Nat × β)), (∀ v', (j, v') ∈ ws → v' = v) → ∀ r : List β, r[j]? = some v → (ws.foldl (fun r w => r.set w.1 w.2) r)[j]? = some v := by
    intro ws
    induction ws with
    | nil => intro _ r h; exact h
    | cons w ws ih =>
      intro h r hr
      rw [List.foldl_cons]
      refine ih (fun v' hv' => h v' (by simp [hv'])) _ ?_
      rw [List.getElem?_set]
      by_cases hw : w.1 = j
      · rw [if_pos hw, if_pos (by rw [hw]; exact (List.getElem?_eq_some_iff.mp hr).1)]
        rw [h w.2 (by rw [← hw]; simp)]
      · rw [if_neg hw, hr]
  induction ws with
  | nil => simp at h1
  | cons w ws ih =>
    intro r hr
    rw [List.foldl_cons]
    by_cases hin : (j, v) ∈ ws
    · exact ih hin (fun v' hv' => h2 v' (by simp [hv'])) _ (by simpa using hr)
    · refine keep ws (fun v' hv' => h2 v' (by simp [hv'])) _ ?_
      rcases List.mem_cons.mp h1 with h | h
      · rw [← h]
        simp [hr]
      · exact absurd h hin

/-- C95: however many threads there are and in whatever order their writes happen, position `i` of the result belongs to body `i`. -/
theorem C95_threads {β : Type} (zero : β) (results : List β) (threads : Nat) (ws : List (Nat × β))
    (h : ws.Perm ((List.range (numThreads results.length threads)).flatMap fun i => chunk results results.length (numThreads results.length threads) i)) :
    written zero results.length ws = results := by
  have hn : 0 < numThreads results.length threads := by unfold numThreads; omega
  apply List.ext_getElem?
  intro j
  by_cases hj : j < results.length
  · obtain ⟨r, ⟨hr, hir⟩, _⟩ := C01_exactly_one_rank results.length (numThreads results.length threads) j hn hj
    have hv : results[j]? = some results[j] := List.getElem?_eq_getElem hj
    rw [hv]
    refine written_get ws j _ ?_ ?_ _ (by simpa using hj)
    · rw [h.mem_iff, List.mem_flatMap]
      refine ⟨r, List.mem_range.mpr hr, ?_⟩
      unfold chunk
      rw [List.mem_filterMap]
      refine ⟨j, ?_, by rw [hv]; rfl⟩
      rw [List.mem_range'_1]
      have := hir.1
      have := hir.2
      omega
    · intro v' hv'
      rw [h.mem_iff, List.mem_flatMap] at hv'
      obtain ⟨i, _, hi⟩ := hv'
      unfold chunk at hi
      rw [List.mem_filterMap] at hi
      obtain ⟨k, _, hk⟩ := hi
      rw [Option.map_eq_some_iff] at hk
      obtain ⟨x, hx, he⟩ := hk
      cases he
      rw [hv] at hx
      exact (Option.some.inj hx).symm
  · rw [List.getElem?_eq_none (by rw [written_length]; omega), List.getElem?_eq_none (by omega)]

/-! ### Examples -/

namespace C95ex

theorem noTie : NoTie ([(1, 1, 0), (1, -1, 0)] : List (V ℝ)) [(0, 0, 0)] := by
  refine noTie_of _ _ ?_
  rintro a b c ⟨p, hp, q, hq, rfl⟩ ⟨p', hp', q', hq', rfl⟩ ⟨p'', hp'', q'', hq'', rfl⟩ h1 h2 h3
  simp only [List.mem_cons, List.not_mem_nil, or_false] at hp hq hp' hq' hp'' hq''
  subst hq hq' hq''
  rcases hp with rfl | rfl <;> rcases hp' with rfl | rfl <;> rcases hp'' with rfl | rfl <;> revert h1 h2 h3 <;> norm_num [Spec.Gjk.inner]

theorem result : distance (fun _ => 0) Real.sqrt (1 / 100) ([(1, 1, 0), (1, -1, 0)] : List (V ℝ)) [(0, 0, 0)] = .ok (1, 0, 0) := by
  rw [distance_sqrt _ Real.sqrt (fun _ => Real.sqrt_pos.mpr)]
  norm_num [distance, loop, step, support, supportLoop, normalized, advance, nearest, nearest2, combine, kept, diff, dot3]

/-- The hypotheses can be met: a segment and the origin. -/
example : Between ([(1, 1, 0), (1, -1, 0)] : List (V ℝ)) [(0, 0, 0)] (1, 0, 0) ∧
    Least ([(1, 1, 0), (1, -1, 0)] : List (V ℝ)) [(0, 0, 0)] (2 * max (1 / 100) (1 / 100 * Spec.Gjk.inner (1, 0, 0) (1, 0, 0))) (1, 0, 0) :=
  C95_distance_partial _ _ noTie (fun _ => 0) (fun _ => le_refl _) Real.sqrt (fun _ => Real.sqrt_pos.mpr) (1 / 100) (by norm_num) (by norm_num) _ result

/-- Two segments that cross, with ties or not. -/
example (junk : Nat → ℝ) (hj : ∀ i, junk i ≤ 0) (v : V ℝ) (h : distance junk Real.sqrt (1 / 100) [(1, 0, 0), (-1, 0, 0)] [(0, 1, 0), (0, -1, 0)] = .ok v) :
    Spec.Gjk.inner v v ≤ 2 * (1 / 100) :=
  C95_apart _ _ junk hj Real.sqrt (fun _ => Real.sqrt_pos.mpr) (1 / 100) (by norm_num) (by norm_num) v h (0, 0, 0)
    ⟨[(1 / 2, (1, 0, 0)), (1 / 2, (-1, 0, 0))], by simp, by norm_num, by simp⟩ ⟨[(1 / 2, (0, 1, 0)), (1 / 2, (0, -1, 0))], by simp, by norm_num, by simp⟩

/-- Three bodies, two threads, writes of the second thread first. -/
example : written 0 3 [(2, 30), (0, 10), (1, 20)] = [10, 20, 30] :=
  C95_threads 0 [10, 20, 30] 2 [(2, 30), (0, 10), (1, 20)] (by decide)

end C95ex

end Verif.Props
