import Verif.Lemmas.GjkLoop
/-! `support`, the loop and the result of `compute_distance_gjk`. -/
namespace Verif.Gjk

variable {K : Type} [Field K] [LinearOrder K] [IsStrictOrderedRing K]

theorem supportLoop_spec (v : V K) (L : List (V K)) : ∀ (m i : Nat) (qmax : K) (ps : List (V K)), L.drop m = ps → (∃ p, L[i]? = some p ∧ qmax = dot3 p v) →
    (∀ p ∈ L.take m, dot3 p v ≤ qmax) → ∃ p, L[supportLoop v m i qmax ps]? = some p ∧ ∀ t ∈ L, dot3 t v ≤ dot3 p v := by
  intro m i qmax ps
  induction ps generalizing m i qmax with
  | nil =>
    intro h ⟨p, hp, hq⟩ hl
    refine ⟨p, hp, fun t ht => ?_⟩
    rw [← hq]
    rw [← List.take_append_drop m L, h, List.append_nil] at ht
    exact hl t ht
  | cons c ps ih =>
    intro h ⟨p, hp, hq⟩ hl
    have hm : L[m]? = some c := by
      have := congrArg (·[0]?) h
      simpa [List.getElem?_drop] using this
    have hd : L.drop (m + 1) = ps := by
      have := congrArg (List.drop 1) h
      simpa [List.drop_drop] using this
    have ht : L.take (m + 1) = L.take m ++ [c] := by
      rw [List.take_add_one, hm]; rfl
    unfold supportLoop
    by_cases hc : dot3 c v > qmax
    · rw [if_pos hc]
      refine ih (m + 1) m _ hd ⟨c, hm, rfl⟩ ?_
      rw [ht]
      intro t htt
      rcases List.mem_append.mp htt with h' | h'
      · exact le_trans (hl t h') hc.le
      · rw [List.mem_singleton.mp h']
    · rw [if_neg hc]
      refine ih (m + 1) i _ hd ⟨p, hp, hq⟩ ?_
      rw [ht]
      intro t htt
      rcases List.mem_append.mp htt with h' | h'
      · exact hl t h'
      · rw [List.mem_singleton.mp h']; exact not_lt.mp hc

theorem support_spec (bd : List (V K)) (v : V K) (hne : bd ≠ []) :
    ∃ i p, support bd v = some i ∧ bd[i]? = some p ∧ ∀ t ∈ bd, dot3 t v ≤ dot3 p v := by
  match bd, hne with
  | a :: l, _ =>
    obtain ⟨p, h1, h2⟩ := supportLoop_spec v (a :: l) 1 0 (dot3 a v) l rfl ⟨a, rfl, rfl⟩ (by simp)
    exact ⟨_, p, rfl, h1, h2⟩

theorem normalized_pos (sqrt : K → K) (hsq : ∀ t, 0 < t → 0 < sqrt t) (eps : K) (x : V K) :
    ∃ k : K, 0 < k ∧ normalized sqrt eps x = (k * x.1, k * x.2.1, k * x.2.2) := by
  unfold normalized
  by_cases h : dot3 x x > eps * eps
  · rw [if_pos h]
    have h0 : 0 < dot3 x x := lt_of_le_of_lt (mul_self_nonneg eps) h
    have := hsq _ h0
    exact ⟨1 / sqrt (dot3 x x), by positivity, by dsimp only; refine Prod.ext ?_ (Prod.ext ?_ ?_) <;> exact mul_comm _ _⟩
  · rw [if_neg h]
    exact ⟨1, one_pos, by simp⟩

/-- Differences of points of the bodies. -/
def Dif (P Q : List (V K)) (t : V K) : Prop := ∃ p ∈ P, ∃ q ∈ Q, t = diff p q

/-- The new point is a difference that is lowest in direction `x`. -/
theorem step_eq (junk : Nat → K) (sqrt : K → K) (hsq : ∀ t, 0 < t → 0 < sqrt t) (eps : K) (P Q : List (V K)) (hP : P ≠ []) (hQ : Q ≠ []) (x : V K) (s : List (V K)) :
    ∃ sk, Dif P Q sk ∧ (∀ t, Dif P Q t → dot3 x sk ≤ dot3 x t) ∧ step junk sqrt eps P Q x s = advance junk eps x s sk := by
  obtain ⟨k, hk, hn⟩ := normalized_pos sqrt hsq eps x
  obtain ⟨i, p, h1, h2, h3⟩ := support_spec P (-(k * x.1), -(k * x.2.1), -(k * x.2.2)) hP
  obtain ⟨j, q, g1, g2, g3⟩ := support_spec Q (k * x.1, k * x.2.1, k * x.2.2) hQ
  refine ⟨diff p q, ⟨p, List.mem_of_getElem? h2, q, List.mem_of_getElem? g2, rfl⟩, ?_, ?_⟩
  · rintro t ⟨p', hp', q', hq', rfl⟩
    have e1 := h3 p' hp'
    have e2 := g3 q' hq'
    have f1 : ∀ u : V K, dot3 u (-(k * x.1), -(k * x.2.1), -(k * x.2.2)) = -(k * dot3 x u) := by intro u; simp only [dot3]; ring
    have f2 : ∀ u : V K, dot3 u (k * x.1, k * x.2.1, k * x.2.2) = k * dot3 x u := by intro u; simp only [dot3]; ring
    rw [f1, f1] at e1
    rw [f2, f2] at e2
    have e1' : dot3 x p ≤ dot3 x p' := le_of_mul_le_mul_left (by linarith) hk
    have e2' : dot3 x q' ≤ dot3 x q := le_of_mul_le_mul_left (by linarith) hk
    rw [dot_diff, dot_diff]
    linarith
  · unfold step
    rw [hn]
    dsimp only
    rw [h1, g1]
    dsimp only
    rw [h2, g2]

/-- What the result is. -/
def Good (P Q : List (V K)) (eps : K) (v : V K) : Prop :=
  (∃ l : List (K × V K), (∀ a ∈ l, 0 ≤ a.1 ∧ Dif P Q a.2) ∧ (l.map fun a => a.1).sum = 1 ∧ pt l = v) ∧
  (dot3 v v < eps * eps ∨ ∀ t, Dif P Q t → dot3 v v - max eps (eps * dot3 v v) ≤ dot3 v t)

theorem loop_ok (hK : HasNear K) (P Q : List (V K)) (hF : Free (Dif P Q)) (junk : Nat → K) (hj : ∀ i, junk i ≤ 0) (sqrt : K → K)
    (hsq : ∀ t, 0 < t → 0 < sqrt t) (eps : K) (heps : 0 < eps) (hP : P ≠ []) (hQ : Q ≠ []) :
    ∀ (n : Nat) (x : V K) (s : List (V K)), Inv (Dif P Q) x s →
      (∃ v, loop junk sqrt eps P Q n x s = .ok v ∧ Good P Q eps v ∧ dot3 v v ≤ dot3 x x) ∨ loop junk sqrt eps P Q n x s = .error .limit := by
  intro n
  induction n with
  | zero => intro x s _; exact .inr rfl
  | succ n ih =>
    intro x s hI
    obtain ⟨sk, k1, k2, k3⟩ := step_eq junk sqrt hsq eps P Q hP hQ x s
    unfold loop
    rw [k3]
    rcases advance_ok hK (Dif P Q) hF junk hj eps heps x s sk k1 k2 hI with ⟨h1, h2⟩ | ⟨y, ws, L, h1, h2, h3, h4, h5, h6, h7, h8⟩ | ⟨y, t, h1, h2, h3⟩
    · rw [h1]
      refine .inl ⟨x, rfl, ⟨?_, .inr ?_⟩, le_refl _⟩
      · obtain ⟨vs, v1, v2, v3, v4⟩ := hI.mean
        exact ⟨vs.zip s, fun a ha => ⟨(v2 _ (List.of_mem_zip ha).1).le, hI.mem _ (List.of_mem_zip ha).2⟩, by rw [zip_fst_sum vs s v1, v3], v4⟩
      · intro t ht
        have := k2 t ht
        have m1 := le_max_left eps (eps * dot3 x x)
        have m2 := le_max_right eps (eps * dot3 x x)
        rcases h2 with h | h | h <;> linarith
    · rw [h1]
      exact .inl ⟨y, rfl, ⟨⟨ws.zip L, fun a ha => ⟨h3 _ (List.of_mem_zip ha).1, h6 _ (List.of_mem_zip ha).2⟩, by rw [zip_fst_sum ws L h2, h4], h5⟩, .inl h7⟩, h8.le⟩
    · rw [h1]
      dsimp only
      rcases ih y t h2 with ⟨v, e1, e2, e3⟩ | h
      · exact .inl ⟨v, e1, e2, by linarith⟩
      · exact .inr h

end Verif.Gjk
