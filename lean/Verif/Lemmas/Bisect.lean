import Verif.Spec.Subdivision
/-! Repeated bisection tiles a simplex. -/
namespace Verif.Refine
open Verif.Spec.Subdiv

variable {K : Type} [Field K] [LinearOrder K] [IsStrictOrderedRing K]

/-- Cells that arise from `t` by cutting edges `a b` at their midpoints `m`, again and again. -/
inductive Bis (ends : Nat → List Nat) : Finset Nat → List (Finset Nat) → Prop
  | leaf (t) : Bis ends t [t]
  | node (t : Finset Nat) (a b m : Nat) (l1 l2 : List (Finset Nat)) (ha : a ∈ t) (hb : b ∈ t) (hab : a ≠ b) (hm : m ∉ t)
      (hea : ends a = [a]) (heb : ends b = [b]) (hem : ends m = [a, b])
      (h1 : Bis ends (insert m (t.erase a)) l1) (h2 : Bis ends (insert m (t.erase b)) l2) : Bis ends t (l1 ++ l2)

omit [IsStrictOrderedRing K] [LinearOrder K] in
theorem coord_mid [CharZero K] (ends : Nat → List Nat) (a b m : Nat) (hab : a ≠ b) (hea : ends a = [a]) (heb : ends b = [b])
    (hem : ends m = [a, b]) (j : Nat) : coord K ends m j = (coord K ends a j + coord K ends b j) / 2 := by
  unfold coord
  rw [hea, heb, hem]
  by_cases h1 : j = a
  · subst h1; simp [hab]
  · by_cases h2 : j = b
    · subst h2; simp [h1]
    · simp [h1, h2]

omit [IsStrictOrderedRing K] [LinearOrder K] in
/-- Weights in the half `insert m (t.erase a)` seen in `t`. -/
theorem comb_half [CharZero K] (ends : Nat → List Nat) (t : Finset Nat) (a b m : Nat) (ha : a ∈ t) (hb : b ∈ t) (hab : a ≠ b)
    (hm : m ∉ t) (hmid : ∀ j, coord K ends m j = (coord K ends a j + coord K ends b j) / 2) (mu : Nat → K) (j : Nat) :
    comb ends (insert m (t.erase a)) mu j =
      comb ends t (fun c => if c = a then mu m / 2 else if c = b then mu b + mu m / 2 else mu c) j := by
  unfold comb
  have hm' : m ∉ t.erase a := fun h => hm (Finset.mem_of_mem_erase h)
  have hb' : b ∈ t.erase a := Finset.mem_erase.mpr ⟨hab.symm, hb⟩
  rw [Finset.sum_insert hm', ← Finset.add_sum_erase t _ ha, ← Finset.add_sum_erase (t.erase a) _ hb',
    ← Finset.add_sum_erase (t.erase a) (fun c => (if c = a then mu m / 2 else if c = b then mu b + mu m / 2 else mu c) * coord K ends c j) hb']
  have hrest : ∑ c ∈ (t.erase a).erase b, (if c = a then mu m / 2 else if c = b then mu b + mu m / 2 else mu c) * coord K ends c j =
      ∑ c ∈ (t.erase a).erase b, mu c * coord K ends c j := by
    refine Finset.sum_congr rfl fun c hc => ?_
    rw [Finset.mem_erase, Finset.mem_erase] at hc
    rw [if_neg hc.2.1, if_neg hc.1]
  rw [hrest]
  simp only [if_true, hab.symm, if_false]
  rw [hmid]
  ring

theorem interior_inCell (ends : Nat → List Nat) (t : Finset Nat) (lam : Nat → K) (h : Interior ends t lam) : InCell ends t lam := by
  obtain ⟨mu, h1, h2⟩ := h
  exact ⟨mu, fun c hc => le_of_lt (h1 c hc), h2⟩

/-- Bisection by one edge. -/
theorem half_facts (ends : Nat → List Nat) (t : Finset Nat) (a b m : Nat) (ha : a ∈ t) (hb : b ∈ t) (hab : a ≠ b) (hm : m ∉ t)
    (hmid : ∀ j, coord K ends m j = (coord K ends a j + coord K ends b j) / 2) :
    (∀ lam : Nat → K, InCell ends (insert m (t.erase a)) lam →
      ∃ mu : Nat → K, (∀ c ∈ t, 0 ≤ mu c) ∧ (∀ j, lam j = comb ends t mu j) ∧ mu a ≤ mu b) ∧
    (∀ lam : Nat → K, Interior ends (insert m (t.erase a)) lam →
      ∃ mu : Nat → K, (∀ c ∈ t, 0 < mu c) ∧ (∀ j, lam j = comb ends t mu j) ∧ mu a < mu b) ∧
    (∀ (lam mu : Nat → K), (∀ c ∈ t, 0 ≤ mu c) → (∀ j, lam j = comb ends t mu j) → mu a ≤ mu b →
      InCell ends (insert m (t.erase a)) lam) ∧
    (Indep K ends t → Indep K ends (insert m (t.erase a))) ∧ (insert m (t.erase a)).card = t.card := by
  have hmne : ∀ c ∈ t, c ≠ m := fun c hc h => hm (h ▸ hc)
  refine ⟨?_, ?_, ?_, ?_, ?_⟩
  · rintro lam ⟨mu, h0, h⟩
    have hmm := h0 m (by simp)
    have hmb := h0 b (by simp [hab.symm, hb])
    refine ⟨_, ?_, fun j => (h j).trans (comb_half ends t a b m ha hb hab hm hmid mu j), ?_⟩
    · intro c hc
      beta_reduce
      split
      · linarith
      · split
        · linarith
        · rename_i h1 h2
          exact h0 c (by simp [h1, hc])
    · simp only [if_true, hab.symm, if_false]
      linarith
  · rintro lam ⟨mu, h0, h⟩
    have hmm := h0 m (by simp)
    have hmb := h0 b (by simp [hab.symm, hb])
    refine ⟨_, ?_, fun j => (h j).trans (comb_half ends t a b m ha hb hab hm hmid mu j), ?_⟩
    · intro c hc
      beta_reduce
      split
      · linarith
      · split
        · linarith
        · rename_i h1 h2
          exact h0 c (by simp [h1, hc])
    · simp only [if_true, hab.symm, if_false]
      linarith
  · intro lam mu h0 h hle
    refine ⟨fun c => if c = m then 2 * mu a else if c = b then mu b - mu a else mu c, ?_, ?_⟩
    · intro c hc
      beta_reduce
      split
      · have := h0 a ha; linarith
      · split
        · linarith
        · rename_i h1 h2
          refine h0 c ?_
          simp only [Finset.mem_insert, Finset.mem_erase, h1, false_or] at hc
          exact hc.2
    · intro j
      rw [h j, comb_half ends t a b m ha hb hab hm hmid]
      unfold comb
      refine Finset.sum_congr rfl fun c hc => ?_
      congr 1
      by_cases h1 : c = a
      · subst h1; simp
      · by_cases h2 : c = b
        · subst h2; simp [h1, hmne c hc]
        · simp [h1, h2, hmne c hc]
  · intro hi mu nu h
    have h1 := hi _ _ fun j => (comb_half ends t a b m ha hb hab hm hmid mu j).symm.trans
      ((h j).trans (comb_half ends t a b m ha hb hab hm hmid nu j))
    have hA : mu m = nu m := by
      have := h1 a ha
      simp only [if_true] at this
      linarith
    intro c hc
    simp only [Finset.mem_insert, Finset.mem_erase] at hc
    rcases hc with rfl | ⟨hca, hct⟩
    · exact hA
    · have := h1 c hct
      by_cases hcb : c = b
      · subst hcb
        simp only [hca, if_false, if_true, hA] at this
        linarith
      · simpa only [hca, hcb, if_false] using this
  · rw [Finset.card_insert_of_notMem (fun h => hm (Finset.mem_of_mem_erase h)), Finset.card_erase_of_mem ha]
    have : 0 < t.card := Finset.card_pos.mpr ⟨a, ha⟩
    omega

theorem bis_tiles (ends : Nat → List Nat) (t0 : Finset Nat) (T : List (Finset Nat)) (h : Bis ends t0 T) (hi : Indep K ends t0) :
    Tiles K ends t0 T ∧ ∀ t ∈ T, ∀ lam : Nat → K, Interior ends t lam → Interior ends t0 lam := by
  induction h with
  | leaf t =>
    refine ⟨⟨?_, ?_, by simp, ?_⟩, ?_⟩
    · intro t' ht lam h; rw [List.mem_singleton.mp ht] at h; exact h
    · intro lam h; exact ⟨t, by simp, h⟩
    · intro t' ht; rw [List.mem_singleton.mp ht]; exact ⟨hi, rfl⟩
    · intro t' ht lam h; rw [List.mem_singleton.mp ht] at h; exact h
  | node t a b m l1 l2 ha hb hab hm hea heb hem _ _ ih1 ih2 =>
    have hmid := fun j => coord_mid (K := K) ends a b m hab hea heb hem j
    have hmid' : ∀ j, coord K ends m j = (coord K ends b j + coord K ends a j) / 2 := by
      intro j; rw [hmid j]; ring
    obtain ⟨A1, A2, A3, A4, A5⟩ := half_facts (K := K) ends t a b m ha hb hab hm hmid
    obtain ⟨B1, B2, B3, B4, B5⟩ := half_facts (K := K) ends t b a m hb ha hab.symm hm hmid'
    obtain ⟨T1, I1⟩ := ih1 (A4 hi)
    obtain ⟨T2, I2⟩ := ih2 (B4 hi)
    refine ⟨⟨?_, ?_, ?_, ?_⟩, ?_⟩
    · intro t' ht lam h
      rcases List.mem_append.mp ht with ht | ht
      · obtain ⟨mu, h1, h2, _⟩ := A1 lam (T1.inside t' ht lam h)
        exact ⟨mu, h1, h2⟩
      · obtain ⟨mu, h1, h2, _⟩ := B1 lam (T2.inside t' ht lam h)
        exact ⟨mu, h1, h2⟩
    · rintro lam ⟨mu, h1, h2⟩
      rcases le_total (mu a) (mu b) with hle | hle
      · obtain ⟨t', ht, h⟩ := T1.cover lam (A3 lam mu h1 h2 hle)
        exact ⟨t', List.mem_append_left _ ht, h⟩
      · obtain ⟨t', ht, h⟩ := T2.cover lam (B3 lam mu h1 h2 hle)
        exact ⟨t', List.mem_append_right _ ht, h⟩
    · refine List.pairwise_append.mpr ⟨T1.apart, T2.apart, ?_⟩
      intro t1 ht1 t2 ht2 lam
      constructor
      · rintro ⟨hx, hy⟩
        obtain ⟨mu, _, h2, h3⟩ := A2 lam (I1 t1 ht1 lam hx)
        obtain ⟨nu, _, k2, k3⟩ := B1 lam (T2.inside t2 ht2 lam hy)
        have he := hi mu nu fun j => (h2 j).symm.trans (k2 j)
        have e1 := he a ha
        have e2 := he b hb
        linarith
      · rintro ⟨hx, hy⟩
        obtain ⟨mu, _, h2, h3⟩ := A1 lam (T1.inside t1 ht1 lam hx)
        obtain ⟨nu, _, k2, k3⟩ := B2 lam (I2 t2 ht2 lam hy)
        have he := hi mu nu fun j => (h2 j).symm.trans (k2 j)
        have e1 := he a ha
        have e2 := he b hb
        linarith
    · intro t' ht
      rcases List.mem_append.mp ht with ht | ht
      · exact ⟨(T1.proper t' ht).1, (T1.proper t' ht).2.trans A5⟩
      · exact ⟨(T2.proper t' ht).1, (T2.proper t' ht).2.trans B5⟩
    · intro t' ht lam h
      rcases List.mem_append.mp ht with ht | ht
      · obtain ⟨mu, h1, h2, _⟩ := A2 lam (I1 t' ht lam h)
        exact ⟨mu, h1, h2⟩
      · obtain ⟨mu, h1, h2, _⟩ := B2 lam (I2 t' ht lam h)
        exact ⟨mu, h1, h2⟩

/-- Vertices of a simplex are independent. -/
theorem indep_vertices (ends : Nat → List Nat) (t : Finset Nat) (h : ∀ c ∈ t, ends c = [c]) : Indep K ends t := by
  have hc : ∀ (mu : Nat → K), ∀ c ∈ t, comb ends t mu c = mu c := by
    intro mu c hc
    unfold comb
    rw [Finset.sum_eq_single c]
    · unfold coord; rw [h c hc]; simp
    · intro b hb hbc
      unfold coord
      rw [h b hb, if_neg (by simpa using hbc.symm)]
      ring
    · intro hn; exact absurd hc hn
  intro mu nu heq c hct
  rw [← hc mu c hct, ← hc nu c hct, heq]

theorem Tiles.perm {ends : Nat → List Nat} {t0 : Finset Nat} {T T' : List (Finset Nat)} (h : Tiles K ends t0 T) (hp : T.Perm T') :
    Tiles K ends t0 T' := by
  refine ⟨fun t ht => h.inside t (hp.mem_iff.mpr ht), ?_, ?_, fun t ht => h.proper t (hp.mem_iff.mpr ht)⟩
  · intro lam hl
    obtain ⟨t, ht, hi⟩ := h.cover lam hl
    exact ⟨t, hp.mem_iff.mp ht, hi⟩
  · refine (hp.pairwise_iff ?_).mp h.apart
    intro a b hab lam
    exact ⟨fun hx => (hab lam).2 ⟨hx.2, hx.1⟩, fun hx => (hab lam).1 ⟨hx.2, hx.1⟩⟩

end Verif.Refine
