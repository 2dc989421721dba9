import Verif.Spec.DistThreads
import Verif.Props.C01_C02_LocalRange
/-!
# C113: distances to many bodies with several threads
-/
namespace Verif.Props
open Verif.DistThreads Verif.Spec.DistThreads Verif.LocalRange Verif.Spec

variable {B E V : Type}

private structure TInv (dist : B → Except E V) (bodies : List B) (n : Nat) (s : TState E V) : Prop where
  len : s.rows.length = bodies.length
  le : ∀ t, t < n → (localRange t bodies.length n).1 + s.done t ≤ (localRange t bodies.length n).2
  ok : ∀ t, t < n → ∀ i, (localRange t bodies.length n).1 ≤ i → i < (localRange t bodies.length n).1 + s.done t →
    ∃ b v, bodies[i]? = some b ∧ s.rows[i]? = some v ∧ dist b = .ok v
  main : ∀ e, s.main = some e → Fails dist bodies (s.done 0) e ∧ s.done 0 < (localRange 0 bodies.length n).2
  aborted : s.aborted = true → ∃ t i e, 0 < t ∧ t < n ∧ InRange i (localRange t bodies.length n) ∧ Fails dist bodies i e

private theorem range0 (N n : Nat) : (localRange 0 N n).1 = 0 := by
  unfold localRange
  simp only
  split
  · simp
  · simp only [Nat.zero_mul, Nat.zero_add]
    omega

private theorem tstep_inv (dist : B → Except E V) (bodies : List B) (n : Nat) (hn : 0 < n) (s : TState E V) (t : Nat)
    (h : TInv dist bodies n s) : TInv dist bodies n (tstep dist bodies n s t) := by
  unfold tstep
  split
  · exact h
  · next hab =>
    split
    · exact h
    · next i hi =>
      unfold nextBody at hi
      split at hi
      · next hc =>
        injection hi with hi
        obtain ⟨ht, hlt, hm⟩ := hc
        split
        · exact h
        · next b hb =>
          split
          · next v hv =>
            have htiles := C01_exactly_one_rank bodies.length n i hn (List.getElem?_eq_some_iff.1 hb).1
            have hil : i < s.rows.length := by rw [h.len]; exact (List.getElem?_eq_some_iff.1 hb).1
            refine ⟨by simp [h.len], ?_, ?_, ?_, ?_⟩
            · intro t' ht'
              have := h.le t' ht'
              show _ + (if t' = t then s.done t' + 1 else s.done t') ≤ _
              split
              · next e => subst e; omega
              · exact this
            · intro t' ht' j hj1 hj2
              have hj2' : j < (localRange t' bodies.length n).1 + (if t' = t then s.done t' + 1 else s.done t') := hj2
              show ∃ b v', bodies[j]? = some b ∧ (s.rows.set i v)[j]? = some v' ∧ dist b = .ok v'
              by_cases hij : i = j
              · subst hij
                exact ⟨b, v, hb, by rw [List.getElem?_set_self hil], hv⟩
              · rw [List.getElem?_set_ne hij]
                refine h.ok t' ht' j hj1 ?_
                split at hj2'
                · next e => subst e; omega
                · exact hj2'
            · intro e he
              have he' : s.main = some e := he
              have h0 : (0 : Nat) ≠ t := by
                intro e0
                exact hm ⟨e0.symm, by rw [he']; rfl⟩
              have := h.main e he'
              show Fails dist bodies (if 0 = t then s.done 0 + 1 else s.done 0) e ∧ (if 0 = t then s.done 0 + 1 else s.done 0) < _
              rw [if_neg h0]
              exact this
            · exact h.aborted
          · next e he =>
            by_cases h0 : t = 0
            · rw [if_pos h0]
              subst h0
              rw [range0] at hi hlt
              refine ⟨h.len, h.le, h.ok, ?_, h.aborted⟩
              intro e' he'
              have : e = e' := by injection he'
              subst this
              refine ⟨⟨b, ?_, he⟩, by show s.done 0 < _; omega⟩
              show bodies[s.done 0]? = some b
              rw [← hb]; congr 1; omega
            · rw [if_neg h0]
              refine ⟨h.len, h.le, h.ok, h.main, fun _ => ⟨t, i, e, by omega, ht, ?_, b, hb, he⟩⟩
              constructor <;> omega
      · cases hi

private theorem trun_inv (dist : B → Except E V) (zero : V) (bodies : List B) (n : Nat) (hn : 0 < n) (sched : List Nat) :
    TInv dist bodies n (trun dist zero bodies n sched) := by
  have key : ∀ (l : List Nat) (s : TState E V), TInv dist bodies n s → TInv dist bodies n (l.foldl (tstep dist bodies n) s) := by
    intro l
    induction l with
    | nil => exact fun s h => h
    | cons t l ih => exact fun s h => ih _ (tstep_inv dist bodies n hn s t h)
  refine key sched _ ⟨by simp, ?_, ?_, ?_, ?_⟩
  · intro t _
    show (localRange t bodies.length n).1 + 0 ≤ _
    unfold localRange
    generalize bodies.length / n = q
    generalize bodies.length % n = r
    simp only
    split <;> simp only <;> omega
  · intro t _ i h1 h2
    have h2' : i < (localRange t bodies.length n).1 + 0 := h2
    omega
  · intro e he; cases he
  · intro h; cases h

private theorem numThreads_pos (a b : Nat) : 0 < numThreads a b := by unfold numThreads; omega

private theorem share_eq (num : Int) (N : Nat) : share num N = (localRange 0 N (numThreads num.toNat N)).2 := by
  unfold share localRange
  simp only
  split
  · simp
  · simp
    omega

/-- What a thread that is done leaves. -/
private theorem done_ok {dist : B → Except E V} {bodies : List B} {n : Nat} {s : TState E V} (h : TInv dist bodies n s)
    (hf : ∀ t, t < n → nextBody n bodies.length s t = none) (t : Nat) (ht : t < n) (hm : ¬ (t = 0 ∧ s.main.isSome = true)) (i : Nat)
    (hi : InRange i (localRange t bodies.length n)) : ∃ b v, bodies[i]? = some b ∧ s.rows[i]? = some v ∧ dist b = .ok v := by
  have h1 := hf t ht
  have h2 := h.le t ht
  unfold nextBody at h1
  split at h1
  · cases h1
  · next hc =>
    have h3 : ¬ (localRange t bodies.length n).1 + s.done t < (localRange t bodies.length n).2 := fun h3 => hc ⟨ht, h3, hm⟩
    exact h.ok t ht i hi.1 (by have := hi.2; omega)

/-- **Distances**: if every body has a distance, the call returns for each body its own distance, for every number of threads and every
order in which they run. -/
theorem C113_distances (dist : B → Except E V) (zero : V) (bodies : List B) (num : Int) (sched : List Nat) (hn : 0 < num)
    (hc : Complete dist zero bodies num sched) (hok : ∀ i e, ¬ Fails dist bodies i e) :
    ∃ r, distances dist zero bodies num sched = .returned r ∧ IsDistances dist bodies r := by
  have hp := numThreads_pos num.toNat bodies.length
  have h := trun_inv dist zero bodies _ hp sched
  unfold Complete at hc
  unfold distances
  rw [if_neg (by omega)]
  generalize trun dist zero bodies (numThreads num.toNat bodies.length) sched = s at h hc ⊢
  have ha : ¬ s.aborted = true := fun ha => by
    obtain ⟨_, i, e, _, _, _, hf⟩ := h.aborted ha
    exact hok i e hf
  have hm : s.main = none := by
    cases hm : s.main with
    | none => rfl
    | some e => exact absurd (h.main e hm).1 (hok _ e)
  refine ⟨s.rows, by unfold ending; rw [if_neg ha, hm], h.len, fun i b hb => ?_⟩
  obtain ⟨t, ⟨ht, hin⟩, _⟩ := C01_exactly_one_rank bodies.length _ i hp (List.getElem?_eq_some_iff.1 hb).1
  obtain ⟨b', v, h1, h2, h3⟩ := done_ok h (hc.resolve_left ha) t ht (fun x => by rw [hm] at x; exact absurd x.2 (by simp)) i hin
  rw [hb] at h1
  injection h1 with h1
  subst h1
  exact ⟨v, h2, h3⟩

/-- **Threads do not matter** for what is returned. -/
theorem C113_threads (dist : B → Except E V) (zero : V) (bodies : List B) (num num' : Int) (sched sched' : List Nat) (hn : 0 < num) (hn' : 0 < num')
    (hc : Complete dist zero bodies num sched) (hc' : Complete dist zero bodies num' sched') (hok : ∀ i e, ¬ Fails dist bodies i e) :
    distances dist zero bodies num sched = distances dist zero bodies num' sched' := by
  obtain ⟨r, h1, h2, h3⟩ := C113_distances dist zero bodies num sched hn hc hok
  obtain ⟨r', g1, g2, g3⟩ := C113_distances dist zero bodies num' sched' hn' hc' hok
  rw [h1, g1]
  congr 1
  apply List.ext_getElem?
  intro i
  cases hb : bodies[i]? with
  | none =>
    have := List.getElem?_eq_none_iff.1 hb
    rw [List.getElem?_eq_none (by omega), List.getElem?_eq_none (by omega)]
  | some b =>
    obtain ⟨v, a1, a2⟩ := h3 i b hb
    obtain ⟨w, b1, b2⟩ := g3 i b hb
    rw [a2] at b2
    injection b2 with b2
    rw [a1, b1, b2]

/-- **Exceptions** of bodies that the calling thread takes (all bodies, with one thread) reach the caller: that of the first body without a
distance.  The full claim is for all bodies: see `C113_refuted_exception`. -/
theorem C113_exception_partial (dist : B → Except E V) (zero : V) (bodies : List B) (num : Int) (sched : List Nat) (hn : 0 < num)
    (hc : Complete dist zero bodies num sched) (i : Nat) (e : E) (hi : Fails dist bodies i e) (hfirst : ∀ j e', j < i → ¬ Fails dist bodies j e')
    (hown : ∀ j e', Fails dist bodies j e' → j < share num bodies.length) :
    distances dist zero bodies num sched = .threw e := by
  have hp := numThreads_pos num.toNat bodies.length
  have h := trun_inv dist zero bodies _ hp sched
  rw [share_eq] at hown
  unfold Complete at hc
  unfold distances
  rw [if_neg (by omega)]
  generalize trun dist zero bodies (numThreads num.toNat bodies.length) sched = s at h hc ⊢
  generalize numThreads num.toNat bodies.length = n at *
  have ha : ¬ s.aborted = true := fun ha => by
    obtain ⟨t, j, e', ht0, ht, hin, hf⟩ := h.aborted ha
    have hj := hown j e' hf
    obtain ⟨b, hb, _⟩ := hf
    obtain ⟨r, _, hr⟩ := C01_exactly_one_rank bodies.length n j hp (List.getElem?_eq_some_iff.1 hb).1
    have e1 := hr t ht hin
    have e2 := hr 0 hp ⟨by rw [range0]; omega, hj⟩
    omega
  have hin : InRange i (localRange 0 bodies.length n) := ⟨by rw [range0]; omega, hown i e hi⟩
  unfold ending
  rw [if_neg ha]
  obtain ⟨b, hb, he⟩ := hi
  cases hm : s.main with
  | none =>
    obtain ⟨b', v, h1, _, h3⟩ := done_ok h (hc.resolve_left ha) 0 hp (fun x => by rw [hm] at x; exact absurd x.2 (by simp)) i hin
    rw [hb] at h1
    injection h1 with h1
    subst h1
    rw [he] at h3
    cases h3
  | some e' =>
    obtain ⟨hf, hlt⟩ := h.main e' hm
    have heq : s.done 0 = i := by
      rcases Nat.lt_trichotomy (s.done 0) i with hl | hl | hl
      · exact absurd hf (hfirst _ e' hl)
      · exact hl
      · obtain ⟨b', v, h1, _, h3⟩ := h.ok 0 hp i (by rw [range0]; omega) (by rw [range0]; omega)
        rw [hb] at h1
        injection h1 with h1
        subst h1
        rw [he] at h3
        cases h3
    rw [heq] at hf
    obtain ⟨b', hb', he'⟩ := hf
    rw [hb] at hb'
    injection hb' with hb'
    subst hb'
    rw [he] at he'
    injection he' with he'
    show Outcome.threw e' = _
    rw [he']

/-- **Exceptions in other threads** end the program, whatever the order: no caller can handle them. -/
theorem C113_refuted_exception (dist : B → Except E V) (zero : V) (bodies : List B) (num : Int) (sched : List Nat) (hn : 0 < num)
    (hc : Complete dist zero bodies num sched) (i : Nat) (e : E) (hi : Fails dist bodies i e) (hother : share num bodies.length ≤ i) :
    distances dist zero bodies num sched = .terminated := by
  have hp := numThreads_pos num.toNat bodies.length
  have h := trun_inv dist zero bodies _ hp sched
  rw [share_eq] at hother
  unfold Complete at hc
  unfold distances
  rw [if_neg (by omega)]
  generalize trun dist zero bodies (numThreads num.toNat bodies.length) sched = s at h hc ⊢
  generalize numThreads num.toNat bodies.length = n at *
  by_cases ha : s.aborted = true
  · unfold ending; rw [if_pos ha]
  · exfalso
    obtain ⟨b, hb, he⟩ := hi
    obtain ⟨t, ⟨ht, hin⟩, _⟩ := C01_exactly_one_rank bodies.length n i hp (List.getElem?_eq_some_iff.1 hb).1
    have h0 : t ≠ 0 := by
      intro h0
      subst h0
      have := hin.2
      omega
    obtain ⟨b', v, h1, _, h3⟩ := done_ok h (hc.resolve_left ha) t ht (fun x => h0 x.1) i hin
    rw [hb] at h1
    injection h1 with h1
    subst h1
    rw [he] at h3
    cases h3

/-- **Bad numbers of threads** raise an exception. -/
theorem C113_bad (dist : B → Except E V) (zero : V) (bodies : List B) (num : Int) (sched : List Nat) (h : num ≤ 0) :
    distances dist zero bodies num sched = .badThreads := if_pos h

/-- For the examples: a body is its distance, and `0` has none. -/
private def exDist (b : Nat) : Except String Nat := if b = 0 then .error "GJK error" else .ok b

private theorem all_lt2 {P : Nat → Prop} (h0 : P 0) (h1 : P 1) : ∀ t, t < 2 → P t := by
  intro t ht
  match t with
  | 0 => exact h0
  | 1 => exact h1

/-- Two threads share three bodies and take turns. -/
example : Complete exDist 0 [5, 6, 7] 2 [1, 0, 0] ∧ (∀ i e, ¬ Fails exDist [5, 6, 7] i e)
    ∧ distances exDist 0 [5, 6, 7] 2 [1, 0, 0] = .returned [5, 6, 7] := by
  refine ⟨Or.inr (all_lt2 (by decide) (by decide)), ?_, rfl⟩
  rintro i e ⟨b, hb, he⟩
  match i with
  | 0 => injection hb with hb; subst hb; cases he
  | 1 => injection hb with hb; subst hb; cases he
  | 2 => injection hb with hb; subst hb; cases he
  | n + 3 => simp at hb

/-- One thread: the exception reaches the caller. -/
example : Fails exDist [5, 6, 0] 2 "GJK error" ∧ distances exDist 0 [5, 6, 0] 1 [0, 0, 0] = .threw "GJK error" := ⟨⟨0, rfl, rfl⟩, rfl⟩

/-- Two threads and the same bodies: the program ends. -/
example : Complete exDist 0 [5, 6, 0] 2 [1, 0, 0] ∧ share 2 3 ≤ 2 ∧ distances exDist 0 [5, 6, 0] 2 [1, 0, 0] = .terminated :=
  ⟨Or.inl rfl, by decide, rfl⟩

end Verif.Props
