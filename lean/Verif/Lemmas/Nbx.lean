import Verif.Model.Nbx
import Verif.Prelude
set_option linter.unusedSimpArgs false
namespace Verif.Nbx

/-- Tags are distinct within a call and between consecutive calls; destinations exist. -/
structure Job.Ok (j : Job) : Prop where
  within : ∀ n i i', i < j.K → i' < j.K → j.tag n i = j.tag n i' → i = i'
  consecutive : ∀ n i i', i < j.K → i' < j.K → j.tag (n + 1) i ≠ j.tag n i'
  dest : ∀ n r i d, r < j.P → d ∈ j.edges n r i → d < j.P

/-- Edges of call `n` from rank `q`, empty for ranks and calls that do not exist. -/
def Job.E (j : Job) (n q i : Nat) : List Nat := if q < j.P ∧ n < j.rounds then j.edges n q i else []

theorem count_map_pair (l : List Nat) (i i' d : Nat) :
    (l.map fun x => (i', x)).count (i, d) = if i' = i then l.count d else 0 := by
  induction l with
  | nil => simp
  | cons a l ih =>
    rw [List.map_cons, List.count_cons, ih, List.count_cons]
    by_cases h : i' = i
    · subst h; simp
    · simp [h]

theorem count_sends (j : Job) (n r i d : Nat) (hi : i < j.K) :
    (j.sends n r).count (i, d) = (j.edges n r i).count d := by
  unfold Job.sends
  generalize j.K = K at hi
  induction K with
  | zero => omega
  | succ K ih =>
    rw [List.range_succ, List.flatMap_append, List.count_append]
    simp only [List.flatMap_cons, List.flatMap_nil, List.append_nil, count_map_pair]
    by_cases h : i = K
    · subst h
      have : ((List.range i).flatMap fun i => (j.edges n r i).map fun d => (i, d)).count (i, d) = 0 := by
        rw [List.count_eq_zero]
        intro hm
        simp at hm
      rw [this]; simp
    · rw [ih (by omega)]
      simp [Ne.symm h]

theorem mem_sends (j : Job) (n r : Nat) (e : Nat × Nat) (h : e ∈ j.sends n r) :
    e.1 < j.K ∧ e.2 ∈ j.edges n r e.1 := by
  simp only [Job.sends, List.mem_flatMap, List.mem_range, List.mem_map] at h
  obtain ⟨i, hi, d, hd, rfl⟩ := h
  exact ⟨hi, hd⟩

/-- Messages of call `n` from `q` for set `i` and rank `r` not yet matched. -/
def future (j : Job) (s : State) (n q r i : Nat) : Nat :=
  if s.rd q < n then (j.E n q i).count r
  else if s.rd q = n then (s.toSend q).count (i, r) + (s.pending q).count (i, r) else 0

/-- One if listener `i` of `r` is in call `n` and holds an unrecorded match from `q`. -/
def held (s : State) (n q r i : Nat) : Nat := if s.rd r = n ∧ s.lis r i = .matched q then 1 else 0

structure Inv (j : Job) (s : State) : Prop where
  live : ∀ r, s.pc r ≠ .post 0 → s.rd r < j.rounds
  rdle : ∀ r, s.rd r ≤ j.rounds
  elems : ∀ r e, e ∈ s.toSend r ∨ e ∈ s.pending r → e.1 < j.K ∧ e.2 < j.P
  pcpost : ∀ r k, s.pc r = .post k → k ≤ j.K ∧ s.pending r = []
  pcloop : ∀ r, s.pc r = .loop → s.toSend r = []
  pcbar : ∀ r, s.pc r = .bar → s.toSend r = [] ∧ s.pending r = []
  pccancel : ∀ r k, s.pc r = .cancel k → k ≤ j.K ∧ s.toSend r = [] ∧ s.pending r = []
  lisnone : ∀ r i, i < j.K → (s.lis r i = .none ↔
    (∃ k, s.pc r = .post k ∧ k ≤ i) ∨ (∃ k, s.pc r = .cancel k ∧ i < k))
  bar : ∀ r n, (n < s.rd r ∨ (s.rd r = n ∧ ∃ k, s.pc r = .cancel k)) → ∀ q, q < j.P → entered s n q
  cons : ∀ n q r i, r < j.P → i < j.K →
    (j.E n q i).count r = future j s n q r i + held s n q r i + (s.got r n i).count q

theorem inv_init (j : Job) (hj : j.Ok) : Inv j j.init := by
  refine ⟨?_, ?_, ?_, ?_, ?_, ?_, ?_, ?_, ?_, ?_⟩
  · simp [Job.init]
  · simp [Job.init]
  · intro r e h
    simp only [Job.init, List.not_mem_nil, or_false] at h
    split at h
    · rename_i hc
      obtain ⟨h1, h2⟩ := mem_sends j 0 r e h
      exact ⟨h1, hj.dest _ _ _ _ hc.1 h2⟩
    · simp at h
  · simp [Job.init]
  · simp [Job.init]
  · simp [Job.init]
  · simp [Job.init]
  · intro r i hi; simp [Job.init]; 
  · intro r n h; simp [Job.init] at h
  · intro n q r i hr hi
    simp only [Job.init, future, held, List.count_nil, Nat.add_zero]
    rcases Nat.eq_zero_or_pos n with h | h
    · subst h
      simp only [Nat.lt_irrefl, if_false, if_true]
      unfold Job.E
      by_cases hc : q < j.P ∧ 0 < j.rounds
      · simp [hc, count_sends j 0 q i r hi]
      · simp [hc]
    · simp [h]

theorem inv_step (j : Job) (hj : j.Ok) (s s' : State) (h : Inv j s) (st : Step j s s') : Inv j s' := by
  have a1 := h.live; have a2 := h.rdle; have a3 := h.elems; have a4 := h.pcpost; have a5 := h.pcloop
  have a6 := h.pcbar; have a7 := h.pccancel; have a8 := h.lisnone; have a9 := h.bar; have a10 := h.cons
  clear h
  cases st with
  | post r k hr hrd hpc hk =>
    refine ⟨?_, ?_, ?_, ?_, ?_, ?_, ?_, ?_, ?_, ?_⟩
    · clear a2 a3 a4 a5 a6 a7 a8 a9 a10; simp only [upd]; grind
    · clear a3 a4 a5 a6 a7 a8 a9 a10; simp only [upd]; grind
    · clear a1 a2 a4 a5 a6 a7 a8 a9 a10; simp only [upd]; grind
    · clear a1 a2 a3 a5 a6 a7 a8 a9 a10; simp only [upd]; grind
    · clear a1 a2 a3 a4 a6 a7 a8 a9 a10; simp only [upd]; grind
    · clear a1 a2 a3 a4 a7 a8 a9 a10; simp only [upd]; grind
    · clear a1 a2 a3 a4 a5 a8 a9 a10; simp only [upd]; grind
    · clear a1 a2 a3 a4 a5 a6 a7 a9 a10; simp only [upd, upd2]; grind
    · clear a1 a2 a3 a4 a5 a6 a7 a8 a10; simp only [entered, upd] at *; grind
    · intro n q' r' i' hr' hi'
      have := a10 n q' r' i' hr' hi'
      clear a1 a2 a3 a4 a5 a6 a7 a9 a10
      simp only [future, held, upd, upd2, upd3] at *; grind
  | posted r hr hrd hpc =>
    refine ⟨?_, ?_, ?_, ?_, ?_, ?_, ?_, ?_, ?_, ?_⟩
    · clear a2 a3 a4 a5 a6 a7 a8 a9 a10; simp only [upd]; grind
    · clear a3 a4 a5 a6 a7 a8 a9 a10; simp only [upd]; grind
    · clear a1 a2 a4 a5 a6 a7 a8 a9 a10; simp only [upd]; grind
    · clear a1 a2 a3 a5 a6 a7 a8 a9 a10; simp only [upd]; grind
    · clear a1 a2 a3 a4 a6 a7 a8 a9 a10; simp only [upd]; grind
    · clear a1 a2 a3 a4 a7 a8 a9 a10; simp only [upd]; grind
    · clear a1 a2 a3 a4 a5 a8 a9 a10; simp only [upd]; grind
    · clear a1 a2 a3 a4 a5 a6 a7 a9 a10; simp only [upd, upd2]; grind
    · clear a1 a2 a3 a4 a5 a6 a7 a8 a10; simp only [entered, upd] at *; grind
    · intro n q' r' i' hr' hi'
      have := a10 n q' r' i' hr' hi'
      clear a1 a2 a3 a4 a5 a6 a7 a9 a10
      simp only [future, held, upd, upd2, upd3] at *; grind
  | issue r e rest hr hpc hts =>
    refine ⟨?_, ?_, ?_, ?_, ?_, ?_, ?_, ?_, ?_, ?_⟩
    · clear a2 a3 a4 a5 a6 a7 a8 a9 a10; simp only [upd]; grind
    · clear a3 a4 a5 a6 a7 a8 a9 a10; simp only [upd]; grind
    · clear a1 a2 a4 a5 a6 a7 a8 a9 a10; simp only [upd]; grind
    · clear a1 a2 a3 a5 a6 a7 a8 a9 a10; simp only [upd]; grind
    · clear a1 a2 a3 a4 a6 a7 a8 a9 a10; simp only [upd]; grind
    · clear a1 a2 a3 a4 a7 a8 a9 a10; simp only [upd]; grind
    · clear a1 a2 a3 a4 a5 a8 a9 a10; simp only [upd]; grind
    · clear a1 a2 a3 a4 a5 a6 a7 a9 a10; simp only [upd, upd2]; grind
    · clear a1 a2 a3 a4 a5 a6 a7 a8 a10; simp only [entered, upd] at *; grind
    · intro n q' r' i' hr' hi'
      have := a10 n q' r' i' hr' hi'
      clear a1 a2 a3 a4 a5 a6 a7 a9 a10
      simp only [future, held, upd, upd2, upd3] at *; grind
  | issued r hr hpc hts =>
    refine ⟨?_, ?_, ?_, ?_, ?_, ?_, ?_, ?_, ?_, ?_⟩
    · clear a2 a3 a4 a5 a6 a7 a8 a9 a10; simp only [upd]; grind
    · clear a3 a4 a5 a6 a7 a8 a9 a10; simp only [upd]; grind
    · clear a1 a2 a4 a5 a6 a7 a8 a9 a10; simp only [upd]; grind
    · clear a1 a2 a3 a5 a6 a7 a8 a9 a10; simp only [upd]; grind
    · clear a1 a2 a3 a4 a6 a7 a8 a9 a10; simp only [upd]; grind
    · clear a1 a2 a3 a4 a7 a8 a9 a10; simp only [upd]; grind
    · clear a1 a2 a3 a4 a5 a8 a9 a10; simp only [upd]; grind
    · clear a1 a2 a3 a4 a5 a6 a7 a9 a10; simp only [upd, upd2]; grind
    · clear a1 a2 a3 a4 a5 a6 a7 a8 a10; simp only [entered, upd] at *; grind
    · intro n q' r' i' hr' hi'
      have := a10 n q' r' i' hr' hi'
      clear a1 a2 a3 a4 a5 a6 a7 a9 a10
      simp only [future, held, upd, upd2, upd3] at *; grind
  | matched q d i i' l₁ l₂ hq hd hi' hpend hlis htag =>
    have hne : s.pending q ≠ [] := by rw [hpend]; simp
    have hik : i < j.K := (a3 q (i, d) (Or.inr (by rw [hpend]; simp))).1
    have hnot : ¬ entered s (s.rd q) q := by
      intro he
      rcases he with he | ⟨_, he | ⟨k, he⟩⟩
      · omega
      · exact hne (a6 q he).2
      · exact hne (a7 q k he).2.2
    have hle : s.rd d ≤ s.rd q := by
      by_contra hc
      exact hnot (a9 d (s.rd q) (Or.inl (by omega)) q hq)
    have hge : s.rd q ≤ s.rd d + 1 := by
      by_contra hc
      rcases a9 q (s.rd q - 1) (Or.inl (by omega)) d hd with he | ⟨he, _⟩ <;> omega
    have hrd : s.rd q = s.rd d := by
      by_contra hc
      have e : s.rd q = s.rd d + 1 := by omega
      rw [e] at htag
      exact hj.consecutive _ _ _ hik hi' htag
    rw [hrd] at htag
    obtain rfl : i = i' := hj.within _ _ _ hik hi' htag
    refine ⟨?_, ?_, ?_, ?_, ?_, ?_, ?_, ?_, ?_, ?_⟩
    · clear a2 a3 a4 a5 a6 a7 a8 a9 a10; simp only [upd]; grind
    · clear a3 a4 a5 a6 a7 a8 a9 a10; simp only [upd]; grind
    · clear a1 a2 a4 a5 a6 a7 a8 a9 a10; simp only [upd]; grind
    · clear a1 a2 a3 a5 a6 a7 a8 a9 a10; simp only [upd]; grind
    · clear a1 a2 a3 a4 a6 a7 a8 a9 a10; simp only [upd]; grind
    · clear a1 a2 a3 a4 a7 a8 a9 a10; simp only [upd]; grind
    · clear a1 a2 a3 a4 a5 a8 a9 a10; simp only [upd]; grind
    · clear a1 a2 a3 a4 a5 a6 a7 a9 a10; simp only [upd, upd2]; grind
    · clear a1 a2 a3 a4 a5 a6 a7 a8 a10; simp only [entered, upd] at *; grind
    · intro n q' r' i' hr' hi'
      have := a10 n q' r' i' hr' hi'
      clear a1 a2 a3 a4 a5 a6 a7 a9 a10
      simp only [future, held, upd, upd2, upd3] at *; grind
  | recv r i q hr hi hpc hlis =>
    refine ⟨?_, ?_, ?_, ?_, ?_, ?_, ?_, ?_, ?_, ?_⟩
    · clear a2 a3 a4 a5 a6 a7 a8 a9 a10; simp only [upd]; grind
    · clear a3 a4 a5 a6 a7 a8 a9 a10; simp only [upd]; grind
    · clear a1 a2 a4 a5 a6 a7 a8 a9 a10; simp only [upd]; grind
    · clear a1 a2 a3 a5 a6 a7 a8 a9 a10; simp only [upd]; grind
    · clear a1 a2 a3 a4 a6 a7 a8 a9 a10; simp only [upd]; grind
    · clear a1 a2 a3 a4 a7 a8 a9 a10; simp only [upd]; grind
    · clear a1 a2 a3 a4 a5 a8 a9 a10; simp only [upd]; grind
    · clear a1 a2 a3 a4 a5 a6 a7 a9 a10; simp only [upd, upd2]; grind
    · clear a1 a2 a3 a4 a5 a6 a7 a8 a10; simp only [entered, upd] at *; grind
    · intro n q' r' i' hr' hi'
      have := a10 n q' r' i' hr' hi'
      clear a1 a2 a3 a4 a5 a6 a7 a9 a10
      simp only [future, held, upd, upd2, upd3] at *; grind
  | enter r hr hpc hpend =>
    refine ⟨?_, ?_, ?_, ?_, ?_, ?_, ?_, ?_, ?_, ?_⟩
    · clear a2 a3 a4 a5 a6 a7 a8 a9 a10; simp only [upd]; grind
    · clear a3 a4 a5 a6 a7 a8 a9 a10; simp only [upd]; grind
    · clear a1 a2 a4 a5 a6 a7 a8 a9 a10; simp only [upd]; grind
    · clear a1 a2 a3 a5 a6 a7 a8 a9 a10; simp only [upd]; grind
    · clear a1 a2 a3 a4 a6 a7 a8 a9 a10; simp only [upd]; grind
    · clear a1 a2 a3 a4 a7 a8 a9 a10; simp only [upd]; grind
    · clear a1 a2 a3 a4 a5 a8 a9 a10; simp only [upd]; grind
    · clear a1 a2 a3 a4 a5 a6 a7 a9 a10; simp only [upd, upd2]; grind
    · clear a1 a2 a3 a4 a5 a6 a7 a8 a10; simp only [entered, upd] at *; grind
    · intro n q' r' i' hr' hi'
      have := a10 n q' r' i' hr' hi'
      clear a1 a2 a3 a4 a5 a6 a7 a9 a10
      simp only [future, held, upd, upd2, upd3] at *; grind
  | leave r hr hpc hall =>
    refine ⟨?_, ?_, ?_, ?_, ?_, ?_, ?_, ?_, ?_, ?_⟩
    · clear a2 a3 a4 a5 a6 a7 a8 a9 a10; simp only [upd]; grind
    · clear a3 a4 a5 a6 a7 a8 a9 a10; simp only [upd]; grind
    · clear a1 a2 a4 a5 a6 a7 a8 a9 a10; simp only [upd]; grind
    · clear a1 a2 a3 a5 a6 a7 a8 a9 a10; simp only [upd]; grind
    · clear a1 a2 a3 a4 a6 a7 a8 a9 a10; simp only [upd]; grind
    · clear a1 a2 a3 a4 a7 a8 a9 a10; simp only [upd]; grind
    · clear a1 a2 a3 a4 a5 a8 a9 a10; simp only [upd]; grind
    · clear a1 a2 a3 a4 a5 a6 a7 a9 a10; simp only [upd, upd2]; grind
    · clear a1 a2 a3 a4 a5 a6 a7 a8 a10; simp only [entered, upd] at *; grind
    · intro n q' r' i' hr' hi'
      have := a10 n q' r' i' hr' hi'
      clear a1 a2 a3 a4 a5 a6 a7 a9 a10
      simp only [future, held, upd, upd2, upd3] at *; grind
  | cancelled r k hr hpc hk hlis =>
    refine ⟨?_, ?_, ?_, ?_, ?_, ?_, ?_, ?_, ?_, ?_⟩
    · clear a2 a3 a4 a5 a6 a7 a8 a9 a10; simp only [upd]; grind
    · clear a3 a4 a5 a6 a7 a8 a9 a10; simp only [upd]; grind
    · clear a1 a2 a4 a5 a6 a7 a8 a9 a10; simp only [upd]; grind
    · clear a1 a2 a3 a5 a6 a7 a8 a9 a10; simp only [upd]; grind
    · clear a1 a2 a3 a4 a6 a7 a8 a9 a10; simp only [upd]; grind
    · clear a1 a2 a3 a4 a7 a8 a9 a10; simp only [upd]; grind
    · clear a1 a2 a3 a4 a5 a8 a9 a10; simp only [upd]; grind
    · clear a1 a2 a3 a4 a5 a6 a7 a9 a10; simp only [upd, upd2]; grind
    · clear a1 a2 a3 a4 a5 a6 a7 a8 a10; simp only [entered, upd] at *; grind
    · intro n q' r' i' hr' hi'
      have := a10 n q' r' i' hr' hi'
      clear a1 a2 a3 a4 a5 a6 a7 a9 a10
      simp only [future, held, upd, upd2, upd3] at *; grind
  | rescued r k q hr hpc hk hlis =>
    refine ⟨?_, ?_, ?_, ?_, ?_, ?_, ?_, ?_, ?_, ?_⟩
    · clear a2 a3 a4 a5 a6 a7 a8 a9 a10; simp only [upd]; grind
    · clear a3 a4 a5 a6 a7 a8 a9 a10; simp only [upd]; grind
    · clear a1 a2 a4 a5 a6 a7 a8 a9 a10; simp only [upd]; grind
    · clear a1 a2 a3 a5 a6 a7 a8 a9 a10; simp only [upd]; grind
    · clear a1 a2 a3 a4 a6 a7 a8 a9 a10; simp only [upd]; grind
    · clear a1 a2 a3 a4 a7 a8 a9 a10; simp only [upd]; grind
    · clear a1 a2 a3 a4 a5 a8 a9 a10; simp only [upd]; grind
    · clear a1 a2 a3 a4 a5 a6 a7 a9 a10; simp only [upd, upd2]; grind
    · clear a1 a2 a3 a4 a5 a6 a7 a8 a10; simp only [entered, upd] at *; grind
    · intro n q' r' i' hr' hi'
      have := a10 n q' r' i' hr' hi'
      clear a1 a2 a3 a4 a5 a6 a7 a9 a10
      simp only [future, held, upd, upd2, upd3] at *; grind
  | finish r hr hpc =>
    obtain ⟨_, hts, hpe⟩ := a7 r _ hpc
    have hln : ∀ i, i < j.K → s.lis r i = .none := fun i hi => (a8 r i hi).mpr (Or.inr ⟨_, hpc, hi⟩)
    have hlive : s.rd r < j.rounds := a1 r (by rw [hpc]; simp)
    have hb := a9 r (s.rd r) (Or.inr ⟨rfl, _, hpc⟩)
    refine ⟨?_, ?_, ?_, ?_, ?_, ?_, ?_, ?_, ?_, ?_⟩
    · clear a2 a3 a4 a5 a6 a7 a8 a9 a10; simp only [upd]; grind
    · clear a3 a4 a5 a6 a7 a8 a9 a10; simp only [upd]; grind
    · intro x e he
      by_cases hx : x = r
      · subst hx
        simp only [upd, if_true, hpe, List.not_mem_nil, or_false] at he
        split at he
        · obtain ⟨h1, h2⟩ := mem_sends j _ _ e he
          exact ⟨h1, hj.dest _ _ _ _ hr h2⟩
        · simp at he
      · simp only [upd, if_neg hx] at he
        exact a3 x e he
    · clear a1 a2 a3 a5 a6 a7 a8 a9 a10; simp only [upd]; grind
    · clear a1 a2 a3 a4 a6 a7 a8 a9 a10; simp only [upd]; grind
    · clear a1 a2 a3 a4 a7 a8 a9 a10; simp only [upd]; grind
    · clear a1 a2 a3 a4 a5 a8 a9 a10; simp only [upd]; grind
    · clear a1 a2 a3 a4 a5 a6 a7 a9 a10; simp only [upd]; grind
    · intro x n hx q hq
      have hold : entered s n q := by
        by_cases hxr : x = r
        · subst hxr
          simp only [upd, if_true] at hx
          rcases hx with hx | ⟨_, k, hx⟩
          · rcases Nat.lt_or_ge n (s.rd x) with h1 | h1
            · exact a9 x n (Or.inl h1) q hq
            · have : n = s.rd x := by omega
              subst this; exact hb q hq
          · cases hx
        · simp only [upd, if_neg hxr] at hx
          exact a9 x n hx q hq
      clear a1 a2 a3 a4 a5 a6 a7 a8 a9 a10 hb
      simp only [entered, upd] at *; grind
    · intro n q' r' i' hr' hi'
      have := a10 n q' r' i' hr' hi'
      have hl := hln i' 
      have hc := count_sends j (s.rd r + 1) r i' r' hi'
      have hE : j.E (s.rd r + 1) r i' = if s.rd r + 1 < j.rounds then j.edges (s.rd r + 1) r i' else [] := by
        simp [Job.E, hr]
      have hl' : ∀ q, s.lis r i' ≠ .matched q := by intro q; rw [hln i' hi']; simp
      clear a1 a2 a3 a4 a5 a6 a7 a8 a9 a10 hb hln
      simp only [future, held, upd] at *
      by_cases h1 : q' = r
      · subst h1
        simp only [hts, hpe, List.count_nil, if_true] at this ⊢
        rcases Nat.lt_trichotomy n (s.rd q' + 1) with h2 | h2 | h2
        · grind
        · subst h2
          rw [hE] at this ⊢
          split <;> grind
        · grind
      · grind

theorem reach_inv (j : Job) (hj : j.Ok) (s : State) (h : Reach j s) : Inv j s := by
  induction h with
  | init => exact inv_init j hj
  | step _ st ih => exact inv_step j hj _ _ ih st

end Verif.Nbx
