import Verif.Model.Pcx
import Verif.Prelude
import Verif.Props.C07_Nbx
import Mathlib.Algebra.BigOperators.Group.Finset.Basic
import Mathlib.Algebra.BigOperators.Intervals
import Mathlib.Algebra.Order.BigOperators.Group.Finset
/-!
# C08: PCX graph-edge discovery, all schedules
-/
namespace Verif.Props
open Verif.Pcx Finset

/-- Facts that hold in all reachable states of a single call. -/
structure PcxInv (j : Job) (s : State) : Prop where
  rd : ∀ r, s.rd r ≤ 1
  pc1 : ∀ r, s.rd r = 1 → s.pc r = .start
  dest : ∀ r d, (d ∈ s.pending r ∨ (s.rd r = 0 ∧ d ∈ s.toSend r)) → d ∈ j.edges 0 r
  big : ∀ r, j.P ≤ r → s.pending r = [] ∧ s.rd r = 0 ∧ s.pc r = .start
  sent : ∀ r, s.rd r = 0 → (s.pc r = .wait ∨ s.pc r = .recv) → s.toSend r = []
  need : ∀ r, r < j.P → (s.rd r = 1 ∨ s.pc r = .recv) → s.need r = inEdges j.P (j.edges 0) r
  le : ∀ r, r < j.P → (s.rd r = 0 ∧ s.pc r = .recv) → (s.got r 0).length ≤ s.need r
  done : ∀ r, r < j.P → s.rd r = 1 → (s.got r 0).length = s.need r
  idle : ∀ r, s.rd r = 0 → s.pc r ≠ .recv → s.got r 0 = []
  src : ∀ r q, q ∈ s.got r 0 → q < j.P
  begun : ∀ r, r < j.P → (s.rd r = 1 ∨ s.pc r = .recv) → ∀ q, q < j.P → started s 0 q
  cons : ∀ q r, q < j.P → (j.edges 0 q).count r =
    (if s.rd q = 0 then (s.toSend q).count r else 0) + (s.pending q).count r + (s.got r 0).count q

theorem pcxInv_init (j : Job) : PcxInv j j.init := by
  constructor <;> simp [Job.init, started]

theorem pcxInv_step (j : Job) (h1 : j.rounds = 1) (s s' : State) (h : PcxInv j s) (st : Step j s s') :
    PcxInv j s' := by
  cases st with
  | begin r hr hrd hpc =>
    obtain ⟨a1, a2, a3, a4, a5, a6, a7, a8, a9, a10, a11, a12⟩ := h
    constructor
    all_goals simp only [upd, started] at *
    all_goals grind
  | issue r d rest hr hpc hts =>
    have hrd : s.rd r = 0 := by have := h.rd r; have := h.pc1 r; grind
    obtain ⟨a1, a2, a3, a4, a5, a6, a7, a8, a9, a10, a11, a12⟩ := h
    constructor
    case cons =>
      intro q x hq
      have := a12 q x hq
      simp only [upd]
      by_cases hqr : q = r
      · subst hqr
        simp only [hrd, hts, if_true, List.count_cons, List.count_append, List.count_nil] at *
        omega
      · simp only [hqr, if_false]; exact this
    all_goals simp only [upd, started] at *
    all_goals clear a12
    all_goals grind
  | issued r hr hpc hts =>
    obtain ⟨a1, a2, a3, a4, a5, a6, a7, a8, a9, a10, a11, a12⟩ := h
    constructor
    all_goals simp only [upd, started] at *
    all_goals grind
  | count r hr hpc hall =>
    have hrd : s.rd r = 0 := by have := h.rd r; have := h.pc1 r; grind
    obtain ⟨a1, a2, a3, a4, a5, a6, a7, a8, a9, a10, a11, a12⟩ := h
    constructor
    all_goals simp only [upd, started] at *
    all_goals grind
  | recv r q l₁ l₂ hr hq hpc hlt hpend =>
    have hrd : s.rd r = 0 := by have := h.rd r; have := h.pc1 r; grind
    obtain ⟨a1, a2, a3, a4, a5, a6, a7, a8, a9, a10, a11, a12⟩ := h
    constructor
    case cons =>
      intro p x hp
      have := a12 p x hp
      simp only [upd, upd2, hrd, and_true]
      by_cases hpq : p = q <;> by_cases hxr : x = r
      · subst hpq; subst hxr
        simp only [if_true, hpend, List.count_cons, List.count_append, List.count_nil, beq_self_eq_true] at *
        omega
      · subst hpq
        have : ¬ (r = x) := fun hh => hxr hh.symm
        simp only [if_true, hpend, List.count_cons, List.count_append, List.count_nil, hxr, if_false, beq_iff_eq, this] at *
        omega
      · subst hxr
        have : ¬ (q = p) := fun hh => hpq hh.symm
        simp only [if_true, List.count_cons, List.count_append, List.count_nil, hpq, if_false, beq_iff_eq, this] at *
        omega
      · simp only [hpq, hxr, if_false]; exact this
    all_goals simp only [upd, upd2, started, hrd] at *
    all_goals clear a12
    all_goals grind
  | finish r hr hpc hlen hw =>
    have hrd : s.rd r = 0 := by have := h.rd r; have := h.pc1 r; grind
    obtain ⟨a1, a2, a3, a4, a5, a6, a7, a8, a9, a10, a11, a12⟩ := h
    constructor
    all_goals simp only [upd, started, hrd] at *
    all_goals grind

theorem pcx_reach (j : Job) (h1 : j.rounds = 1) (s : State) (hs : Reach j s) : PcxInv j s := by
  induction hs with
  | init => exact pcxInv_init j
  | step _ st ih => exact pcxInv_step j h1 _ _ ih st

theorem length_eq_sum_count (P : Nat) (l : List Nat) (h : ∀ x ∈ l, x < P) :
    l.length = ∑ q ∈ range P, l.count q := by
  induction l with
  | nil => simp
  | cons a l ih =>
    have h2 := ih (fun x hx => h x (by simp [hx]))
    simp only [List.length_cons, List.count_cons, Finset.sum_add_distrib, ← h2]
    congr 1
    have : a < P := h a (by simp)
    simp [Finset.sum_ite_eq, this]

theorem inEdges_eq (P : Nat) (edges : Nat → List Nat) (r : Nat) (hn : ∀ q, q < P → (edges q).Nodup) :
    inEdges P edges r = ∑ q ∈ range P, (edges q).count r := by
  unfold inEdges
  have : ∀ n, n ≤ P → ((List.range n).map fun q => if r ∈ edges q then 1 else 0).sum =
      ∑ q ∈ range n, (edges q).count r := by
    intro n
    induction n with
    | zero => simp
    | succ n ih =>
      intro hle
      rw [List.range_succ, List.map_append, List.sum_append, Finset.sum_range_succ, ih (by omega)]
      have : (edges n).count r = if r ∈ edges n then 1 else 0 := by
        split
        · rename_i h; exact List.count_eq_one_of_mem (hn n (by omega)) h
        · rename_i h; exact List.count_eq_zero_of_not_mem h
      simp [this]
  exact this P (le_refl _)

/-- A rank that has received everything it waits for has received all messages to it. -/
theorem pcx_full (j : Job) (hn : ∀ q, q < j.P → (j.edges 0 q).Nodup) (s : State) (h : PcxInv j s)
    (r : Nat) (hr : r < j.P) (hst : s.rd r = 1 ∨ s.pc r = .recv) (hlen : (s.got r 0).length = s.need r)
    (q : Nat) (hq : q < j.P) : (s.got r 0).count q = (j.edges 0 q).count r := by
  have hle : ∀ q ∈ range j.P, (s.got r 0).count q ≤ (j.edges 0 q).count r := by
    intro q hq
    rw [Finset.mem_range] at hq
    have := h.cons q r hq; omega
  have hsum : ∑ q ∈ range j.P, (s.got r 0).count q = ∑ q ∈ range j.P, (j.edges 0 q).count r := by
    rw [← length_eq_sum_count j.P _ (h.src r), hlen, h.need r hr hst, inEdges_eq _ _ _ hn]
  exact (Finset.sum_eq_sum_iff_of_le hle).mp hsum q (Finset.mem_range.mpr hq)

/-- C08: in every execution of one call (fresh communicator traffic), with distinct
destinations, a rank that returns has received each rank that listed it exactly once, and
no other. -/
theorem C08_in_edges_exact_partial (j : Job) (h1 : j.rounds = 1) (hn : ∀ q, q < j.P → (j.edges 0 q).Nodup)
    (s : State) (hs : Reach j s) (r : Nat) (hr : r < j.P) (hret : s.rd r = 1) :
    (s.got r 0).Nodup ∧ ∀ q, q ∈ s.got r 0 ↔ q < j.P ∧ r ∈ j.edges 0 q := by
  have h := pcx_reach j h1 s hs
  have key := pcx_full j hn s h r hr (Or.inl hret) (h.done r hr hret)
  constructor
  · rw [List.nodup_iff_count_le_one]
    intro q
    by_cases hq : q < j.P
    · rw [key q hq]; exact List.nodup_iff_count_le_one.mp (hn q hq) r
    · rw [List.count_eq_zero_of_not_mem (fun hm => hq (h.src r q hm))]; omega
  · intro q
    constructor
    · intro hm
      have hq := h.src r q hm
      refine ⟨hq, ?_⟩
      rw [← List.count_pos_iff, ← key q hq]
      exact List.count_pos_iff.mpr hm
    · rintro ⟨hq, hm⟩
      rw [← List.count_pos_iff, key q hq]
      exact List.count_pos_iff.mpr hm

/-- The number of receives a rank posts is the number of messages sent to it. -/
theorem C08_receive_count (P : Nat) (edges : Nat → List Nat) (r : Nat) (hn : ∀ q, q < P → (edges q).Nodup) :
    inEdges P edges r = ∑ q ∈ range P, (edges q).count r := inEdges_eq P edges r hn

/-- No message is left over when all ranks have returned. -/
theorem C08_nothing_in_flight (j : Job) (h1 : j.rounds = 1) (hn : ∀ q, q < j.P → (j.edges 0 q).Nodup)
    (hd : ∀ q, q < j.P → ∀ d ∈ j.edges 0 q, d < j.P)
    (s : State) (hs : Reach j s) (hret : ∀ r, r < j.P → s.rd r = 1) (q : Nat) (hq : q < j.P) :
    s.pending q = [] := by
  have h := pcx_reach j h1 s hs
  rw [List.eq_nil_iff_forall_not_mem]
  intro d hdm
  have hdP := hd q hq d (h.dest q d (Or.inl hdm))
  have := pcx_full j hn s h d hdP (Or.inl (hret d hdP)) (h.done d hdP (hret d hdP)) q hq
  have h2 := h.cons q d hq
  have := List.count_pos_iff.mpr hdm
  omega

/-- No deadlock in one call: while some rank has not returned, a step is possible, also when
sends complete only when they are received. -/
theorem C08_no_deadlock (j : Job) (h1 : j.rounds = 1) (hn : ∀ q, q < j.P → (j.edges 0 q).Nodup)
    (hd : ∀ q, q < j.P → ∀ d ∈ j.edges 0 q, d < j.P)
    (s : State) (hs : Reach j s) (hnot : ∃ r, r < j.P ∧ s.rd r = 0) : ∃ s', Step j s s' := by
  have h := pcx_reach j h1 s hs
  by_cases hs0 : ∃ r, r < j.P ∧ s.rd r = 0 ∧ s.pc r = .start
  · obtain ⟨r, hr, h0, hp⟩ := hs0
    exact ⟨_, Step.begin s r hr (by omega) hp⟩
  by_cases hs1 : ∃ r, r < j.P ∧ s.pc r = .send
  · obtain ⟨r, hr, hp⟩ := hs1
    cases ht : s.toSend r with
    | nil => exact ⟨_, Step.issued s r hr hp ht⟩
    | cons d rest => exact ⟨_, Step.issue s r d rest hr hp ht⟩
  have hst : ∀ q, q < j.P → started s 0 q := by
    intro q hq
    by_cases h0 : s.rd q = 0
    · exact Or.inr ⟨h0, fun hc => hs0 ⟨q, hq, h0, hc⟩⟩
    · exact Or.inl (by omega)
  by_cases hs2 : ∃ r, r < j.P ∧ s.pc r = .wait
  · obtain ⟨r, hr, hp⟩ := hs2
    have h0 : s.rd r = 0 := by
      have := h.rd r
      by_contra hc
      have := h.pc1 r (by omega)
      rw [hp] at this; cases this
    exact ⟨_, Step.count s r hr hp (by rw [h0]; exact hst)⟩
  have hpc : ∀ q, q < j.P → s.rd q = 0 → s.pc q = .recv := by
    intro q hq h0
    cases hp : s.pc q with
    | start => exact absurd ⟨q, hq, h0, hp⟩ hs0
    | send => exact absurd ⟨q, hq, hp⟩ hs1
    | wait => exact absurd ⟨q, hq, hp⟩ hs2
    | recv => rfl
  -- a rank that still misses a message can receive one
  have hrecv : ∀ d q, d < j.P → q < j.P → s.rd d = 0 → (s.got d 0).length < s.need d → d ∈ s.pending q →
      ∃ s', Step j s s' := by
    intro d q hdP hq h0 hlt hm
    obtain ⟨l₁, l₂, hl⟩ := List.append_of_mem hm
    exact ⟨_, Step.recv s d q l₁ l₂ hdP hq (hpc d hdP h0) (by rw [h0]; exact hlt) hl⟩
  obtain ⟨r, hr, h0⟩ := hnot
  rcases Nat.lt_or_ge (s.got r 0).length (s.need r) with hlt | hge
  · -- some message to r is pending
    have : ∃ q, q < j.P ∧ r ∈ s.pending q := by
      by_contra hc
      push Not at hc
      have : ∑ q ∈ range j.P, (s.got r 0).count q = ∑ q ∈ range j.P, (j.edges 0 q).count r := by
        apply Finset.sum_congr rfl
        intro q hq
        rw [Finset.mem_range] at hq
        have h3 := h.cons q r hq
        rw [List.count_eq_zero_of_not_mem (hc q hq)] at h3
        by_cases hq0 : s.rd q = 0
        · rw [h.sent q hq0 (Or.inr (hpc q hq hq0))] at h3
          simp at h3; omega
        · rw [if_neg hq0] at h3; omega
      rw [← length_eq_sum_count j.P _ (h.src r), ← inEdges_eq _ _ _ hn,
        ← h.need r hr (Or.inr (hpc r hr h0))] at this
      omega
    obtain ⟨q, hq, hm⟩ := this
    exact hrecv r q hr hq h0 hlt hm
  · have hlen : (s.got r 0).length = s.need r := by
      have := h.le r hr ⟨h0, hpc r hr h0⟩; omega
    cases hpe : s.pending r with
    | nil => exact ⟨_, Step.finish s r hr (hpc r hr h0) (by rw [h0]; exact hlen) (Or.inr hpe)⟩
    | cons d rest =>
      have hdm : d ∈ s.pending r := by rw [hpe]; simp
      have hdP := hd r hr d (h.dest r d (Or.inl hdm))
      have hc := h.cons r d hr
      have hpos := List.count_pos_iff.mpr hdm
      have hd0 : ¬ (s.rd d = 1 ∨ s.pc d = .recv) ∨ (s.got d 0).length ≠ s.need d := by
        by_contra hcon
        push Not at hcon
        have := pcx_full j hn s h d hdP hcon.1 hcon.2 r hr
        omega
      have h00 : s.rd d = 0 := by
        have := h.rd d
        by_contra hx
        have h11 : s.rd d = 1 := by omega
        rcases hd0 with hd0 | hd0
        · exact hd0 (Or.inl h11)
        · exact hd0 (h.done d hdP h11)
      have hne : (s.got d 0).length ≠ s.need d := by
        rcases hd0 with hd0 | hd0
        · exact absurd (Or.inr (hpc d hdP h00)) hd0
        · exact hd0
      have := h.le d hdP ⟨h00, hpc d hdP h00⟩
      exact hrecv d r hdP hr h00 (by omega) hdm

/-- Weight of a program position. -/
def pcxWeight : PC → Nat
  | .start => 4
  | .send => 3
  | .wait => 2
  | .recv => 1

/-- Remaining work of one rank in a single call. -/
def pcxRank (s : State) (r : Nat) : Nat :=
  (if s.rd r = 0 then pcxWeight (s.pc r) + 2 * (s.toSend r).length else 0) + (s.pending r).length

def pcxWork (j : Job) (s : State) : Nat := ∑ r ∈ range j.P, pcxRank s r

theorem pcxWork_one {j : Job} {s s' : State} {r : Nat} (hr : r < j.P)
    (h : ∀ x, x ≠ r → pcxRank s' x = pcxRank s x) (hlt : pcxRank s' r < pcxRank s r) :
    pcxWork j s' < pcxWork j s := by
  have := sum_change (f := pcxRank s') (g := pcxRank s) hr h
  unfold pcxWork
  omega

/-- Every step of a call strictly decreases the remaining work: no execution is infinite. -/
theorem C08_terminates (j : Job) (h1 : j.rounds = 1) (s s' : State) (hs : Reach j s) (st : Step j s s') :
    pcxWork j s' < pcxWork j s := by
  have h := pcx_reach j h1 s hs
  have h0 : ∀ r, s.pc r ≠ .start → s.rd r = 0 := by
    intro r hp
    have := h.rd r
    by_contra hc
    exact hp (h.pc1 r (by omega))
  cases st with
  | begin r hr hrd hpc =>
    apply pcxWork_one hr
    · intro x hx; simp [pcxRank, upd, hx]
    · have : s.rd r = 0 := by omega
      simp [pcxRank, upd, this, hpc, pcxWeight]
  | issue r d rest hr hpc hts =>
    apply pcxWork_one hr
    · intro x hx; simp [pcxRank, upd, hx]
    · simp only [pcxRank, upd, h0 r (by simp [hpc]), hpc, hts, if_true, List.length_cons, List.length_append,
        List.length_nil]
      omega
  | issued r hr hpc hts =>
    apply pcxWork_one hr
    · intro x hx; simp [pcxRank, upd, hx]
    · simp [pcxRank, upd, h0 r (by simp [hpc]), hpc, pcxWeight]
  | count r hr hpc hall =>
    apply pcxWork_one hr
    · intro x hx; simp [pcxRank, upd, hx]
    · simp [pcxRank, upd, h0 r (by simp [hpc]), hpc, pcxWeight]
  | recv r q l₁ l₂ hr hq hpc hlt hpend =>
    apply pcxWork_one hq
    · intro x hx; simp [pcxRank, upd, hx]
    · simp only [pcxRank, upd, if_true, hpend, List.length_cons, List.length_append]
      omega
  | finish r hr hpc hlen hw =>
    apply pcxWork_one hr
    · intro x hx; simp [pcxRank, upd, hx]
    · simp only [pcxRank, upd, h0 r (by simp [hpc]), hpc, if_true, pcxWeight]
      simp

/-- Three ranks, two consecutive calls.  In the first call ranks 0 and 2 name rank 1; in the
second only rank 0 names rank 1. -/
def exPcxTwice : Job where
  P := 3
  rounds := 2
  edges := fun n r => if r = 0 then [1] else if r = 2 ∧ n = 0 then [1] else []
  eager := false

/-- Consecutive calls are not safe: there is an execution (with synchronous sends) in which rank 1
returns from the first call with `[0, 0]`: rank 0 has already entered the second call and
its message overtakes the one of rank 2. -/
theorem C08_refuted_consecutive_calls :
    ∃ s, Reach exPcxTwice s ∧ s.rd 1 = 1 ∧ s.got 1 0 = [0, 0] ∧ exPcxTwice.edges 0 2 = [1] := by
  have hst : ∀ (s : State) (n : Nat), started s n 0 → started s n 1 → started s n 2 →
      ∀ q, q < exPcxTwice.P → started s n q := by
    intro s n a b c q hq
    have : q = 0 ∨ q = 1 ∨ q = 2 := by simp [exPcxTwice] at hq; omega
    rcases this with h | h | h <;> subst h <;> assumption
  have r0 := Reach.init (j := exPcxTwice)
  have r1 := Reach.step r0 (.begin _ 0 (by decide) (by decide) rfl)
  have r2 := Reach.step r1 (.begin _ 1 (by decide) (by decide) rfl)
  have r3 := Reach.step r2 (.begin _ 2 (by decide) (by decide) rfl)
  have r4 := Reach.step r3 (.issue _ 0 1 [] (by decide) rfl rfl)
  have r5 := Reach.step r4 (.issued _ 0 (by decide) rfl rfl)
  have r6 := Reach.step r5 (.issued _ 1 (by decide) rfl rfl)
  have r7 := Reach.step r6 (.count _ 0 (by decide) rfl (hst _ _ (Or.inr ⟨rfl, by decide⟩) (Or.inr ⟨rfl, by decide⟩) (Or.inr ⟨rfl, by decide⟩)))
  have r8 := Reach.step r7 (.count _ 1 (by decide) rfl (hst _ _ (Or.inr ⟨rfl, by decide⟩) (Or.inr ⟨rfl, by decide⟩) (Or.inr ⟨rfl, by decide⟩)))
  have r9 := Reach.step r8 (.recv _ 1 0 [] [] (by decide) (by decide) rfl (by decide) rfl)
  have r10 := Reach.step r9 (.finish _ 0 (by decide) rfl rfl (Or.inr rfl))
  have r11 := Reach.step r10 (.begin _ 0 (by decide) (by decide) rfl)
  have r12 := Reach.step r11 (.issue _ 0 1 [] (by decide) rfl rfl)
  have r13 := Reach.step r12 (.recv _ 1 0 [] [] (by decide) (by decide) rfl (by decide) rfl)
  have r14 := Reach.step r13 (.finish _ 1 (by decide) rfl rfl (Or.inr rfl))
  exact ⟨_, r14, by decide, by decide, by decide⟩

/-- Hypotheses met by a job in which ranks have different numbers of in-edges. -/
def exPcx : Job where
  P := 4
  rounds := 1
  edges := fun _ r => if r = 3 then [] else [3, (r + 1) % 3]
  eager := false

example : exPcx.rounds = 1 ∧ (∀ q, q < exPcx.P → (exPcx.edges 0 q).Nodup) ∧
    (∀ q, q < exPcx.P → ∀ d ∈ exPcx.edges 0 q, d < exPcx.P) ∧ inEdges 4 (exPcx.edges 0) 3 = 3 := by
  refine ⟨rfl, ?_, ?_, by decide⟩ <;> decide

end Verif.Props
