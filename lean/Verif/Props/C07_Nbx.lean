import Verif.Lemmas.Nbx
import Mathlib.Algebra.BigOperators.Group.Finset.Basic
import Mathlib.Algebra.BigOperators.Intervals
import Mathlib.Algebra.Order.BigOperators.Group.Finset
/-!
# C07: NBX graph-edge discovery, all schedules

A `Job` describes a sequence of collective calls with `K` edge sets each (`K = 1`, or `2` for
the overlapped overload); `Reach` ranges over all states of all interleavings.
-/
namespace Verif.Props
open Verif.Nbx Finset

/-- C07: whenever rank `r` has returned from call `n`, its result for set `i` contains each rank
`q` exactly as often as `q` named `r` as a destination in that call (and no rank that did
not).  Hypotheses: destinations are ranks; tags differ within a call and between
consecutive calls (as the documentation requires). -/
theorem C07_in_edges_exact (j : Job) (hj : j.Ok) (s : State) (hs : Reach j s)
    (n r : Nat) (hr : r < j.P) (hret : n < s.rd r) (i : Nat) (hi : i < j.K) :
    (∀ q, q < j.P → (s.got r n i).count q = (j.edges n q i).count r) ∧
    (∀ q ∈ s.got r n i, q < j.P) := by
  have h := reach_inv j hj s hs
  have hn : n < j.rounds := lt_of_lt_of_le hret (h.rdle r)
  have key : ∀ q, (j.E n q i).count r = (s.got r n i).count q := by
    intro q
    have hc := h.cons n q r i hr hi
    have h1 : held s n q r i = 0 := by
      unfold held; rw [if_neg]; intro hh; omega
    have h2 : future j s n q r i = 0 := by
      unfold future
      by_cases hq : q < j.P
      · rcases h.bar r n (Or.inl hret) q hq with he | ⟨he, hp⟩
        · rw [if_neg (by omega), if_neg (by omega)]
        · rw [if_neg (by omega), if_pos he]
          rcases hp with hp | ⟨k, hp⟩
          · simp [(h.pcbar q hp).1, (h.pcbar q hp).2]
          · simp [(h.pccancel q k hp).2.1, (h.pccancel q k hp).2.2]
      · have : j.E n q i = [] := by simp [Job.E, hq]
        rw [this] at hc
        simp only [List.count_nil] at hc
        unfold future at hc
        rw [this] at hc ⊢
        simp only [List.count_nil] at hc ⊢
        omega
    omega
  constructor
  · intro q hq
    rw [← key q]; simp [Job.E, hq, hn]
  · intro q hq
    by_contra hc
    have h1 := key q
    have : j.E n q i = [] := by simp [Job.E, hc]
    rw [this] at h1
    have h2 := List.count_pos_iff.mpr hq
    simp only [List.count_nil] at h1
    omega

/-- No message is left behind: once a rank has returned from call `n`, no rank still in call `n`
has an unissued or unmatched send. -/
theorem C07_nothing_in_flight (j : Job) (hj : j.Ok) (s : State) (hs : Reach j s)
    (n r : Nat) (hret : n < s.rd r) (q : Nat) (hq : q < j.P) (hqn : s.rd q = n) :
    s.toSend q = [] ∧ s.pending q = [] := by
  have h := reach_inv j hj s hs
  rcases h.bar r n (Or.inl hret) q hq with he | ⟨_, hp⟩
  · omega
  · rcases hp with hp | ⟨k, hp⟩
    · exact h.pcbar q hp
    · exact (h.pccancel q k hp).2

/-- No deadlock: as long as some rank has not finished all calls, some step is possible. -/
theorem C07_no_deadlock (j : Job) (hj : j.Ok) (s : State) (hs : Reach j s)
    (hnot : ∃ r, r < j.P ∧ s.rd r < j.rounds) : ∃ s', Step j s s' := by
  have h := reach_inv j hj s hs
  -- a rank in the earliest unfinished call
  obtain ⟨n, ⟨r, hr, hrn⟩, hmin⟩ : ∃ n, (∃ r, r < j.P ∧ s.rd r = n) ∧ ∀ q, q < j.P → n ≤ s.rd q := by
    obtain ⟨r0, hr0, _⟩ := hnot
    classical
    have hex : ∃ n, ∃ r, r < j.P ∧ s.rd r = n := ⟨_, r0, hr0, rfl⟩
    exact ⟨Nat.find hex, Nat.find_spec hex, fun q hq => Nat.find_min' hex ⟨q, hq, rfl⟩⟩
  have hnr : n < j.rounds := by
    obtain ⟨r0, hr0, h0⟩ := hnot
    exact lt_of_le_of_lt (hmin r0 hr0) h0
  have hcancel : ∀ d k, d < j.P → s.pc d = .cancel k → ∃ s', Step j s s' := by
    intro d k hd hk
    rcases Nat.lt_or_ge k j.K with hlt | hge
    · cases hl : s.lis d k with
      | none =>
        rcases (h.lisnone d k hlt).mp hl with ⟨k', hp, _⟩ | ⟨k', hp, hlt'⟩
        · rw [hk] at hp; cases hp
        · rw [hk] at hp; cases hp; omega
      | posted => exact ⟨_, Step.cancelled s d k hd hk hlt hl⟩
      | matched q => exact ⟨_, Step.rescued s d k q hd hk hlt hl⟩
    · have := (h.pccancel d k hk).1
      have : k = j.K := by omega
      subst this
      exact ⟨_, Step.finish s d hd hk⟩
  have hpost : ∀ d k, d < j.P → s.rd d = n → s.pc d = .post k → ∃ s', Step j s s' := by
    intro d k hd hdn hk
    rcases Nat.lt_or_ge k j.K with hlt | hge
    · exact ⟨_, Step.post s d k hd (by omega) hk hlt⟩
    · have := (h.pcpost d k hk).1
      have : k = j.K := by omega
      subst this
      exact ⟨_, Step.posted s d hd (by omega) hk⟩
  have hsend : ∀ d, d < j.P → s.pc d = .send → ∃ s', Step j s s' := by
    intro d hd hk
    cases ht : s.toSend d with
    | nil => exact ⟨_, Step.issued s d hd hk ht⟩
    | cons e rest => exact ⟨_, Step.issue s d e rest hd hk ht⟩
  have hloop : ∀ q, q < j.P → s.rd q = n → s.pc q = .loop → ∃ s', Step j s s' := by
    intro q hq hqn hk
    cases hp : s.pending q with
    | nil => exact ⟨_, Step.enter s q hq hk hp⟩
    | cons e rest =>
      obtain ⟨i, d⟩ := e
      obtain ⟨hi, hd⟩ := h.elems q (i, d) (Or.inr (by rw [hp]; simp))
      simp only at hi hd
      have hnent : ¬ entered s n q := by
        rintro (he | ⟨_, he | ⟨k, he⟩⟩)
        · omega
        · rw [hk] at he; cases he
        · rw [hk] at he; cases he
      have hdn : s.rd d = n := by
        have := hmin d hd
        by_contra hc
        exact hnent (h.bar d n (Or.inl (by omega)) q hq)
      cases hl : s.lis d i with
      | none =>
        rcases (h.lisnone d i hi).mp hl with ⟨k', hp', _⟩ | ⟨k', hp', _⟩
        · exact hpost d k' hd hdn hp'
        · exact absurd (h.bar d n (Or.inr ⟨hdn, k', hp'⟩) q hq) hnent
      | posted =>
        exact ⟨_, Step.matched s q d i i [] rest hq hd hi hp hl (by rw [hqn, hdn])⟩
      | matched x =>
        cases hpc : s.pc d with
        | post k => exact hpost d k hd hdn hpc
        | send => exact hsend d hd hpc
        | loop => exact ⟨_, Step.recv s d i x hd hi (Or.inl hpc) hl⟩
        | bar => exact ⟨_, Step.recv s d i x hd hi (Or.inr hpc) hl⟩
        | cancel k => exact hcancel d k hd hpc
  by_cases hall : ∀ q, q < j.P → entered s n q
  · rcases hall r hr with he | ⟨_, hp | ⟨k, hp⟩⟩
    · omega
    · exact ⟨_, Step.leave s r hr hp (by rw [hrn]; exact hall)⟩
    · exact hcancel r k hr hp
  · push Not at hall
    obtain ⟨q, hq, hne⟩ := hall
    have hqn : s.rd q = n := by
      have := hmin q hq
      by_contra hc
      exact hne (Or.inl (by omega))
    cases hpc : s.pc q with
    | post k => exact hpost q k hq hqn hpc
    | send => exact hsend q hq hpc
    | loop => exact hloop q hq hqn hpc
    | bar => exact absurd (Or.inr ⟨hqn, Or.inl hpc⟩) hne
    | cancel k => exact absurd (Or.inr ⟨hqn, Or.inr ⟨k, hpc⟩⟩) hne

/-- Weight of a program position. -/
def pcWeight (K : Nat) : PC → Nat
  | .post k => 2 * K + 5 - k
  | .send => K + 4
  | .loop => K + 3
  | .bar => K + 2
  | .cancel k => K + 1 - k

/-- Work of one rank: later calls, position in this call, sends. -/
def rankWork (j : Job) (s : State) (r : Nat) : Nat :=
  ∑ n ∈ range j.rounds, (if s.rd r < n then 3 * (j.sends n r).length + (2 * j.K + 5) else 0) +
  (if s.rd r < j.rounds then pcWeight j.K (s.pc r) else 0) +
  3 * (s.toSend r).length + 2 * (s.pending r).length

/-- Unrecorded matches of one rank. -/
def lisWork (j : Job) (s : State) (r : Nat) : Nat :=
  ∑ i ∈ range j.K, match s.lis r i with | .matched _ => 1 | _ => 0

/-- Total remaining work. -/
def work (j : Job) (s : State) : Nat := ∑ r ∈ range j.P, (rankWork j s r + lisWork j s r)

theorem sum_change {f g : Nat → Nat} {P r : Nat} (hr : r < P) (h : ∀ x, x ≠ r → f x = g x) :
    ∑ x ∈ range P, f x + g r = ∑ x ∈ range P, g x + f r := by
  induction P with
  | zero => omega
  | succ P ih =>
    rw [Finset.sum_range_succ, Finset.sum_range_succ]
    rcases Nat.lt_or_ge r P with h1 | h1
    · have := ih h1
      have := h P (by omega)
      omega
    · have : r = P := by omega
      subst this
      have : ∑ x ∈ range r, f x = ∑ x ∈ range r, g x := by
        apply Finset.sum_congr rfl
        intro x hx
        rw [Finset.mem_range] at hx
        exact h x (by omega)
      omega

theorem work_one {j : Job} {s s' : State} {r : Nat} (hr : r < j.P)
    (h : ∀ x, x ≠ r → rankWork j s' x + lisWork j s' x = rankWork j s x + lisWork j s x)
    (hlt : rankWork j s' r + lisWork j s' r < rankWork j s r + lisWork j s r) : work j s' < work j s := by
  have := sum_change (f := fun x => rankWork j s' x + lisWork j s' x)
    (g := fun x => rankWork j s x + lisWork j s x) hr h
  unfold work
  omega

def lw : Lis → Nat | .matched _ => 1 | _ => 0

theorem lisWork_eq (j : Job) (s : State) (r : Nat) : lisWork j s r = ∑ i ∈ range j.K, lw (s.lis r i) := by
  unfold lisWork lw; rfl

theorem lisWork_upd {j : Job} {s s' : State} {r i : Nat} {v : Lis} (hi : i < j.K)
    (hl : s'.lis = upd2 s.lis r i v) :
    lisWork j s' r + lw (s.lis r i) = lisWork j s r + lw v := by
  rw [lisWork_eq, lisWork_eq]
  have := sum_change (f := fun x => lw (s'.lis r x)) (g := fun x => lw (s.lis r x)) hi (by
    intro x hx; simp [hl, upd2, hx])
  simpa [hl, upd2] using this

theorem lisWork_other {j : Job} {s s' : State} {r i x : Nat} {v : Lis} (hx : x ≠ r)
    (hl : s'.lis = upd2 s.lis r i v) : lisWork j s' x = lisWork j s x := by
  rw [lisWork_eq, lisWork_eq, hl]
  simp [upd2, hx]

/-- Every step strictly decreases a natural number, so every execution is finite; with
`C07_no_deadlock`, every execution can be extended to one in which all ranks have returned
from all calls, and none runs for ever. -/
theorem C07_terminates (j : Job) (hj : j.Ok) (s s' : State) (hs : Reach j s) (st : Step j s s') :
    work j s' < work j s := by
  have h := reach_inv j hj s hs
  cases st with
  | post r k hr hrd hpc hk =>
    apply work_one hr
    · intro x hx
      rw [lisWork_other (i := k) (v := .posted) hx rfl]
      simp [rankWork, upd, hx]
    · have h1 := lisWork_upd (s' := { s with lis := upd2 s.lis r k .posted, pc := upd s.pc r (.post (k + 1)) })
        (i := k) hk rfl
      have h2 : s.lis r k = .none := (h.lisnone r k hk).mpr (Or.inl ⟨k, hpc, le_refl _⟩)
      rw [h2] at h1
      simp only [lw] at h1
      have h3 : rankWork j { s with lis := upd2 s.lis r k .posted, pc := upd s.pc r (.post (k + 1)) } r <
          rankWork j s r := by
        simp only [rankWork, upd, if_true, hpc, hrd, pcWeight]; omega
      omega
  | posted r hr hrd hpc =>
    apply work_one hr
    · intro x hx; simp [rankWork, lisWork, upd, hx]
    · simp only [rankWork, lisWork, upd, if_true, hpc, hrd, pcWeight]; omega
  | issue r e rest hr hpc hts =>
    apply work_one hr
    · intro x hx; simp [rankWork, lisWork, upd, hx]
    · simp only [rankWork, lisWork, upd, if_true, hts, List.length_cons]; omega
  | issued r hr hpc hts =>
    have hrd := h.live r (by rw [hpc]; simp)
    apply work_one hr
    · intro x hx; simp [rankWork, lisWork, upd, hx]
    · simp only [rankWork, lisWork, upd, if_true, hpc, hrd, pcWeight]; omega
  | matched q d i i' l₁ l₂ hq hd hi' hpend hlis htag =>
    -- two sums: sends of q, listeners of d
    have h1 := sum_change (f := fun x => rankWork j { s with pending := upd s.pending q (l₁ ++ l₂), lis := upd2 s.lis d i' (.matched q) } x)
      (g := fun x => rankWork j s x) hq (by intro x hx; simp [rankWork, upd, hx])
    have h2 := sum_change (f := fun x => lisWork j { s with pending := upd s.pending q (l₁ ++ l₂), lis := upd2 s.lis d i' (.matched q) } x)
      (g := fun x => lisWork j s x) hd (by intro x hx; exact lisWork_other hx rfl)
    have h3 := lisWork_upd (s' := { s with pending := upd s.pending q (l₁ ++ l₂), lis := upd2 s.lis d i' (.matched q) })
        (i := i') hi' rfl
    rw [hlis] at h3
    simp only [lw] at h3
    have h4 : rankWork j { s with pending := upd s.pending q (l₁ ++ l₂), lis := upd2 s.lis d i' (.matched q) } q + 2 =
        rankWork j s q := by
      simp only [rankWork, upd, if_true, hpend, List.length_append, List.length_cons]; omega
    unfold work
    rw [Finset.sum_add_distrib, Finset.sum_add_distrib]
    omega
  | recv r i q hr hi hpc hlis =>
    apply work_one hr
    · intro x hx
      rw [lisWork_other (i := i) (v := .posted) hx rfl]
      simp [rankWork]
    · have h1 := lisWork_upd (s' := { s with lis := upd2 s.lis r i .posted, got := upd3 s.got r (s.rd r) i (s.got r (s.rd r) i ++ [q]) })
        (i := i) hi rfl
      rw [hlis] at h1
      simp only [lw] at h1
      have h3 : rankWork j { s with lis := upd2 s.lis r i .posted, got := upd3 s.got r (s.rd r) i (s.got r (s.rd r) i ++ [q]) } r =
          rankWork j s r := by
        simp only [rankWork]
      omega
  | enter r hr hpc hpend =>
    have hrd := h.live r (by rw [hpc]; simp)
    apply work_one hr
    · intro x hx; simp [rankWork, lisWork, upd, hx]
    · simp only [rankWork, lisWork, upd, if_true, hpc, hrd, pcWeight]; omega
  | leave r hr hpc hall =>
    have hrd := h.live r (by rw [hpc]; simp)
    apply work_one hr
    · intro x hx; simp [rankWork, lisWork, upd, hx]
    · simp only [rankWork, lisWork, upd, if_true, hpc, hrd, pcWeight]; omega
  | cancelled r k hr hpc hk hlis =>
    have hrd := h.live r (by rw [hpc]; simp)
    apply work_one hr
    · intro x hx
      rw [lisWork_other (i := k) (v := .none) hx rfl]
      simp [rankWork, upd, hx]
    · have h1 := lisWork_upd (s' := { s with lis := upd2 s.lis r k .none, pc := upd s.pc r (.cancel (k + 1)) })
        (i := k) hk rfl
      rw [hlis] at h1
      simp only [lw] at h1
      have h3 : rankWork j { s with lis := upd2 s.lis r k .none, pc := upd s.pc r (.cancel (k + 1)) } r <
          rankWork j s r := by
        simp only [rankWork, upd, if_true, hpc, hrd, pcWeight]; omega
      omega
  | rescued r k q hr hpc hk hlis =>
    have hrd := h.live r (by rw [hpc]; simp)
    apply work_one hr
    · intro x hx
      rw [lisWork_other (i := k) (v := .none) hx rfl]
      simp [rankWork, upd, hx]
    · have h1 := lisWork_upd (s' := { s with lis := upd2 s.lis r k .none, pc := upd s.pc r (.cancel (k + 1)), got := upd3 s.got r (s.rd r) k (s.got r (s.rd r) k ++ [q]) })
        (i := k) hk rfl
      rw [hlis] at h1
      simp only [lw] at h1
      have h3 : rankWork j { s with lis := upd2 s.lis r k .none, pc := upd s.pc r (.cancel (k + 1)), got := upd3 s.got r (s.rd r) k (s.got r (s.rd r) k ++ [q]) } r <
          rankWork j s r := by
        simp only [rankWork, upd, if_true, hpc, hrd, pcWeight]; omega
      omega
  | finish r hr hpc =>
    have hrd := h.live r (by rw [hpc]; simp)
    obtain ⟨_, hts, hpe⟩ := h.pccancel r _ hpc
    apply work_one hr
    · intro x hx; simp [rankWork, lisWork, upd, hx]
    · simp only [rankWork, lisWork, upd, if_true, hpc, hrd, pcWeight, hts, hpe, List.length_nil]
      by_cases hlast : s.rd r + 1 < j.rounds
      · have := sum_change (f := fun n => if s.rd r + 1 < n then 3 * (j.sends n r).length + (2 * j.K + 5) else 0)
          (g := fun n => if s.rd r < n then 3 * (j.sends n r).length + (2 * j.K + 5) else 0) hlast (by
            intro x hx
            by_cases hx' : s.rd r + 1 < x
            · rw [if_pos hx', if_pos (by omega)]
            · rw [if_neg hx', if_neg (by omega)])
        simp only [Nat.lt_irrefl, if_false, Nat.lt_succ_self, if_true] at this
        simp only [if_pos hlast]
        omega
      · simp only [if_neg hlast]
        have : ∑ n ∈ range j.rounds, (if s.rd r + 1 < n then 3 * (j.sends n r).length + (2 * j.K + 5) else 0) ≤
            ∑ n ∈ range j.rounds, (if s.rd r < n then 3 * (j.sends n r).length + (2 * j.K + 5) else 0) := by
          apply Finset.sum_le_sum
          intro n _
          split
          · rw [if_pos (by omega)]
          · omega
        simp only [List.length_nil]
        omega

/-- Two ranks, two consecutive calls that use the same tag.  Nobody sends in the first call; in
the second rank 0 sends to rank 1. -/
def exSameTag : Job where
  P := 2
  K := 1
  rounds := 2
  edges := fun n r _ => if n = 1 ∧ r = 0 then [1] else []
  tag := fun _ _ => 7

/-- The tag requirement is needed: with the same tag in both calls there is an execution in which
rank 1 returns from the *first* call reporting an edge from rank 0, although nobody named it
there.  Rank 0 has gone on to the second call while rank 1 has not yet seen the barrier
complete; the new message matches rank 1's old listener. -/
theorem C07_refuted_same_tag_consecutive_calls :
    ∃ s, Reach exSameTag s ∧ 0 < s.rd 1 ∧ s.got 1 0 0 = [0] ∧ ∀ q, exSameTag.edges 0 q 0 = [] := by
  have r0 := Reach.init (j := exSameTag)
  have r1 := Reach.step r0 (.post _ 0 0 (by decide) (by decide) rfl (by decide))
  have r2 := Reach.step r1 (.posted _ 0 (by decide) (by decide) rfl)
  have r3 := Reach.step r2 (.issued _ 0 (by decide) rfl rfl)
  have r4 := Reach.step r3 (.post _ 1 0 (by decide) (by decide) rfl (by decide))
  have r5 := Reach.step r4 (.posted _ 1 (by decide) (by decide) rfl)
  have r6 := Reach.step r5 (.issued _ 1 (by decide) rfl rfl)
  have r7 := Reach.step r6 (.enter _ 0 (by decide) rfl rfl)
  have r8 := Reach.step r7 (.enter _ 1 (by decide) rfl rfl)
  have r9 := Reach.step r8 (.leave _ 0 (by decide) rfl (by
    intro q hq
    have : q = 0 ∨ q = 1 := by simp [exSameTag] at hq; omega
    rcases this with h | h <;> subst h <;> exact Or.inr ⟨rfl, Or.inl rfl⟩))
  have r10 := Reach.step r9 (.cancelled _ 0 0 (by decide) rfl (by decide) rfl)
  have r11 := Reach.step r10 (.finish _ 0 (by decide) rfl)
  have r12 := Reach.step r11 (.post _ 0 0 (by decide) (by decide) rfl (by decide))
  have r13 := Reach.step r12 (.posted _ 0 (by decide) (by decide) rfl)
  have r14 := Reach.step r13 (.issue _ 0 (0, 1) [] (by decide) rfl rfl)
  have r15 := Reach.step r14 (.matched _ 0 1 0 0 [] [] (by decide) (by decide) (by decide) rfl rfl rfl)
  have r16 := Reach.step r15 (.leave _ 1 (by decide) rfl (by
    intro q hq
    have : q = 0 ∨ q = 1 := by simp [exSameTag] at hq; omega
    rcases this with h | h
    · subst h; exact Or.inl (by decide)
    · subst h; exact Or.inr ⟨rfl, Or.inl rfl⟩))
  have r17 := Reach.step r16 (.rescued _ 1 0 0 (by decide) rfl (by decide) rfl)
  have r18 := Reach.step r17 (.finish _ 1 (by decide) rfl)
  exact ⟨_, r18, by decide, by decide, by intro q; simp [exSameTag]⟩

/-- A job meeting the hypotheses: three ranks, two edge sets, calls with alternating tags. -/
def exJob : Job where
  P := 3
  K := 2
  rounds := 4
  edges := fun n r i => [(r + i + n) % 3, (r + 1) % 3]
  tag := fun n i => 2 * (n % 2) + i

example : exJob.Ok := by
  refine ⟨?_, ?_, ?_⟩
  · intro n i i' _ _ h; simp [exJob] at h; exact h
  · intro n i i' hi hi' h; simp only [exJob] at h hi hi'; omega
  · intro n r i d _ h; simp [exJob] at h ⊢; omega

end Verif.Props
