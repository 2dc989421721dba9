import Verif.Model.Timer
import Verif.Spec.Timer
import Verif.Prelude
/-! # C99: timers -/
namespace Verif.Props
open Verif.Timer Verif.Spec.Timer

theorem run_append (t : Timer) (a b : List (Nat × Op)) :
    run t (a ++ b) = ((run (run t a).1 b).1, (run t a).2.1 ++ (run (run t a).1 b).2.1, (run t a).2.2 ++ (run (run t a).1 b).2.2) := by
  induction a generalizing t with
  | nil => simp [run]
  | cons c a ih => simp [run, ih]

theorem ticks_split (t0 : Nat) (calls : List (Nat × Op)) (a b : Nat) (h : a ≤ b) :
    ticks t0 calls b = ticks t0 calls a +
      ((List.range (b - a)).filter fun i => decide (resetTime t0 calls ≤ a + i) && runningAt calls (a + i)).length := by
  unfold ticks
  obtain ⟨k, rfl⟩ := Nat.exists_eq_add_of_le h
  rw [List.range_add, List.filter_append, List.length_append, List.filter_map, List.length_map, Nat.add_sub_cancel_left]
  rfl

theorem inOrder_append (t0 : Nat) (calls : List (Nat × Op)) (c : Nat × Op) (h : InOrder t0 (calls ++ [c])) :
    InOrder t0 calls ∧ t0 ≤ c.1 ∧ ∀ d ∈ calls, d.1 ≤ c.1 := by
  unfold InOrder at *
  rw [List.map_append, ← List.cons_append, List.pairwise_append] at h
  obtain ⟨h1, _, h3⟩ := h
  exact ⟨h1, h3 _ (by simp) _ (by simp), fun d hd => h3 _ (List.mem_cons_of_mem _ (List.mem_map.mpr ⟨d, hd, rfl⟩)) _ (by simp)⟩

/-- Before a later call, running is as before. -/
theorem runningAt_before (calls : List (Nat × Op)) (c : Nat × Op) (i : Nat) (h : i < c.1) :
    runningAt (calls ++ [c]) i = runningAt calls i := by
  unfold runningAt
  rw [List.filter_append]
  have : ([c].filter fun c => decide (c.1 ≤ i) && decide (IsControl c.2)) = [] := by
    simp; omega
  rw [this, List.append_nil]

/-- From a control call on, it decides. -/
theorem runningAt_after (calls : List (Nat × Op)) (c : Nat × Op) (hc : IsControl c.2) (i : Nat) (h : c.1 ≤ i) :
    runningAt (calls ++ [c]) i = (c.2 != .stop) := by
  unfold runningAt
  rw [List.filter_append]
  have : ([c].filter fun c => decide (c.1 ≤ i) && decide (IsControl c.2)) = [c] := by simp [h, hc]
  rw [this]
  simp [bne]

theorem runningAt_other (calls : List (Nat × Op)) (c : Nat × Op) (hc : ¬ IsControl c.2) (i : Nat) :
    runningAt (calls ++ [c]) i = runningAt calls i := by
  unfold runningAt
  rw [List.filter_append]
  have : ([c].filter fun c => decide (c.1 ≤ i) && decide (IsControl c.2)) = [] := by simp [hc]
  rw [this, List.append_nil]

/-- After all calls, running is given by the last control call. -/
theorem runningAt_end (calls : List (Nat × Op)) (i : Nat) (h : ∀ c ∈ calls, c.1 ≤ i) :
    runningAt calls i = false ↔ Stopped calls := by
  unfold runningAt Stopped
  have : (calls.filter fun c => decide (c.1 ≤ i) && decide (IsControl c.2)) = calls.filter fun c => decide (IsControl c.2) := by
    apply List.filter_congr
    intro c hc
    simp [h c hc]
  rw [this]
  simp [bne]

theorem stopped_append (calls : List (Nat × Op)) (c : Nat × Op) :
    Stopped (calls ++ [c]) ↔ if IsControl c.2 then c.2 = .stop else Stopped calls := by
  unfold Stopped
  rw [List.filter_append]
  by_cases h : IsControl c.2
  · have : ([c].filter fun c => decide (IsControl c.2)) = [c] := by simp [h]
    rw [this, if_pos h]; simp
  · have : ([c].filter fun c => decide (IsControl c.2)) = [] := by simp [h]
    rw [this, if_neg h, List.append_nil]

theorem resetTime_append (t0 : Nat) (calls : List (Nat × Op)) (c : Nat × Op) :
    resetTime t0 (calls ++ [c]) = if c.2 = .start then c.1 else resetTime t0 calls := by
  unfold resetTime
  rw [List.filter_append]
  by_cases h : c.2 = .start
  · have : ([c].filter fun c => decide (c.2 = .start)) = [c] := by simp [h]
    rw [this, if_pos h]; simp
  · have : ([c].filter fun c => decide (c.2 = .start)) = [] := by simp [h]
    rw [this, if_neg h, List.append_nil]

theorem resetTime_le (t0 : Nat) (calls : List (Nat × Op)) (n : Nat) (h0 : t0 ≤ n) (h : ∀ c ∈ calls, c.1 ≤ n) : resetTime t0 calls ≤ n := by
  unfold resetTime
  cases hl : (calls.filter fun c => decide (c.2 = .start)).getLast? with
  | none => exact h0
  | some c => exact h c (List.mem_of_mem_filter (List.mem_of_getLast? hl))

/-- What the members of a timer say. -/
def TimerSays (t : Timer) (t0 : Nat) (calls : List (Nat × Op)) : Prop :=
  (t.start = none ↔ Stopped calls) ∧
    ∀ now : Nat, t0 ≤ now → (∀ c ∈ calls, c.1 ≤ now) → t.acc + sinceStart t now = (ticks t0 calls now : Nat)

theorem filter_all_range (n : Nat) (p : Nat → Bool) (h : ∀ i, i < n → p i = true) : ((List.range n).filter p).length = n := by
  rw [List.filter_eq_self.mpr fun i hi => h i (List.mem_range.mp hi), List.length_range]

theorem filter_no_range (n : Nat) (p : Nat → Bool) (h : ∀ i, i < n → p i = false) : ((List.range n).filter p).length = 0 := by
  rw [List.filter_eq_nil_iff.mpr fun i hi => by simp [h i (List.mem_range.mp hi)], List.length_nil]

theorem holds_create (task : Option String) (t0 : Nat) : TimerSays (create task t0) t0 [] := by
  refine ⟨by simp [create, Stopped], fun now h _ => ?_⟩
  have h1 := ticks_split t0 [] t0 now h
  rw [filter_all_range _ _ (fun i _ => by simp [runningAt, resetTime])] at h1
  have h2 : ticks t0 [] t0 = 0 := filter_no_range _ _ fun i hi => by
    have : ¬ t0 ≤ i := by omega
    simp [resetTime, this]
  rw [h1, h2]
  simp [create, sinceStart]
  omega

/-- A call keeps it. -/
theorem holds_call (t : Timer) (t0 : Nat) (calls : List (Nat × Op)) (c : Nat × Op) (ho : InOrder t0 (calls ++ [c])) (h : TimerSays t t0 calls) :
    TimerSays (call t c.1 c.2).1 t0 (calls ++ [c]) := by
  obtain ⟨_, h0, hle⟩ := inOrder_append t0 calls c ho
  obtain ⟨hs, hv⟩ := h
  obtain ⟨τ, op⟩ := c
  dsimp only at h0 hle ⊢
  have hτ := hv τ h0 hle
  have hreset := resetTime_le t0 calls τ h0 hle
  -- ticks until the call do not change, unless it is `start`
  have hbefore : op ≠ .start → ticks t0 (calls ++ [(τ, op)]) τ = ticks t0 calls τ := by
    intro hne
    unfold ticks
    rw [resetTime_append, if_neg hne]
    congr 1
    apply List.filter_congr
    intro i hi
    rw [runningAt_before _ _ _ (List.mem_range.mp hi)]
  have hafter : ∀ now, (∀ c ∈ calls ++ [(τ, op)], c.1 ≤ now) → τ ≤ now := fun now h => h (τ, op) (by simp)
  have hother : ¬ IsControl op → op ≠ .start → ∀ now, ticks t0 (calls ++ [(τ, op)]) now = ticks t0 calls now := by
    intro hc hne now
    unfold ticks
    rw [resetTime_append, if_neg hne]
    congr 1
    apply List.filter_congr
    intro i _
    rw [runningAt_other _ _ hc]
  cases op with
  | start =>
    refine ⟨by rw [stopped_append]; simp [call, IsControl], fun now _ hn => ?_⟩
    have hn' := hafter now hn
    have h1 := ticks_split t0 (calls ++ [(τ, .start)]) τ now hn'
    rw [filter_all_range _ _ (fun i _ => by
      rw [resetTime_append, if_pos rfl, runningAt_after _ _ (by simp [IsControl]) _ (by simp)]; simp)] at h1
    have h2 : ticks t0 (calls ++ [(τ, .start)]) τ = 0 := filter_no_range _ _ fun i hi => by
      rw [resetTime_append, if_pos rfl]; simp; omega
    rw [h1, h2]
    simp [call, sinceStart]
    omega
  | stop =>
    refine ⟨by rw [stopped_append]; simp [call, IsControl], fun now _ hn => ?_⟩
    have hn' := hafter now hn
    have h1 := ticks_split t0 (calls ++ [(τ, .stop)]) τ now hn'
    rw [filter_no_range _ _ (fun i _ => by
      rw [runningAt_after _ _ (by simp [IsControl]) _ (by simp)]; simp), hbefore (by simp)] at h1
    rw [h1]
    simp only [call, sinceStart] at hτ ⊢
    simpa using hτ
  | resume =>
    refine ⟨by rw [stopped_append]; cases hst : t.start <;> simp [call, IsControl, hst], fun now hn0 hn => ?_⟩
    have hn' := hafter now hn
    have h1 := ticks_split t0 (calls ++ [(τ, .resume)]) τ now hn'
    rw [filter_all_range _ _ (fun i _ => by
      rw [resetTime_append, if_neg (by simp), runningAt_after _ _ (by simp [IsControl]) _ (by simp)]; simp; omega), hbefore (by simp)] at h1
    rw [h1]
    unfold sinceStart at hτ
    cases hst : t.start with
    | none => simp [call, sinceStart, hst] at hτ ⊢; omega
    | some s => simp [call, sinceStart, hst] at hτ ⊢; omega
  | elapsed =>
    refine ⟨by rw [stopped_append]; simpa [call, IsControl] using hs, fun now hn0 hn => ?_⟩
    rw [hother (by simp [IsControl]) (by simp)]
    exact hv now hn0 fun d hd => hn d (by simp [hd])
  | flush =>
    have e : (call t τ .flush).1.start = t.start ∧ (call t τ .flush).1.acc = t.acc := by
      unfold call flush
      dsimp only
      split
      · exact ⟨rfl, rfl⟩
      · split <;> exact ⟨rfl, rfl⟩
    refine ⟨by rw [stopped_append, e.1]; simpa [IsControl] using hs, fun now hn0 hn => ?_⟩
    rw [hother (by simp [IsControl]) (by simp)]
    have := hv now hn0 fun d hd => hn d (by simp [hd])
    unfold sinceStart at this ⊢
    rw [e.1, e.2]
    exact this

theorem holds_run (task : Option String) (t0 : Nat) (calls : List (Nat × Op)) (ho : InOrder t0 calls) :
    TimerSays (run (create task t0) calls).1 t0 calls := by
  induction calls using List.reverseRecOn with
  | nil => exact holds_create task t0
  | append_singleton calls c ih =>
    rw [run_append]
    exact holds_call _ _ _ _ ho (ih (inOrder_append _ _ _ ho).1)

/-- C99: results of calls after any calls. -/
theorem C99_elapsed (task : Option String) (t0 : Nat) (calls : List (Nat × Op)) (τ : Nat) (op : Op)
    (ho : InOrder t0 (calls ++ [(τ, op)])) :
    (call (run (create task t0) calls).1 τ op).2.2 =
      match op with
      | .start => .nothing
      | .resume => .nothing
      | .stop => .duration (ticks t0 calls τ : Nat)
      | .elapsed => .duration (ticks t0 calls τ : Nat)
      | .flush => if (calls.filter fun c => decide (IsControl c.2)).getLast?.map Prod.snd = some .stop then .nothing else .notStopped := by
  obtain ⟨h1, h0, hle⟩ := inOrder_append t0 calls _ ho
  obtain ⟨hs, hv⟩ := holds_run task t0 calls h1
  have hτ := hv τ h0 hle
  cases op with
  | start => rfl
  | resume => rfl
  | stop => exact congrArg Res.duration hτ
  | elapsed =>
    refine congrArg Res.duration ?_
    rw [Int.add_comm]; exact hτ
  | flush =>
    unfold call flush
    dsimp only
    by_cases hst : Stopped calls
    · rw [if_pos (show _ = _ from hst), hs.mpr hst]
      simp only [Option.isSome_none, Bool.false_eq_true, if_false]
      split <;> rfl
    · rw [if_neg (show ¬ _ = _ from hst)]
      have : (run (create task t0) calls).1.start.isSome = true := by
        cases hx : (run (create task t0) calls).1.start with
        | none => exact absurd (hs.mp hx) hst
        | some x => rfl
      rw [if_pos this]

theorem task_none (t : Timer) (calls : List (Nat × Op)) (h : t.task = none) :
    (run t calls).1.task = none ∧ (run t calls).2.1 = [] := by
  induction calls generalizing t with
  | nil => exact ⟨h, rfl⟩
  | cons c cs ih =>
    have hc : (call t c.1 c.2).1.task = none ∧ (call t c.1 c.2).2.1 = [] := by
      unfold call
      split
      · exact ⟨h, rfl⟩
      · exact ⟨h, rfl⟩
      · exact ⟨h, rfl⟩
      · exact ⟨h, rfl⟩
      · unfold flush
        rw [h]
        split <;> exact ⟨h, rfl⟩
    obtain ⟨h1, h2⟩ := ih _ hc.1
    exact ⟨h1, by simp [run, hc.2, h2]⟩

theorem destroy_none (t : Timer) (now : Nat) (h : t.task = none) : destroy t now = [] := by
  unfold destroy
  rw [h]
  split <;> simp_all

/-- While no stopped timer is flushed, nothing is registered. -/
theorem task_some (name : String) (t0 : Nat) (calls : List (Nat × Op)) (ho : InOrder t0 calls)
    (hn : ∀ p σ q, calls = p ++ (σ, .flush) :: q → ¬ Stopped p) :
    (run (create (some name) t0) calls).1.task = some name ∧ (run (create (some name) t0) calls).2.1 = [] := by
  induction calls using List.reverseRecOn with
  | nil => exact ⟨rfl, rfl⟩
  | append_singleton calls c ih =>
    have ho' := (inOrder_append _ _ _ ho).1
    obtain ⟨h1, h2⟩ := ih ho' fun p σ q e => hn p σ (q ++ [c]) (by rw [e]; simp)
    obtain ⟨hs, _⟩ := holds_run (some name) t0 calls ho'
    rw [run_append]
    simp only [run, h2, List.nil_append, List.append_nil]
    obtain ⟨τ, op⟩ := c
    cases op with
    | start => exact ⟨h1, rfl⟩
    | stop => exact ⟨h1, rfl⟩
    | resume => exact ⟨h1, rfl⟩
    | elapsed => exact ⟨h1, rfl⟩
    | flush =>
      have hst := hn calls τ [] rfl
      have : (run (create (some name) t0) calls).1.start.isSome = true := by
        cases hx : (run (create (some name) t0) calls).1.start with
        | none => exact absurd (hs.mp hx) hst
        | some x => rfl
      unfold call flush
      dsimp only
      rw [if_pos this]
      exact ⟨h1, rfl⟩

/-- C99: what a named timer registers in its life. -/
theorem C99_log (name : String) (t0 : Nat) (calls : List (Nat × Op)) (now : Nat) (h0 : t0 ≤ now) (hle : ∀ c ∈ calls, c.1 ≤ now)
    (ho : InOrder t0 calls) :
    (∀ pre τ, FirstFlush calls pre τ → (run (create (some name) t0) calls).2.1 ++ destroy (run (create (some name) t0) calls).1 now =
      [(name, Int.ofNat (ticks t0 pre τ))]) ∧
    ((∀ p σ q, calls = p ++ (σ, .flush) :: q → ¬ Stopped p) →
      (¬ Stopped calls → (run (create (some name) t0) calls).2.1 ++ destroy (run (create (some name) t0) calls).1 now =
        [(name, Int.ofNat (ticks t0 calls now))]) ∧
      (Stopped calls → (run (create (some name) t0) calls).2.1 ++ destroy (run (create (some name) t0) calls).1 now = [])) := by
  constructor
  · rintro pre τ ⟨⟨post, rfl⟩, hst, hfirst⟩
    have ho1 : InOrder t0 (pre ++ [(τ, .flush)]) := by
      have : pre ++ (τ, Op.flush) :: post = (pre ++ [(τ, .flush)]) ++ post := by simp
      rw [this] at ho
      unfold InOrder at ho ⊢
      rw [List.map_append, ← List.cons_append, List.pairwise_append] at ho
      exact ho.1
    obtain ⟨ho2, h0', hle'⟩ := inOrder_append _ _ _ ho1
    obtain ⟨h1, h2⟩ := task_some name t0 pre ho2 hfirst
    obtain ⟨hs, hv⟩ := holds_run (some name) t0 pre ho2
    have hn := hs.mpr hst
    have hval := hv τ h0' hle'
    unfold sinceStart at hval
    rw [hn] at hval
    dsimp only at hval
    have hf : call (run (create (some name) t0) pre).1 τ .flush =
        ({ (run (create (some name) t0) pre).1 with task := none }, [(name, (run (create (some name) t0) pre).1.acc)], .nothing) := by
      unfold call flush
      dsimp only
      rw [hn, h1]
      rfl
    rw [run_append]
    simp only [run, h2, hf, List.nil_append]
    obtain ⟨h3, h4⟩ := task_none { (run (create (some name) t0) pre).1 with task := none } post rfl
    rw [h4, destroy_none _ _ h3, Int.ofNat_eq_natCast, ← hval]
    simp
  · intro hn
    obtain ⟨h1, h2⟩ := task_some name t0 calls ho hn
    obtain ⟨hs, hv⟩ := holds_run (some name) t0 calls ho
    constructor
    · intro hst
      cases hx : (run (create (some name) t0) calls).1.start with
      | none => exact absurd (hs.mp hx) hst
      | some x =>
        rw [h2, Int.ofNat_eq_natCast, ← hv now h0 hle]
        unfold destroy
        rw [h1, hx]
        rfl
    · intro hst
      have hx := hs.mpr hst
      rw [h2]
      unfold destroy
      rw [hx]
      rfl

theorem exists_first (calls : List (Nat × Op)) :
    (∃ pre τ, FirstFlush calls pre τ) ∨ ∀ p σ q, calls = p ++ (σ, .flush) :: q → ¬ Stopped p := by
  by_cases h : ∃ n p σ q, p.length = n ∧ calls = p ++ (σ, .flush) :: q ∧ Stopped p
  · classical
    obtain ⟨p, σ, q, h1, h2, h3⟩ := Nat.find_spec h
    refine .inl ⟨p, σ, ⟨q, h2⟩, h3, fun p' σ' q' e hp => ?_⟩
    exact Nat.find_min h (m := p'.length) (by rw [← h1, e]; simp) ⟨p', σ', q' ++ (σ, .flush) :: q, rfl, by rw [h2, e]; simp, hp⟩
  · exact .inr fun p σ q e hp => h ⟨_, p, σ, q, rfl, e, hp⟩

/-- C99: a timer registers at most one timing, a timer without a name none. -/
theorem C99_once (task : Option String) (t0 : Nat) (calls : List (Nat × Op)) (now : Nat) (h0 : t0 ≤ now) (hle : ∀ c ∈ calls, c.1 ≤ now)
    (ho : InOrder t0 calls) :
    ((run (create task t0) calls).2.1 ++ destroy (run (create task t0) calls).1 now).length ≤ 1 ∧
      (task = none → (run (create task t0) calls).2.1 ++ destroy (run (create task t0) calls).1 now = []) := by
  cases task with
  | none =>
    obtain ⟨h1, h2⟩ := task_none (create none t0) calls rfl
    rw [h2, destroy_none _ _ h1]
    simp
  | some name =>
    refine ⟨?_, by simp⟩
    obtain ⟨ha, hb⟩ := C99_log name t0 calls now h0 hle ho
    rcases exists_first calls with ⟨pre, τ, h⟩ | h
    · rw [ha pre τ h]; simp
    · by_cases hst : Stopped calls
      · rw [(hb h).2 hst]; simp
      · rw [(hb h).1 hst]; simp

/-- C99: a block `with Timer(name)` registers its duration, once. -/
theorem C99_with (name : String) (t0 enter leave now : Nat) (body : List (Nat × Op)) (hb : ∀ c ∈ body, c.2 = .elapsed)
    (ho : InOrder t0 ((enter, .start) :: body ++ [(leave, .stop), (leave, .flush)])) :
    (withBlock (create (some name) t0) enter leave body).2.1 ++ destroy (withBlock (create (some name) t0) enter leave body).1 now =
      [(name, (leave : Int) - enter)] := by
  have hbody : ∀ (b : List (Nat × Op)) (t : Timer), (∀ c ∈ b, c.2 = .elapsed) → (run t b).1 = t ∧ (run t b).2.1 = [] := by
    intro b
    induction b with
    | nil => intro t _; exact ⟨rfl, rfl⟩
    | cons c b ih =>
      intro t h
      have hc : call t c.1 c.2 = (t, [], .duration (sinceStart t c.1 + t.acc)) := by rw [h c (by simp)]; rfl
      have := ih t fun d hd => h d (by simp [hd])
      exact ⟨by simp [run, hc, this.1], by simp [run, hc, this.2]⟩
  unfold withBlock
  rw [run_append]
  obtain ⟨h1, h2⟩ := hbody body { create (some name) t0 with acc := 0, start := some enter } hb
  simp only [run, List.cons_append, call, h1, h2]
  simp [create, sinceStart, flush, destroy]

theorem lookup_map_other (L : Log) (r : Reg) (task : String) (h : task ≠ r.1) :
    (L.map fun e => if e.1 = r.1 then (e.1, e.2.1 + 1, e.2.2 + r.2) else e).lookup task = L.lookup task := by
  induction L with
  | nil => rfl
  | cons e L ih =>
    rw [List.map_cons, List.lookup_cons, List.lookup_cons, ih]
    by_cases he : e.1 = r.1
    · rw [if_pos he]
      have : (task == e.1) = false := by rw [he]; simpa using h
      simp [this]
    · rw [if_neg he]

theorem lookup_map_same (L : Log) (r : Reg) (e : Nat × Int) (h : L.lookup r.1 = some e) :
    (L.map fun e => if e.1 = r.1 then (e.1, e.2.1 + 1, e.2.2 + r.2) else e).lookup r.1 = some (e.1 + 1, e.2 + r.2) := by
  induction L with
  | nil => simp at h
  | cons x L ih =>
    rw [List.lookup_cons] at h
    rw [List.map_cons, List.lookup_cons]
    by_cases hx : x.1 = r.1
    · have hb : (r.1 == x.1) = true := by rw [hx]; simp
      rw [hb] at h
      dsimp only at h
      rw [if_pos hx, hb]
      simp only [Option.some.injEq] at h
      rw [h]
    · have hb : (r.1 == x.1) = false := by simpa using fun h => hx h.symm
      rw [hb] at h
      rw [if_neg hx, hb]
      exact ih h

theorem lookup_append_one (L : Log) (r : String × Nat × Int) (task : String) :
    (L ++ [r]).lookup task = (L.lookup task).or (if task = r.1 then some r.2 else none) := by
  induction L with
  | nil =>
    rw [List.nil_append, List.lookup_cons, List.lookup_nil]
    by_cases h : task = r.1
    · subst h; simp
    · have : (task == r.1) = false := by simpa using h
      simp [this, h]
  | cons x L ih =>
    rw [List.cons_append, List.lookup_cons, List.lookup_cons, ih]
    cases task == x.1 <;> rfl

/-- C99: the logger has the number and the sum of all timings registered for a task. -/
theorem C99_timing (regs : List Reg) (task : String) :
    timing (regs.foldl register []) task =
      if (regs.filter fun r => r.1 == task) = [] then none
      else some ((regs.filter fun r => r.1 == task).length, ((regs.filter fun r => r.1 == task).map Prod.snd).sum) := by
  induction regs using List.reverseRecOn with
  | nil => rfl
  | append_singleton regs r ih =>
    rw [List.foldl_append, List.foldl_cons, List.foldl_nil]
    unfold timing at ih ⊢
    generalize regs.foldl register [] = L at ih ⊢
    unfold register
    rw [List.filter_append]
    by_cases h : r.1 = task
    · subst h
      have hf : ([r].filter fun x => x.1 == r.1) = [r] := by simp
      rw [hf, if_neg (by simp)]
      by_cases he : (regs.filter fun x => x.1 == r.1) = []
      · rw [if_pos he] at ih
        rw [ih, he]
        dsimp only
        rw [lookup_append_one, ih]
        simp
      · rw [if_neg he] at ih
        rw [ih]
        dsimp only
        rw [lookup_map_same L r _ ih]
        simp
    · have hf : ([r].filter fun x => x.1 == task) = [] := by simpa using h
      rw [hf, List.append_nil, ← ih]
      split
      · exact lookup_map_other L r task fun e => h e.symm
      · rw [lookup_append_one, if_neg (fun e => h e.symm), Option.or_none]

namespace C99ex

/-- Created at 0, stopped at 3, resumed at 5, read at 6, stopped at 9. -/
def calls : List (Nat × Op) := [(3, .stop), (5, .resume), (6, .elapsed), (9, .stop)]

example : InOrder 0 calls ∧ ticks 0 calls 12 = 7 ∧ Stopped calls := by
  refine ⟨by unfold InOrder; decide, by decide +kernel, by unfold Stopped; decide +kernel⟩

example : FirstFlush ([(1, .flush)] ++ calls ++ [(10, .flush)]) ([(1, .flush)] ++ calls) 10 := by
  refine ⟨⟨[], by decide⟩, by unfold Stopped; decide +kernel, ?_⟩
  intro p σ q h
  have h' : ((1, Op.flush) :: calls) = p ++ (σ, .flush) :: q := h
  cases p with
  | nil => unfold Stopped; decide
  | cons a p =>
    have h2 : calls = p ++ (σ, .flush) :: q := (List.cons.inj h').2
    have : (σ, Op.flush) ∈ calls := by rw [h2]; simp
    revert this
    simp [calls]

example : (withBlock (create (some "a") 0) 2 8 [(4, .elapsed)]).2 = ([("a", 6)], [.nothing, .duration 2, .duration 6, .nothing]) := by decide +kernel

example : timing ([("a", 3), ("b", 4), ("a", 5)].foldl register []) "a" = some (2, 8) := by decide +kernel

end C99ex

/-- C99: a timer that is stopped when it is destroyed is not registered, contrary to the documentation of the destructor. -/
theorem C99_refuted_stopped : ∃ calls now, InOrder 0 calls ∧ ticks 0 calls now = 3 ∧
    (run (create (some "a") 0) calls).2.1 ++ destroy (run (create (some "a") 0) calls).1 now = [] :=
  ⟨[(3, .stop)], 5, by unfold InOrder; decide, by decide +kernel, by decide +kernel⟩

/-- C99: the second `with` block of one timer is not registered. -/
theorem C99_refuted_twice : ∃ t0 a b c d, t0 < a ∧ a < b ∧ b < c ∧ c < d ∧
    (withBlock (withBlock (create (some "a") t0) a b []).1 c d []).2.1 = [] :=
  ⟨0, 1, 2, 3, 4, by decide, by decide, by decide, by decide, by decide +kernel⟩

end Verif.Props
