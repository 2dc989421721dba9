import Verif.Spec.MpiJit
import Verif.Prelude
import Mathlib.Algebra.Order.BigOperators.Group.Finset
/-!
# C102: just-in-time compilation on several ranks
-/
namespace Verif.Props
open Verif.MpiJit Verif.Spec.MpiJit

section jit
variable {V : Type}

theorem upd_self {α : Type} (f : Nat → α) (r : Nat) (x : α) : upd f r x r = x := if_pos rfl
theorem upd_other {α : Type} (f : Nat → α) (r q : Nat) (x : α) (h : q ≠ r) : upd f r x q = f q := if_neg h

theorem callsOf_append (r : Nat) (tr : List (Event V)) (e : Event V) : callsOf r (tr ++ [e]) = callsOf r tr ++ if rankOf e = r then [e] else [] := by
  unfold callsOf
  rw [List.filter_append]
  congr 1
  by_cases h : rankOf e = r <;> simp [h]

def AllZero (P : Nat) (c : Nat → Option Nat) : Prop := ∀ q, q < P → c q = some 0
def SomeOne (P : Nat) (c : Nat → Option Nat) : Prop := (∀ q, q < P → c q ≠ none) ∧ ∃ q, q < P ∧ c q = some 1

/-- A rank other than 0 after rank 0 has succeeded; `tr` are its calls. -/
inductive OtherOk (P : Nat) (c : Nat → Option Nat) (r : Nat) : Pc V → List (Event V) → Prop
  | before (p : Pc V) : p = .entry ∨ p = .bcast none none ∨ p = .ready → c r = none → OtherOk P c r p []
  | calling : c r = none → OtherOk P c r .calling [.begins r]
  | good (v : V) : c r = some 0 → OtherOk P c r (.reduce 0 (some v)) [.begins r, .ends r (.ok v)]
  | bad : c r = some 1 → OtherOk P c r (.reduce 1 none) [.begins r, .ends r .fail]
  | done (v : V) : AllZero P c → OtherOk P c r (.returned (some v)) [.begins r, .ends r (.ok v)]
  | failedGood (v : V) : SomeOne P c → c r = some 0 → OtherOk P c r (.raised .cache) [.begins r, .ends r (.ok v)]
  | failedBad : SomeOne P c → c r = some 1 → OtherOk P c r (.raised .cache) [.begins r, .ends r .fail]
  | left : c r = none → OtherOk P c r .left [.begins r, .ends r .interrupt]

/-- Rank 0 after it has succeeded. -/
inductive RootOk (P : Nat) (c : Nat → Option Nat) (v : V) : Pc V → Prop
  | wait : RootOk P c v (.reduce 0 (some v))
  | done : AllZero P c → RootOk P c v (.returned (some v))
  | failed : SomeOne P c → RootOk P c v (.raised .cache)

/-- What holds at all times. -/
inductive Inv (P : Nat) (s : St V) : Prop
  | before : s.sent = none → (∀ r, r ≠ 0 → r < P → s.pc r = .entry ∨ s.pc r = .bcast none none) → (∀ q, s.contrib q = none) →
      ((s.pc 0 = .entry ∧ s.trace = []) ∨ (s.pc 0 = .calling ∧ s.trace = [.begins 0]) ∨
        ∃ o, s.pc 0 = afterRoot o ∧ s.trace = [.begins 0, .ends 0 o]) → Inv P s
  | fail : s.sent = some 1 → s.pc 0 = .raised .compilation → s.trace = [.begins 0, .ends 0 .fail] → (∀ q, s.contrib q = none) →
      (∀ r, r ≠ 0 → r < P → s.pc r = .entry ∨ s.pc r = .bcast none none ∨ s.pc r = .raised .rankZero) → Inv P s
  | good (v : V) (tr : List (Event V)) : s.sent = some 0 → s.trace = .begins 0 :: .ends 0 (.ok v) :: tr → (∀ e ∈ tr, rankOf e ≠ 0) →
      s.contrib 0 = some 0 → RootOk P s.contrib v (s.pc 0) →
      (∀ r, r ≠ 0 → r < P → OtherOk P s.contrib r (s.pc r) (callsOf r tr)) → Inv P s

/-- Other ranks are not affected by the value that a rank hands to the reduction. -/
theorem OtherOk.frame {P : Nat} {c c' : Nat → Option Nat} {r : Nat} {p : Pc V} {l : List (Event V)} (h : OtherOk P c r p l)
    (hr : c' r = c r) (hc : (∀ q, q < P → c q ≠ none) → ∀ q, q < P → c' q = c q) : OtherOk P c' r p l := by
  have hz : AllZero P c → AllZero P c' := fun h q hq => by rw [hc (fun q hq => by rw [h q hq]; simp) q hq]; exact h q hq
  have ho : SomeOne P c → SomeOne P c' := fun h => by
    have e := hc h.1
    exact ⟨fun q hq => by rw [e q hq]; exact h.1 q hq, by obtain ⟨q, hq, h1⟩ := h.2; exact ⟨q, hq, by rw [e q hq]; exact h1⟩⟩
  cases h with
  | before p hp hn => exact .before p hp (hr.trans hn)
  | calling hn => exact .calling (hr.trans hn)
  | good v hn => exact .good v (hr.trans hn)
  | bad hn => exact .bad (hr.trans hn)
  | done v h => exact .done v (hz h)
  | failedGood v h hn => exact .failedGood v (ho h) (hr.trans hn)
  | failedBad h hn => exact .failedBad (ho h) (hr.trans hn)
  | left hn => exact .left (hr.trans hn)

theorem RootOk.frame {P : Nat} {c c' : Nat → Option Nat} {v : V} {p : Pc V} (h : RootOk P c v p)
    (hc : (∀ q, q < P → c q ≠ none) → ∀ q, q < P → c' q = c q) : RootOk P c' v p := by
  cases h with
  | wait => exact .wait
  | done h => exact .done fun q hq => by rw [hc (fun q hq => by rw [h q hq]; simp) q hq]; exact h q hq
  | failed h =>
    have e := hc h.1
    exact .failed ⟨fun q hq => by rw [e q hq]; exact h.1 q hq, by obtain ⟨q, hq, h1⟩ := h.2; exact ⟨q, hq, by rw [e q hq]; exact h1⟩⟩

theorem anyFail_zero (P : Nat) (c : Nat → Option Nat) : anyFail P c = 0 ↔ ∀ q, q < P → (c q).getD 0 = 0 := by
  induction P with
  | zero => simp [anyFail]
  | succ P ih =>
    have : anyFail (P + 1) c = max (anyFail P c) ((c P).getD 0) := by
      unfold anyFail
      rw [List.range_succ, List.foldl_append]
      rfl
    rw [this]
    constructor
    · intro h q hq
      have h1 : anyFail P c = 0 := by omega
      rcases Nat.lt_succ_iff_lt_or_eq.mp hq with hq | rfl
      · exact ih.mp h1 q hq
      · omega
    · intro h
      have h1 := ih.mpr fun q hq => h q (by omega)
      have h2 := h P (by omega)
      omega

/-- Values handed to the reduction are 0 or 1. -/
theorem contrib_cases {P : Nat} {c : Nat → Option Nat} {pc : Nat → Pc V} {tr : List (Event V)} (h0 : c 0 = some 0)
    (h : ∀ r, r ≠ 0 → r < P → OtherOk P c r (pc r) (callsOf r tr)) (hall : ∀ q, q < P → c q ≠ none) (q : Nat) (hq : q < P) :
    c q = some 0 ∨ c q = some 1 := by
  by_cases hq0 : q = 0
  · subst hq0; exact Or.inl h0
  · have hn := hall q hq
    have := h q hq0 hq
    generalize pc q = p at this
    generalize callsOf q tr = l at this
    cases this with
    | before p hp hn' => exact absurd hn' hn
    | calling hn' => exact absurd hn' hn
    | good v hn' => exact Or.inl hn'
    | bad hn' => exact Or.inr hn'
    | done v h => exact Or.inl (h q hq)
    | failedGood v h hn' => exact Or.inl hn'
    | failedBad h hn' => exact Or.inr hn'
    | left hn' => exact absurd hn' hn

theorem callsOf_nil (tr : List (Event V)) (h : ∀ e ∈ tr, rankOf e ≠ 0) : callsOf 0 tr = [] := by
  unfold callsOf
  rw [List.filter_eq_nil_iff]
  intro e he
  simpa using h e he

theorem inv_start (P : Nat) : Inv P (start : St V) :=
  .before rfl (fun _ _ _ => Or.inl rfl) (fun _ => rfl) (Or.inl ⟨rfl, rfl⟩)

theorem inv_step (P : Nat) (out : Nat → List (Event V) → Outcome V) (s s' : St V) (h : Inv P s) (hs : Step P out s s') : Inv P s' := by
  cases hs with
  | rootCall hp =>
    cases h with
    | before h1 h2 h3 h4 =>
      refine .before h1 (fun r hr hrP => by dsimp only; rw [upd_other _ _ _ _ hr]; exact h2 r hr hrP) h3 (Or.inr (Or.inl ⟨by dsimp only; exact upd_self _ _ _, ?_⟩))
      rcases h4 with ⟨-, h⟩ | ⟨h, -⟩ | ⟨o, h, -⟩
      · dsimp only; rw [h]; rfl
      · rw [hp] at h; cases h
      · rw [hp] at h; cases o <;> cases h
    | fail h1 h2 => rw [hp] at h2; cases h2
    | good v tr h1 h2 h3 h4 h5 => rw [hp] at h5; cases h5
  | otherEntry r hr hrP hp =>
    have hup : ∀ q, q ≠ r → upd s.pc r (.bcast none none) q = s.pc q := fun q hq => upd_other _ _ _ _ hq
    have h0 : upd s.pc r (.bcast none none) 0 = s.pc 0 := hup 0 hr.symm
    cases h with
    | before h1 h2 h3 h4 =>
      refine .before h1 (fun q hq hqP => ?_) h3 (by dsimp only; rw [h0]; exact h4)
      dsimp only
      by_cases e : q = r
      · subst e; exact Or.inr (upd_self _ _ _)
      · rw [hup q e]; exact h2 q hq hqP
    | fail h1 h2 h3 h4 h5 =>
      refine .fail h1 (by dsimp only; rw [h0]; exact h2) h3 h4 (fun q hq hqP => ?_)
      dsimp only
      by_cases e : q = r
      · subst e; exact Or.inr (Or.inl (upd_self _ _ _))
      · rw [hup q e]; exact h5 q hq hqP
    | good v tr h1 h2 h3 h4 h5 h6 =>
      refine .good v tr h1 h2 h3 h4 (by dsimp only; rw [h0]; exact h5) (fun q hq hqP => ?_)
      dsimp only
      by_cases e : q = r
      · subst e
        have := h6 q hq hqP
        rw [hp] at this
        rw [upd_self]
        generalize callsOf q tr = l at this ⊢
        cases this with
        | before p hp hn => exact .before _ (Or.inr (Or.inl rfl)) hn
      · rw [hup q e]; exact h6 q hq hqP
  | rootEnd hp =>
    cases h with
    | before h1 h2 h3 h4 =>
      refine .before h1 (fun r hr hrP => by dsimp only; rw [upd_other _ _ _ _ hr]; exact h2 r hr hrP) h3 (Or.inr (Or.inr ⟨out 0 s.trace, by dsimp only; exact upd_self _ _ _, ?_⟩))
      rcases h4 with ⟨h, -⟩ | ⟨-, h⟩ | ⟨o, h, -⟩
      · rw [hp] at h; cases h
      · dsimp only; rw [h]; rfl
      · rw [hp] at h; cases o <;> cases h
    | fail h1 h2 => rw [hp] at h2; cases h2
    | good v tr h1 h2 h3 h4 h5 => rw [hp] at h5; cases h5
  | rootFail st o hp hst =>
    cases h with
    | before h1 h2 h3 h4 =>
      rcases h4 with ⟨h, -⟩ | ⟨h, -⟩ | ⟨o', h, ht⟩
      · rw [hp] at h; cases h
      · rw [hp] at h; cases h
      · rw [hp] at h
        cases o' with
        | ok v => injection h with h _; exact absurd (Option.some.inj h) hst
        | interrupt => cases h
        | fail =>
          injection h with h _
          have hst1 := Option.some.inj h
          subst hst1
          refine .fail rfl (by dsimp only; exact upd_self _ _ _) ht h3 (fun r hr hrP => ?_)
          dsimp only
          rw [upd_other _ _ _ _ hr]
          exact (h2 r hr hrP).imp id Or.inl
    | fail h1 h2 => rw [hp] at h2; cases h2
    | good v tr h1 h2 h3 h4 h5 => rw [hp] at h5; cases h5
  | rootSent o hp =>
    cases h with
    | before h1 h2 h3 h4 =>
      rcases h4 with ⟨h, -⟩ | ⟨h, -⟩ | ⟨o', h, ht⟩
      · rw [hp] at h; cases h
      · rw [hp] at h; cases h
      · rw [hp] at h
        cases o' with
        | fail => injection h with h _; cases h
        | interrupt => cases h
        | ok v =>
          injection h with _ h
          subst h
          refine .good v [] rfl ht (by simp) (by dsimp only; exact upd_self _ _ _) ?_ (fun r hr hrP => ?_)
          · dsimp only; rw [upd_self]; exact .wait
          · dsimp only
            rw [upd_other _ _ _ _ hr]
            exact .before _ ((h2 r hr hrP).imp id Or.inl) (by rw [upd_other _ _ _ _ hr]; exact h3 r)
    | fail h1 h2 => rw [hp] at h2; cases h2
    | good v tr h1 h2 h3 h4 h5 => rw [hp] at h5; cases h5
  | receive r st m o hr hrP hp hsent =>
    have hup : ∀ q (x : Pc V), q ≠ r → upd s.pc r x q = s.pc q := fun q x hq => upd_other _ _ _ _ hq
    cases h with
    | before h1 => rw [h1] at hsent; cases hsent
    | fail h1 h2 h3 h4 h5 =>
      rw [h1] at hsent
      have := Option.some.inj hsent
      subst this
      refine .fail h1 (by dsimp only; rw [hup 0 _ hr.symm]; exact h2) h3 h4 (fun q hq hqP => ?_)
      dsimp only
      by_cases e : q = r
      · subst e; rw [upd_self]; exact Or.inr (Or.inr rfl)
      · rw [hup q _ e]; exact h5 q hq hqP
    | good v tr h1 h2 h3 h4 h5 h6 =>
      rw [h1] at hsent
      have := Option.some.inj hsent
      subst this
      refine .good v tr h1 h2 h3 h4 (by dsimp only; rw [hup 0 _ hr.symm]; exact h5) (fun q hq hqP => ?_)
      dsimp only
      by_cases e : q = r
      · subst e
        have := h6 q hq hqP
        rw [hp] at this
        rw [upd_self]
        generalize callsOf q tr = l at this ⊢
        cases this with
        | before p hp hn => exact .before _ (Or.inr (Or.inr rfl)) hn
      · rw [hup q _ e]; exact h6 q hq hqP
  | otherCall r hr hrP hp =>
    have hup : ∀ q (x : Pc V), q ≠ r → upd s.pc r x q = s.pc q := fun q x hq => upd_other _ _ _ _ hq
    cases h with
    | before h1 h2 => rcases h2 r hr hrP with h | h <;> rw [hp] at h <;> cases h
    | fail h1 h2 h3 h4 h5 => rcases h5 r hr hrP with h | h | h <;> rw [hp] at h <;> cases h
    | good v tr h1 h2 h3 h4 h5 h6 =>
      refine .good v (tr ++ [.begins r]) h1 (by dsimp only; rw [h2]; rfl) ?_ h4 (by dsimp only; rw [hup 0 _ hr.symm]; exact h5) (fun q hq hqP => ?_)
      · intro e he
        rcases List.mem_append.mp he with he | he
        · exact h3 e he
        · rw [List.mem_singleton.mp he]; exact hr
      · dsimp only
        rw [callsOf_append]
        by_cases e : q = r
        · subst e
          have := h6 q hq hqP
          rw [hp] at this
          rw [upd_self, if_pos (show rankOf (Event.begins q) = q from rfl)]
          generalize callsOf q tr = l at this ⊢
          cases this with
          | before p hp hn => exact .calling hn
        · rw [hup q _ e, if_neg (fun h => e h.symm), List.append_nil]; exact h6 q hq hqP
  | otherEnd r hr hrP hp =>
    have hup : ∀ q (x : Pc V), q ≠ r → upd s.pc r x q = s.pc q := fun q x hq => upd_other _ _ _ _ hq
    cases h with
    | before h1 h2 => rcases h2 r hr hrP with h | h <;> rw [hp] at h <;> cases h
    | fail h1 h2 h3 h4 h5 => rcases h5 r hr hrP with h | h | h <;> rw [hp] at h <;> cases h
    | good v tr h1 h2 h3 h4 h5 h6 =>
      have hcr : s.contrib r = none ∧ callsOf r tr = [.begins r] := by
        have := h6 r hr hrP
        rw [hp] at this
        generalize callsOf r tr = l at this ⊢
        cases this with
        | before p hp hn => rcases hp with h | h | h <;> cases h
        | calling hn => exact ⟨hn, rfl⟩
      have hframe : ∀ x, (∀ q, q < P → s.contrib q ≠ none) → ∀ q, q < P → upd s.contrib r x q = s.contrib q :=
        fun x h => absurd hcr.1 (h r hrP)
      refine .good v (tr ++ [.ends r (out r s.trace)]) h1 (by dsimp only; rw [h2]; rfl) ?_ ?_ ?_ (fun q hq hqP => ?_)
      · intro e he
        rcases List.mem_append.mp he with he | he
        · exact h3 e he
        · rw [List.mem_singleton.mp he]; exact hr
      · dsimp only; rw [upd_other _ _ _ _ hr.symm]; exact h4
      · dsimp only
        rw [hup 0 _ hr.symm]
        exact h5.frame (hframe _)
      · dsimp only
        rw [callsOf_append]
        by_cases e : q = r
        · subst e
          rw [upd_self, if_pos (show rankOf (Event.ends q (out q s.trace)) = q from rfl), hcr.2]
          cases out q s.trace with
          | ok v => exact .good v (upd_self _ _ _)
          | fail => exact .bad (upd_self _ _ _)
          | interrupt => exact .left (upd_self _ _ _)
        · rw [hup q _ e, if_neg (fun h => e h.symm), List.append_nil]
          exact (h6 q hq hqP).frame (upd_other _ _ _ _ e) (hframe _)
  | reduced r st o hrP hp hall =>
    have hup : ∀ q (x : Pc V), q ≠ r → upd s.pc r x q = s.pc q := fun q x hq => upd_other _ _ _ _ hq
    cases h with
    | before h1 h2 h3 => exact absurd (h3 r) (hall r hrP)
    | fail h1 h2 h3 h4 h5 => exact absurd (h4 r) (hall r hrP)
    | good v tr h1 h2 h3 h4 h5 h6 =>
      have hc := contrib_cases h4 h6 hall
      have hz : anyFail P s.contrib = 0 → AllZero P s.contrib := by
        intro h q hq
        have := (anyFail_zero P s.contrib).mp h q hq
        rcases hc q hq with h | h
        · exact h
        · rw [h] at this; cases this
      have ho : anyFail P s.contrib ≠ 0 → SomeOne P s.contrib := by
        intro h
        refine ⟨hall, ?_⟩
        by_contra hno
        push Not at hno
        refine h ((anyFail_zero P s.contrib).mpr fun q hq => ?_)
        rcases hc q hq with h | h
        · rw [h]; rfl
        · exact absurd h (hno q hq)
      refine .good v tr h1 h2 h3 h4 ?_ (fun q hq hqP => ?_)
      · dsimp only
        by_cases e : r = 0
        · subst e
          rw [upd_self]
          rw [hp] at h5
          cases h5
          by_cases hf : anyFail P s.contrib = 0
          · rw [if_neg (by simpa using hf)]; exact .done (hz hf)
          · rw [if_pos hf]; exact .failed (ho hf)
        · rw [hup 0 _ (fun h => e h.symm)]; exact h5
      · dsimp only
        by_cases e : q = r
        · subst e
          rw [upd_self]
          have := h6 q hq hqP
          rw [hp] at this
          generalize callsOf q tr = l at this ⊢
          cases this with
          | before p hp hn => rcases hp with h | h | h <;> cases h
          | good v hn =>
            by_cases hf : anyFail P s.contrib = 0
            · rw [if_neg (by simpa using hf)]; exact .done v (hz hf)
            · rw [if_pos hf]; exact .failedGood v (ho hf) hn
          | bad hn =>
            by_cases hf : anyFail P s.contrib = 0
            · rw [hz hf q hqP] at hn; cases hn
            · rw [if_pos hf]; exact .failedBad (ho hf) hn
        · rw [hup q _ e]; exact h6 q hq hqP

theorem inv_reach (P : Nat) (out : Nat → List (Event V) → Outcome V) (s : St V) (h : Reach P out s) : Inv P s := by
  induction h with
  | refl => exact inv_start P
  | tail _ hs ih => exact inv_step P out _ _ ih hs

theorem callsOf_root (v : V) (tr : List (Event V)) (r : Nat) (hr : r ≠ 0) : callsOf r (.begins 0 :: .ends 0 (.ok v) :: tr) = callsOf r tr := by
  unfold callsOf
  rw [List.filter_cons_of_neg (by simpa [rankOf] using hr.symm), List.filter_cons_of_neg (by simpa [rankOf] using hr.symm)]

/-- **Order.**  At all times: a rank other than 0 has called the compiler only if rank 0's call is the first and has ended with a
value before any other call begins; and no rank calls twice. -/
theorem C102_order (P : Nat) (out : Nat → List (Event V) → Outcome V) (s : St V) (h : Reach P out s) :
    ((∃ e ∈ s.trace, rankOf e ≠ 0) →
      ∃ v tr, s.trace = .begins 0 :: .ends 0 (.ok v) :: tr ∧ ∀ e ∈ tr, rankOf e ≠ 0) ∧
    ∀ r, r < P → callsOf r s.trace = [] ∨ callsOf r s.trace = [.begins r] ∨ ∃ o, callsOf r s.trace = [.begins r, .ends r o] := by
  cases inv_reach P out s h with
  | before h1 h2 h3 h4 =>
    rcases h4 with ⟨-, h⟩ | ⟨-, h⟩ | ⟨o, -, h⟩
    · rw [h]
      exact ⟨fun ⟨e, he, _⟩ => absurd he (by simp), fun r _ => Or.inl rfl⟩
    · rw [h]
      refine ⟨fun ⟨e, he, hr⟩ => absurd (by rw [List.mem_singleton.mp he]; rfl) hr, fun r _ => ?_⟩
      by_cases e : r = 0
      · subst e; exact Or.inr (Or.inl rfl)
      · left
        unfold callsOf
        rw [List.filter_cons_of_neg (by simpa [rankOf] using fun h => e h.symm)]
        rfl
    · rw [h]
      refine ⟨fun ⟨e, he, hr⟩ => absurd ?_ hr, fun r _ => ?_⟩
      · simp only [List.mem_cons, List.not_mem_nil, or_false] at he
        rcases he with he | he <;> rw [he] <;> rfl
      · by_cases e : r = 0
        · subst e; exact Or.inr (Or.inr ⟨o, rfl⟩)
        · left
          unfold callsOf
          rw [List.filter_cons_of_neg (by simpa [rankOf] using fun h => e h.symm), List.filter_cons_of_neg (by simpa [rankOf] using fun h => e h.symm)]
          rfl
  | fail h1 h2 h h4 h5 =>
    rw [h]
    refine ⟨fun ⟨e, he, hr⟩ => absurd ?_ hr, fun r _ => ?_⟩
    · simp only [List.mem_cons, List.not_mem_nil, or_false] at he
      rcases he with he | he <;> rw [he] <;> rfl
    · by_cases e : r = 0
      · subst e; exact Or.inr (Or.inr ⟨.fail, rfl⟩)
      · left
        unfold callsOf
        rw [List.filter_cons_of_neg (by simpa [rankOf] using fun h => e h.symm), List.filter_cons_of_neg (by simpa [rankOf] using fun h => e h.symm)]
        rfl
  | good v tr h1 h2 h3 h4 h5 h6 =>
    refine ⟨fun _ => ⟨v, tr, h2, h3⟩, fun r hr => ?_⟩
    rw [h2]
    by_cases e : r = 0
    · subst e
      refine Or.inr (Or.inr ⟨.ok v, ?_⟩)
      have := callsOf_nil tr h3
      unfold callsOf at this ⊢
      rw [List.filter_cons_of_pos rfl, List.filter_cons_of_pos rfl, this]
    · rw [callsOf_root v tr r e]
      have := h6 r e hr
      generalize callsOf r tr = l at this ⊢
      generalize s.pc r = p at this
      cases this with
      | before p hp hn => exact Or.inl rfl
      | calling hn => exact Or.inr (Or.inl rfl)
      | good v hn => exact Or.inr (Or.inr ⟨_, rfl⟩)
      | bad hn => exact Or.inr (Or.inr ⟨_, rfl⟩)
      | done v hn => exact Or.inr (Or.inr ⟨_, rfl⟩)
      | failedGood v _ hn => exact Or.inr (Or.inr ⟨_, rfl⟩)
      | failedBad _ hn => exact Or.inr (Or.inr ⟨_, rfl⟩)
      | left hn => exact Or.inr (Or.inr ⟨_, rfl⟩)

/-- **All ranks together.**  Suppose calls give a value or raise an `Exception`.  When no rank can go on, then either every rank
returns what its own call gave, or rank 0's call raised and all ranks raise, or another rank's call raised and all ranks
raise: no rank waits forever and no rank returns while another raises. -/
theorem C102_all_partial (P : Nat) (hP : 0 < P) (out : Nat → List (Event V) → Outcome V) (hout : ∀ r tr, out r tr ≠ .interrupt)
    (s : St V) (h : Reach P out s) (hs : Stuck P out s) : AllReturned P s ∨ RootRaised P s ∨ CacheRaised P s := by
  have hint : ∀ r, .ends r .interrupt ∉ s.trace := by
    clear hs
    induction h with
    | refl => intro r hr; cases hr
    | tail _ hst ih =>
      intro r hr
      cases hst with
      | rootCall hp => exact ih r (by simpa using hr)
      | otherEntry r hr hrP hp => exact ih _ hr
      | rootEnd hp =>
        simp only [List.mem_append, List.mem_singleton, Event.ends.injEq] at hr
        rcases hr with hr | ⟨_, hr⟩
        · exact ih r hr
        · exact hout _ _ hr.symm
      | rootFail st o hp hst => exact ih _ hr
      | rootSent o hp => exact ih _ hr
      | receive r st m o hr hrP hp hsent => exact ih _ ‹_›
      | otherCall q hq hrP hp => exact ih r (by simpa using hr)
      | otherEnd q hq hrP hp =>
        simp only [List.mem_append, List.mem_singleton, Event.ends.injEq] at hr
        rcases hr with hr | ⟨_, hr⟩
        · exact ih r hr
        · exact hout _ _ hr.symm
      | reduced r st o hrP hp hall => exact ih _ hr
  cases inv_reach P out s h with
  | before h1 h2 h3 h4 =>
    rcases h4 with ⟨h, -⟩ | ⟨h, -⟩ | ⟨o, h, ht⟩
    · exact absurd (Step.rootCall s h) (hs _)
    · exact absurd (Step.rootEnd s h) (hs _)
    · cases o with
      | ok v => exact absurd (Step.rootSent s _ h) (hs _)
      | fail => exact absurd (Step.rootFail s 1 _ h (by decide)) (hs _)
      | interrupt => exact absurd (by rw [ht]; simp) (hint 0)
  | fail h1 h2 h3 h4 h5 =>
    right; left
    refine ⟨h3, h2, fun r hr hrP => ?_⟩
    rcases h5 r hr hrP with h | h | h
    · exact absurd (Step.otherEntry s r hr hrP h) (hs _)
    · exact absurd (Step.receive s r 1 _ _ hr hrP h h1) (hs _)
    · exact h
  | good v tr h1 h2 h3 h4 h5 h6 =>
    have hcall : ∀ r, r ≠ 0 → callsOf r s.trace = callsOf r tr := fun r hr => by rw [h2]; exact callsOf_root v tr r hr
    have hcon : ∀ q, q < P → s.contrib q ≠ none := by
      intro q hq
      by_cases e : q = 0
      · rw [e, h4]; simp
      · have := h6 q e hq
        have hc := hcall q e
        generalize callsOf q tr = l at this hc
        generalize hp : s.pc q = p at this
        cases this with
        | before p hp' hn =>
          rcases hp' with h | h | h <;> rw [h] at hp
          · exact absurd (Step.otherEntry s q e hq hp) (hs _)
          · exact absurd (Step.receive s q 0 _ _ e hq hp h1) (hs _)
          · exact absurd (Step.otherCall s q e hq hp) (hs _)
        | calling hn => exact absurd (Step.otherEnd s q e hq hp) (hs _)
        | good v hn => rw [hn]; simp
        | bad hn => rw [hn]; simp
        | done v hn => rw [hn q hq]; simp
        | failedGood v _ hn => rw [hn]; simp
        | failedBad _ hn => rw [hn]; simp
        | left hn =>
          exfalso
          apply hint q
          have hm : Event.ends q (Outcome.interrupt : Outcome V) ∈ callsOf q s.trace := by rw [hc]; simp
          exact (List.mem_filter.mp hm).1
    have hno : ∀ r, r < P → ∀ st o, s.pc r ≠ .reduce st o := fun r hr st o h => hs _ (Step.reduced s r st o hr h hcon)
    have hroot : callsOf 0 s.trace = [.begins 0, .ends 0 (.ok v)] := by
      rw [h2]
      have := callsOf_nil tr h3
      unfold callsOf at this ⊢
      rw [List.filter_cons_of_pos rfl, List.filter_cons_of_pos rfl, this]
    generalize hp0 : s.pc 0 = p0 at h5
    cases h5 with
    | wait => exact absurd hp0 (hno 0 hP _ _)
    | done hz =>
      left
      intro r hr
      by_cases e : r = 0
      · subst e; exact ⟨v, hp0, hroot⟩
      · have := h6 r e hr
        have hc := hcall r e
        generalize callsOf r tr = l at this hc
        generalize hp : s.pc r = p at this
        cases this with
        | before p hp' hn => rw [hz r hr] at hn; cases hn
        | calling hn => rw [hz r hr] at hn; cases hn
        | good v hn => exact absurd hp (hno r hr _ _)
        | bad hn => rw [hz r hr] at hn; cases hn
        | done v hn => exact ⟨v, rfl, hc⟩
        | failedGood v h1 hn =>
          obtain ⟨q, hq, h⟩ := h1.2
          rw [hz q hq] at h; cases h
        | failedBad _ hn => rw [hz r hr] at hn; cases hn
        | left hn => rw [hz r hr] at hn; cases hn
    | failed ho =>
      right; right
      obtain ⟨hne, q, hq, h1q⟩ := ho
      have hq0 : q ≠ 0 := fun e => by rw [e, h4] at h1q; cases h1q
      refine ⟨⟨q, hq0, hq, ?_⟩, fun r hr => ?_⟩
      · have := h6 q hq0 hq
        rw [hcall q hq0]
        generalize callsOf q tr = l at this
        generalize hp : s.pc q = p at this
        cases this with
        | before p hp' hn => rw [h1q] at hn; cases hn
        | calling hn => rw [h1q] at hn; cases hn
        | good v hn => rw [h1q] at hn; cases hn
        | bad hn => rfl
        | done v hn => rw [hn q hq] at h1q; cases h1q
        | failedGood v _ hn => rw [h1q] at hn; cases hn
        | failedBad _ hn => rfl
        | left hn => rw [h1q] at hn; cases hn
      · by_cases e : r = 0
        · subst e; exact hp0
        · have := h6 r e hr
          have hc := hne r hr
          generalize callsOf r tr = l at this
          generalize hp : s.pc r = p at this
          cases this with
          | before p hp' hn => exact absurd hn hc
          | calling hn => exact absurd hn hc
          | good v hn => exact absurd hp (hno r hr _ _)
          | bad hn => exact absurd hp (hno r hr _ _)
          | done v hn => rw [hn q hq] at h1q; cases h1q
          | failedGood v _ hn => rfl
          | failedBad _ hn => rfl
          | left hn => exact absurd hn hc

/-- Steps that a rank still has at most. -/
def weight : Pc V → Nat
  | .entry => 6
  | .bcast none _ => 5
  | .ready => 4
  | .calling => 3
  | .bcast (some _) _ => 2
  | .reduce _ _ => 1
  | _ => 0

theorem weight_sum (P : Nat) (pc : Nat → Pc V) (r : Nat) (x : Pc V) (hr : r < P) (h : weight x < weight (pc r)) :
    ∑ q ∈ Finset.range P, weight (upd pc r x q) < ∑ q ∈ Finset.range P, weight (pc q) := by
  refine Finset.sum_lt_sum (fun q _ => ?_) ⟨r, Finset.mem_range.mpr hr, by rw [upd_self]; exact h⟩
  by_cases e : q = r
  · subst e; rw [upd_self]; exact h.le
  · rw [upd_other _ _ _ _ e]

theorem weight_afterRoot (o : Outcome V) : weight (afterRoot o) ≤ 2 := by cases o <;> simp [afterRoot, weight]
theorem weight_afterOther (o : Outcome V) : weight (afterOther o) ≤ 1 := by cases o <;> simp [afterOther, weight]

theorem bcast_none (P : Nat) (s : St V) (h : Inv P s) (r : Nat) (hr : r ≠ 0) (hrP : r < P) (m : Option Nat) (o : Option V)
    (hp : s.pc r = .bcast m o) : m = none := by
  cases h with
  | before h1 h2 => rcases h2 r hr hrP with h | h <;> rw [hp] at h <;> cases h; rfl
  | fail h1 h2 h3 h4 h5 => rcases h5 r hr hrP with h | h | h <;> rw [hp] at h <;> cases h; rfl
  | good v tr h1 h2 h3 h4 h5 h6 =>
    have := h6 r hr hrP
    rw [hp] at this
    generalize callsOf r tr = l at this
    cases this with
    | before p hp hn => rcases hp with h | h | h <;> cases h; rfl

theorem weight_step (P : Nat) (hP : 0 < P) (out : Nat → List (Event V) → Outcome V) (s s' : St V) (h : Inv P s) (hs : Step P out s s') :
    ∑ q ∈ Finset.range P, weight (s'.pc q) < ∑ q ∈ Finset.range P, weight (s.pc q) := by
  cases hs with
  | rootCall hp => exact weight_sum P _ 0 _ hP (by rw [hp]; show 3 < 6; decide)
  | otherEntry r hr hrP hp => exact weight_sum P _ r _ hrP (by rw [hp]; show 5 < 6; decide)
  | rootEnd hp => exact weight_sum P _ 0 _ hP (by rw [hp]; exact lt_of_le_of_lt (weight_afterRoot _) (by show 2 < 3; decide))
  | rootFail st o hp hst => exact weight_sum P _ 0 _ hP (by rw [hp]; show 0 < 2; decide)
  | rootSent o hp => exact weight_sum P _ 0 _ hP (by rw [hp]; show 1 < 2; decide)
  | receive r st m o hr hrP hp hsent =>
    refine weight_sum P _ r _ hrP ?_
    have := bcast_none P s h r hr hrP m o hp
    subst this
    rw [hp]
    show _ < 5
    split
    · show 0 < 5; decide
    · show 4 < 5; decide
  | otherCall r hr hrP hp => exact weight_sum P _ r _ hrP (by rw [hp]; show 3 < 4; decide)
  | otherEnd r hr hrP hp => exact weight_sum P _ r _ hrP (by rw [hp]; exact lt_of_le_of_lt (weight_afterOther _) (by show 1 < 3; decide))
  | reduced r st o hrP hp hall =>
    refine weight_sum P _ r _ hrP ?_
    rw [hp]
    show _ < 1
    split <;> exact Nat.zero_lt_one

/-- **End.**  No execution goes on for ever, so every execution reaches a state where no rank can go on. -/
theorem C102_ends (P : Nat) (hP : 0 < P) (out : Nat → List (Event V) → Outcome V) :
    ¬ ∃ f : Nat → St V, f 0 = start ∧ ∀ n, Step P out (f n) (f (n + 1)) := by
  rintro ⟨f, h0, hf⟩
  have hr : ∀ n, Reach P out (f n) := by
    intro n
    induction n with
    | zero => rw [h0]; exact .refl
    | succ n ih => exact .tail ih (hf n)
  have hm : ∀ n, n + ∑ q ∈ Finset.range P, weight ((f n).pc q) ≤ ∑ q ∈ Finset.range P, weight ((f 0).pc q) := by
    intro n
    induction n with
    | zero => simp
    | succ n ih =>
      have := weight_step P hP out _ _ (inv_reach P out _ (hr n)) (hf n)
      omega
  have := hm (∑ q ∈ Finset.range P, weight ((f 0).pc q) + 1)
  omega

/-- Rank 0 is interrupted during compilation. -/
def interrupted : Nat → List (Event Nat) → Outcome Nat := fun r _ => if r = 0 then .interrupt else .ok 7

/-- **The code does not do this for all exceptions.**  If rank 0's call is left by `KeyboardInterrupt` or `SystemExit`, which
`except Exception` does not catch, rank 0 leaves and rank 1 waits in `bcast` for ever. -/
theorem C102_refuted_interrupt : ∃ s : St Nat, Reach 2 interrupted s ∧ Stuck 2 interrupted s ∧ s.pc 0 = .left ∧
    s.pc 1 = .bcast none none := by
  let s1 : St Nat := { (start : St Nat) with pc := upd start.pc 0 .calling, trace := [.begins 0] }
  let s2 : St Nat := { s1 with pc := upd s1.pc 0 (afterRoot (interrupted 0 s1.trace)), trace := s1.trace ++ [.ends 0 (interrupted 0 s1.trace)] }
  let s3 : St Nat := { s2 with pc := upd s2.pc 1 (.bcast none none) }
  have h1 : Step 2 interrupted start s1 := .rootCall start rfl
  have h2 : Step 2 interrupted s1 s2 := .rootEnd s1 rfl
  have h3 : Step 2 interrupted s2 s3 := .otherEntry s2 1 (by decide) (by decide) rfl
  have p0 : s3.pc 0 = .left := rfl
  have p1 : s3.pc 1 = .bcast none none := rfl
  refine ⟨s3, ((Relation.ReflTransGen.refl.tail h1).tail h2).tail h3, ?_, p0, p1⟩
  intro s' hs
  cases hs with
  | rootCall hp => rw [p0] at hp; cases hp
  | otherEntry r hr hrP hp =>
    have : r = 1 := by omega
    subst this; rw [p1] at hp; cases hp
  | rootEnd hp => rw [p0] at hp; cases hp
  | rootFail st o hp hst => rw [p0] at hp; cases hp
  | rootSent o hp => rw [p0] at hp; cases hp
  | receive r st m o hr hrP hp hsent => cases hsent
  | otherCall r hr hrP hp =>
    have : r = 1 := by omega
    subst this; rw [p1] at hp; cases hp
  | otherEnd r hr hrP hp =>
    have : r = 1 := by omega
    subst this; rw [p1] at hp; cases hp
  | reduced r st o hrP hp hall => exact hall 0 (by decide) rfl

end jit

section examples
/-- Rank 0 compiles, rank 1 finds the module in the cache. -/
def cached : Nat → List (Event Nat) → Outcome Nat := fun r tr => if r = 0 then .ok 7 else if .ends 0 (.ok 7) ∈ tr then .ok 7 else .fail

/-- An execution on two ranks that ends with both ranks returning. -/
example : ∃ s : St Nat, Reach 2 cached s ∧ AllReturned 2 s ∧ s.trace = [.begins 0, .ends 0 (.ok 7), .begins 1, .ends 1 (.ok 7)] := by
  let s1 : St Nat := { (start : St Nat) with pc := upd start.pc 1 (.bcast none none) }
  let s2 : St Nat := { s1 with pc := upd s1.pc 0 .calling, trace := s1.trace ++ [.begins 0] }
  let s3 : St Nat := { s2 with pc := upd s2.pc 0 (afterRoot (cached 0 s2.trace)), trace := s2.trace ++ [.ends 0 (cached 0 s2.trace)] }
  let s4 : St Nat := { s3 with pc := upd s3.pc 0 (.reduce 0 (some 7)), sent := some 0, contrib := upd s3.contrib 0 (some 0) }
  let s5 : St Nat := { s4 with pc := upd s4.pc 1 (if (0 : Nat) ≠ 0 then .raised .rankZero else .ready) }
  let s6 : St Nat := { s5 with pc := upd s5.pc 1 .calling, trace := s5.trace ++ [.begins 1] }
  let s7 : St Nat := { s6 with pc := upd s6.pc 1 (afterOther (cached 1 s6.trace)), trace := s6.trace ++ [.ends 1 (cached 1 s6.trace)],
                               contrib := upd s6.contrib 1 (handed (afterOther (cached 1 s6.trace))) }
  let s8 : St Nat := { s7 with pc := upd s7.pc 0 (if anyFail 2 s7.contrib ≠ 0 then .raised .cache else .returned (some 7)) }
  let s9 : St Nat := { s8 with pc := upd s8.pc 1 (if anyFail 2 s8.contrib ≠ 0 then .raised .cache else .returned (some 7)) }
  have hall : ∀ q, q < 2 → s7.contrib q ≠ none := by
    intro q hq
    interval_cases q <;> decide
  have h : Reach 2 cached s9 :=
    ((((((((Relation.ReflTransGen.refl.tail (Step.otherEntry start 1 (by decide) (by decide) rfl)).tail
      (show Step 2 cached s1 s2 from .rootCall s1 rfl)).tail
      (show Step 2 cached s2 s3 from .rootEnd s2 rfl)).tail
      (show Step 2 cached s3 s4 from .rootSent s3 (some 7) rfl)).tail
      (show Step 2 cached s4 s5 from .receive s4 1 0 none none (by decide) (by decide) rfl rfl)).tail
      (show Step 2 cached s5 s6 from .otherCall s5 1 (by decide) (by decide) rfl)).tail
      (show Step 2 cached s6 s7 from .otherEnd s6 1 (by decide) (by decide) rfl)).tail
      (show Step 2 cached s7 s8 from .reduced s7 0 0 (some 7) (by decide) rfl hall)).tail
      (show Step 2 cached s8 s9 from .reduced s8 1 0 (some 7) (by decide) (by decide) hall)
  refine ⟨s9, h, ?_, by decide⟩
  intro r hr
  interval_cases r
  · exact ⟨7, by decide, by decide⟩
  · exact ⟨7, by decide, by decide⟩

example : ∀ r tr, cached r tr ≠ .interrupt := by
  intro r tr
  unfold cached
  split
  · simp
  · split <;> simp
end examples
end Verif.Props
