import Verif.Spec.PetscHandles
/-!
# C111: PETSc objects are released exactly once
-/
namespace Verif.Props
open Verif.PetscHandles Verif.Spec.PetscHandles

/-- Number of pointers of a C++ object to a PETSc object. -/
private def cntO (h : Nat) (o : Obj) : Nat := if o.alive = true then o.slots.count (some h) else 0

private def cntS (h : Nat) (l : List Obj) : Nat := (l.map (cntO h)).sum

private structure Balanced (s : PState) : Prop where
  refs : ∀ h, s.refs h = s.own h + cntS h s.objs
  fresh : ∀ h, s.next ≤ h → s.refs h = 0

private theorem cnt_append (h : Nat) (l : List Obj) (o : Obj) : cntS h (l ++ [o]) = cntS h l + cntO h o := by
  simp [cntS]

private theorem cnt_set (h : Nat) (l : List Obj) (i : Nat) (o x : Obj) (hi : l[i]? = some o) :
    cntS h (l.set i x) + cntO h o = cntS h l + cntO h x := by
  induction l generalizing i with
  | nil => simp at hi
  | cons a l ih =>
    cases i with
    | zero =>
      simp only [List.getElem?_cons_zero, Option.some.injEq] at hi
      subst hi
      simp only [cntS, List.set_cons_zero, List.map_cons, List.sum_cons]
      omega
    | succ i =>
      simp only [List.getElem?_cons_succ] at hi
      have := ih i hi
      simp only [cntS, List.set_cons_succ, List.map_cons, List.sum_cons] at this ⊢
      omega

private theorem cnt_le (h : Nat) (l : List Obj) (i : Nat) (o : Obj) (hi : l[i]? = some o) : cntO h o ≤ cntS h l := by
  have := cnt_set h l i o ⟨false, [], false⟩ hi
  have h0 : cntO h ⟨false, [], false⟩ = 0 := rfl
  omega

private theorem cnt_zero (h : Nat) (l : List Obj) (hl : ∀ o ∈ l, cntO h o = 0) : cntS h l = 0 := by
  induction l with
  | nil => rfl
  | cons a l ih =>
    have h1 := hl a List.mem_cons_self
    have h2 := ih (fun o ho => hl o (List.mem_cons_of_mem _ ho))
    simp only [cntS, List.map_cons, List.sum_cons] at h2 ⊢
    omega

private theorem find_some {s : PState} {n : Bool} {i : Nat} {o : Obj} (h : find s n i = .ok o) :
    s.objs[i]? = some o ∧ o.alive = true ∧ o.newton = n := by
  unfold find at h
  split at h
  · cases h
  · split at h
    · next o' ho hc =>
      injection h with h
      subst h
      exact ⟨ho, hc⟩
    · cases h

private theorem find_error {s : PState} {n : Bool} {i : Nat} {e : Bad} (h : find s n i = .error e) : e = .rule := by
  unfold find at h
  split at h
  · injection h with h; exact h.symm
  · split at h
    · cases h
    · injection h with h; exact h.symm

private theorem releaseAll_ok (l : List (Option Nat)) (refs : Nat → Nat) (h : ∀ k, l.count (some k) ≤ refs k) :
    ∃ r, releaseAll refs l = .ok r ∧ ∀ k, r k + l.count (some k) = refs k := by
  induction l generalizing refs with
  | nil => exact ⟨refs, rfl, by simp⟩
  | cons x l ih =>
    cases x with
    | none =>
      obtain ⟨r, h1, h2⟩ := ih refs (fun k => by have := h k; simpa using this)
      exact ⟨r, h1, fun k => by simpa using h2 k⟩
    | some a =>
      have ha := h a
      rw [List.count_cons_self] at ha
      have e : release refs a = .ok (put refs a (refs a - 1)) := if_neg (by omega)
      obtain ⟨r, h1, h2⟩ := ih (put refs a (refs a - 1)) (fun k => by
        unfold put
        split
        · next hk => subst hk; omega
        · next hk =>
          have := h k
          rw [List.count_cons_of_ne (by simpa using fun e : a = k => hk e.symm)] at this
          exact this)
      refine ⟨r, by simp only [releaseAll, e]; exact h1, fun k => ?_⟩
      have h3 := h2 k
      unfold put at h3
      split at h3
      · next hk => subst hk; rw [List.count_cons_self]; omega
      · next hk =>
        rw [List.count_cons_of_ne (by simpa using fun e : a = k => hk e.symm)]
        exact h3

private theorem count_setNone (l : List (Option Nat)) (k h g : Nat) (hk : l[k]? = some none) :
    (l.set k (some h)).count (some g) = l.count (some g) + if g = h then 1 else 0 := by
  induction l generalizing k with
  | nil => simp at hk
  | cons x l ih =>
    cases k with
    | zero =>
      simp only [List.getElem?_cons_zero, Option.some.injEq] at hk
      subst hk
      rw [List.set_cons_zero, List.count_cons, List.count_cons]
      by_cases hg : g = h
      · subst hg; simp
      · simp [hg, Ne.symm hg]
    | succ k =>
      simp only [List.getElem?_cons_succ] at hk
      rw [List.set_cons_succ, List.count_cons, List.count_cons, ih k hk]
      omega

private theorem step_balanced (s : PState) (op : Op) (hb : Balanced s) (hc : Careful s op) :
    step s op ≠ .error .fault ∧ ∀ s', step s op = .ok s' → Balanced s' := by
  have hnext : ∀ h, s.next ≤ h → s.own h = 0 ∧ cntS h s.objs = 0 := by
    intro h hh
    have h1 := hb.refs h
    have h2 := hb.fresh h hh
    omega
  have mk : ∀ (s' : PState), (∀ h, s'.refs h = s'.own h + cntS h s'.objs) → (∀ h, s'.next ≤ h → s'.refs h = 0) → Balanced s' :=
    fun s' a b => ⟨a, b⟩
  have hcreate : Balanced { s with refs := put s.refs s.next 1, next := s.next + 1, objs := s.objs ++ [⟨false, [some s.next], true⟩] } := by
    refine mk _ (fun h => ?_) (fun h hh => ?_)
    · have h1 := hb.refs h
      show put s.refs s.next 1 h = s.own h + cntS h (s.objs ++ [⟨false, [some s.next], true⟩])
      rw [cnt_append]
      by_cases hn : h = s.next
      · have := hnext h (by omega)
        have e : cntO h ⟨false, [some s.next], true⟩ = 1 := by subst hn; simp [cntO]
        rw [e, put, if_pos hn]; omega
      · have e : cntO h ⟨false, [some s.next], true⟩ = 0 := by simp [cntO, Ne.symm hn]
        rw [e, put, if_neg hn]; omega
    · have hh' : s.next + 1 ≤ h := hh
      show put s.refs s.next 1 h = 0
      rw [put, if_neg (by omega)]
      exact hb.fresh h (by omega)
  cases op with
  | make =>
    refine ⟨by simp [step], fun s' h => ?_⟩
    simp only [step, Except.ok.injEq] at h
    subst h
    refine mk _ (fun h => ?_) (fun h hh => ?_)
    · have h1 := hb.refs h
      show put s.refs s.next 1 h = put s.own s.next 1 h + cntS h s.objs
      unfold put
      split
      · next hn => have := hnext h (by omega); omega
      · exact h1
    · have hh' : s.next + 1 ≤ h := hh
      show put s.refs s.next 1 h = 0
      rw [put, if_neg (by omega)]
      exact hb.fresh h (by omega)
  | drop h =>
    simp only [step]
    by_cases ho : s.own h = 0
    · rw [if_pos ho]; exact ⟨by simp, fun s' h => by cases h⟩
    · rw [if_neg ho]
      have h1 := hb.refs h
      have e : release s.refs h = .ok (put s.refs h (s.refs h - 1)) := if_neg (by omega)
      rw [e]
      refine ⟨by simp [bind, Except.bind], fun s' h' => ?_⟩
      simp only [bind, Except.bind, Except.ok.injEq] at h'
      subst h'
      refine mk _ (fun k => ?_) (fun k hk => ?_)
      · have h2 := hb.refs k
        show put s.refs h (s.refs h - 1) k = put s.own h (s.own h - 1) k + cntS k s.objs
        unfold put
        split
        · next hn => subst hn; omega
        · exact h2
      · have h2 := hb.fresh k hk
        show put s.refs h (s.refs h - 1) k = 0
        unfold put
        split
        · next hn => subst hn; omega
        · exact h2
  | create =>
    refine ⟨by simp [step], fun s' h => ?_⟩
    simp only [step, Except.ok.injEq] at h
    subst h
    exact hcreate
  | wrap h inc =>
    simp only [step]
    by_cases ho : s.own h = 0
    · rw [if_pos ho]; exact ⟨by simp, fun s' h => by cases h⟩
    · rw [if_neg ho]
      have h1 := hb.refs h
      have hlt : h < s.next := by
        by_contra hh
        have := hnext h (by omega)
        omega
      cases inc with
      | true =>
        refine ⟨by simp, fun s' h' => ?_⟩
        simp only [if_true, Except.ok.injEq] at h'
        subst h'
        refine mk _ (fun k => ?_) (fun k hk => ?_)
        · have h2 := hb.refs k
          show put s.refs h (s.refs h + 1) k = s.own k + cntS k (s.objs ++ [⟨false, [some h], true⟩])
          rw [cnt_append]
          by_cases hn : k = h
          · subst hn
            have e : cntO k ⟨false, [some k], true⟩ = 1 := by simp [cntO]
            rw [e, put, if_pos rfl]; omega
          · have e : cntO k ⟨false, [some h], true⟩ = 0 := by simp [cntO, Ne.symm hn]
            rw [e, put, if_neg hn]; omega
        · have hk' : s.next ≤ k := hk
          show put s.refs h (s.refs h + 1) k = 0
          rw [put, if_neg (by omega)]
          exact hb.fresh k hk'
      | false =>
        refine ⟨by simp, fun s' h' => ?_⟩
        simp only [Bool.false_eq_true, if_false, Except.ok.injEq] at h'
        subst h'
        refine mk _ (fun k => ?_) (fun k hk => hb.fresh k hk)
        have h2 := hb.refs k
        show s.refs k = put s.own h (s.own h - 1) k + cntS k (s.objs ++ [⟨false, [some h], true⟩])
        rw [cnt_append]
        by_cases hn : k = h
        · subst hn
          have e : cntO k ⟨false, [some k], true⟩ = 1 := by simp [cntO]
          rw [e, put, if_pos rfl]; omega
        · have e : cntO k ⟨false, [some h], true⟩ = 0 := by simp [cntO, Ne.symm hn]
          rw [e, put, if_neg hn]; omega
  | move i =>
    simp only [step]
    cases hf : find s false i with
    | error e =>
      rw [find_error hf]
      exact ⟨by simp [bind, Except.bind], fun s' h => by cases h⟩
    | ok o =>
      obtain ⟨h1, h2, h3⟩ := find_some hf
      refine ⟨by simp [bind, Except.bind], fun s' h' => ?_⟩
      simp only [bind, Except.bind, Except.ok.injEq] at h'
      subst h'
      refine mk _ (fun k => ?_) (fun k hk => hb.fresh k hk)
      have h4 := hb.refs k
      show s.refs k = s.own k + cntS k (s.objs.set i { o with slots := [none] } ++ [⟨false, o.slots, true⟩])
      rw [cnt_append]
      have h5 := cnt_set k s.objs i o { o with slots := [none] } h1
      have e1 : cntO k { o with slots := [none] } = 0 := by simp [cntO]
      have e2 : cntO k ⟨false, o.slots, true⟩ = cntO k o := by simp [cntO, h2]
      omega
  | assign i j =>
    simp only [step]
    cases hf : find s false i with
    | error e =>
      rw [find_error hf]
      exact ⟨by simp [bind, Except.bind], fun s' h => by cases h⟩
    | ok a =>
      cases hg : find s false j with
      | error e =>
        rw [find_error hg]
        exact ⟨by simp [bind, Except.bind], fun s' h => by cases h⟩
      | ok b =>
        obtain ⟨h1, h2, h3⟩ := find_some hf
        obtain ⟨g1, g2, g3⟩ := find_some hg
        refine ⟨by simp [bind, Except.bind], fun s' h' => ?_⟩
        simp only [bind, Except.bind, Except.ok.injEq] at h'
        subst h'
        refine mk _ (fun k => ?_) (fun k hk => hb.fresh k hk)
        have h4 := hb.refs k
        show s.refs k = s.own k + cntS k ((s.objs.set i { a with slots := b.slots }).set j { b with slots := a.slots })
        have h5 := cnt_set k s.objs i a { a with slots := b.slots } h1
        have e1 : cntO k { a with slots := b.slots } = cntO k b := by simp [cntO, h2, g2]
        have e2 : cntO k { b with slots := a.slots } = cntO k a := by simp [cntO, h2, g2]
        by_cases hij : i = j
        · subst hij
          rw [h1] at g1
          injection g1 with g1
          subst g1
          rw [List.set_set]
          omega
        · have h6 := cnt_set k (s.objs.set i { a with slots := b.slots }) j b { b with slots := a.slots }
            (by rw [List.getElem?_set_ne hij]; exact g1)
          omega
  | copy i =>
    simp only [step]
    cases hf : find s false i with
    | error e =>
      rw [find_error hf]
      exact ⟨by simp [bind, Except.bind], fun s' h => by cases h⟩
    | ok o =>
      obtain ⟨h1, h2, h3⟩ := find_some hf
      simp only [bind, Except.bind]
      split
      · next h hs =>
        have h4 := hb.refs h
        have h5 := cnt_le h s.objs i o h1
        have h6 : cntO h o = 1 := by simp [cntO, h2, hs]
        rw [if_neg (by omega)]
        refine ⟨by simp, fun s' h' => ?_⟩
        simp only [Except.ok.injEq] at h'
        subst h'
        exact hcreate
      · exact ⟨by simp, fun s' h => by cases h⟩
  | destroy i =>
    simp only [step]
    split
    · exact ⟨by simp, fun s' h => by cases h⟩
    · next o ho =>
      by_cases ha : o.alive = true
      · rw [if_pos ha]
        have e0 : ∀ k, cntO k o = o.slots.count (some k) := fun k => by simp [cntO, ha]
        obtain ⟨r, h1, h2⟩ := releaseAll_ok o.slots s.refs (fun k => by
          have a := hb.refs k
          have b := cnt_le k s.objs i o ho
          have c := e0 k
          omega)
        rw [h1]
        refine ⟨by simp [bind, Except.bind], fun s' h' => ?_⟩
        simp only [bind, Except.bind, Except.ok.injEq] at h'
        subst h'
        refine mk _ (fun k => ?_) (fun k hk => ?_)
        · show r k = s.own k + cntS k (s.objs.set i { o with alive := false })
          have a := hb.refs k
          have b := cnt_set k s.objs i o { o with alive := false } ho
          have c := e0 k
          have d := h2 k
          have e1 : cntO k { o with alive := false } = 0 := by simp [cntO]
          omega
        · have a := hb.fresh k hk
          have d := h2 k
          show r k = 0
          omega
      · rw [if_neg ha]; exact ⟨by simp, fun s' h => by cases h⟩
  | newton =>
    refine ⟨by simp [step], fun s' h => ?_⟩
    simp only [step, Except.ok.injEq] at h
    subst h
    refine mk _ (fun k => ?_) (fun k hk => hb.fresh k hk)
    have h1 := hb.refs k
    show s.refs k = s.own k + cntS k (s.objs ++ [⟨true, [none, none, none, none], true⟩])
    rw [cnt_append]
    have e : cntO k ⟨true, [none, none, none, none], true⟩ = 0 := by simp [cntO]
    omega
  | set i k h =>
    simp only [step]
    cases hf : find s true i with
    | error e =>
      rw [find_error hf]
      exact ⟨by simp [bind, Except.bind], fun s' h => by cases h⟩
    | ok o =>
      obtain ⟨h1, h2, h3⟩ := find_some hf
      simp only [bind, Except.bind]
      by_cases ho : s.own h = 0 ∨ 3 ≤ k
      · rw [if_pos ho]; exact ⟨by simp, fun s' h => by cases h⟩
      · rw [if_neg ho]
        refine ⟨by simp, fun s' h' => ?_⟩
        simp only [Except.ok.injEq] at h'
        subst h'
        have hslot := hc o h1
        refine mk _ (fun g => ?_) (fun g hg => ?_)
        · show put s.refs h (s.refs h + 1) g = s.own g + cntS g (s.objs.set i { o with slots := o.slots.set k (some h) })
          have a := hb.refs g
          have b := cnt_set g s.objs i o { o with slots := o.slots.set k (some h) } h1
          have c := count_setNone o.slots k h g hslot
          have e1 : cntO g { o with slots := o.slots.set k (some h) } = (o.slots.set k (some h)).count (some g) := by simp [cntO, h2]
          have e2 : cntO g o = o.slots.count (some g) := by simp [cntO, h2]
          unfold put
          split
          · next hn => rw [if_pos hn] at c; subst hn; omega
          · next hn => rw [if_neg hn] at c; omega
        · have hg' : s.next ≤ g := hg
          have := hnext g hg'
          show put s.refs h (s.refs h + 1) g = 0
          unfold put
          split
          · next hn => subst hn; omega
          · exact hb.fresh g hg'
  | solve i =>
    simp only [step]
    cases hf : find s true i with
    | error e =>
      rw [find_error hf]
      exact ⟨by simp [bind, Except.bind], fun s' h => by cases h⟩
    | ok o =>
      obtain ⟨h1, h2, h3⟩ := find_some hf
      simp only [bind, Except.bind]
      split
      · next hs =>
        refine ⟨by simp, fun s' h' => ?_⟩
        simp only [Except.ok.injEq] at h'
        subst h'
        refine mk _ (fun g => ?_) (fun g hg => ?_)
        · show put s.refs s.next 1 g = s.own g + cntS g (s.objs.set i { o with slots := o.slots.set 3 (some s.next) })
          have a := hb.refs g
          have b := cnt_set g s.objs i o { o with slots := o.slots.set 3 (some s.next) } h1
          have c := count_setNone o.slots 3 s.next g hs
          have e1 : cntO g { o with slots := o.slots.set 3 (some s.next) } = (o.slots.set 3 (some s.next)).count (some g) := by simp [cntO, h2]
          have e2 : cntO g o = o.slots.count (some g) := by simp [cntO, h2]
          unfold put
          split
          · next hn => rw [if_pos hn] at c; have := hnext g (by omega); omega
          · next hn => rw [if_neg hn] at c; omega
        · have hg' : s.next + 1 ≤ g := hg
          show put s.refs s.next 1 g = 0
          rw [put, if_neg (by omega)]
          exact hb.fresh g (by omega)
      · refine ⟨by simp, fun s' h' => ?_⟩
        simp only [Except.ok.injEq] at h'
        subst h'
        exact hb
  | newtonMove i => exact absurd hc (by simp [Careful])
  | newtonAssign i j => exact absurd hc (by simp [Careful])

private theorem balanced_owned {s : PState} (hb : Balanced s) : Owned s := by
  have hpos : ∀ h, Points s h → 0 < cntS h s.objs := by
    rintro h ⟨o, ho, ha, hm⟩
    obtain ⟨i, hi⟩ := List.getElem?_of_mem ho
    have a := cnt_le h s.objs i o hi
    have b : cntO h o = o.slots.count (some h) := by simp [cntO, ha]
    have c := List.count_pos_iff.2 hm
    omega
  have hzero : ∀ h, ¬ Points s h → cntS h s.objs = 0 := by
    intro h hn
    refine cnt_zero h s.objs (fun o ho => ?_)
    unfold cntO
    split
    · next ha => exact List.count_eq_zero.2 (fun hm => hn ⟨o, ho, ha, hm⟩)
    · rfl
  refine ⟨fun h hp => ?_, fun h hp => ?_, fun h h0 hn => ?_, fun hd h => ?_⟩
  · have a := hb.refs h
    have b := hpos h hp
    omega
  · have a := hb.refs h
    omega
  · have a := hb.refs h
    have b := hzero h hn
    omega
  · have a := hb.refs h
    have b := hzero h (by
      rintro ⟨o, ho, ha, _⟩
      rw [hd o ho] at ha
      exact absurd ha (by decide))
    omega

private theorem run_balanced (l : List Op) (s : PState) (hb : Balanced s) (hc : CarefulRun s l) :
    run s l ≠ .error .fault ∧ ∀ s', run s l = .ok s' → Balanced s' := by
  induction l generalizing s with
  | nil =>
    refine ⟨by simp [run], fun s' h => ?_⟩
    simp only [run, Except.ok.injEq] at h
    subst h
    exact hb
  | cons op l ih =>
    obtain ⟨h1, h2⟩ := step_balanced s op hb hc.1
    cases hs : step s op with
    | error e =>
      rw [hs] at h1
      simp only [run, hs]
      exact ⟨h1, fun s' h => by cases h⟩
    | ok s1 =>
      simp only [run, hs]
      exact ih s1 (h2 s1 hs) (hc.2 s1 hs)

private theorem start_balanced : Balanced start := ⟨fun _ => rfl, fun _ _ => rfl⟩

private theorem wrappers_careful (l : List Op) (h : ∀ op ∈ l, Wrappers op) (s : PState) : CarefulRun s l := by
  induction l generalizing s with
  | nil => trivial
  | cons op l ih =>
    refine ⟨?_, fun s' _ => ih (fun o ho => h o (List.mem_cons_of_mem _ ho)) s'⟩
    have := h op List.mem_cons_self
    cases op <;> trivial

/-- **Vectors, operators, matrices, linear solvers and eigensolvers**: whatever a program creates, wraps with or without a further reference,
moves, assigns (also to itself), copies and destroys, in any order, no PETSc object is used or destroyed after it is gone, and each exists
exactly as long as somebody has it. -/
theorem C111_wrappers (l : List Op) (h : ∀ op ∈ l, Wrappers op) :
    run start l ≠ .error .fault ∧ ∀ s, run start l = .ok s → Owned s := by
  obtain ⟨a, b⟩ := run_balanced l start start_balanced (wrappers_careful l h start)
  exact ⟨a, fun s hs => balanced_owned (b s hs)⟩

/-- **Newton solvers** too, in programs that do not move them and that set each of `F`, `J` and `P` once.  The full claim has no such
condition: see `C111_refuted_move`, `C111_refuted_assign` and `C111_refuted_set`. -/
theorem C111_newton_partial (l : List Op) (h : CarefulRun start l) :
    run start l ≠ .error .fault ∧ ∀ s, run start l = .ok s → Owned s := by
  obtain ⟨a, b⟩ := run_balanced l start start_balanced h
  exact ⟨a, fun s hs => balanced_owned (b s hs)⟩

/-- A vector is made and wrapped twice, once for good; one wrapper is moved, the two are swapped, one is copied; all are destroyed. -/
example : ∃ s, run start [.make, .wrap 0 true, .move 0, .wrap 0 false, .assign 0 2, .assign 1 1, .copy 0, .destroy 0, .destroy 1, .destroy 2,
    .destroy 3] = .ok s ∧ s.refs 0 = 0 ∧ s.refs 1 = 0 := ⟨_, rfl, by decide, by decide⟩

/-- A Newton solver gets a vector and a matrix, solves twice, and is destroyed: the program still has its references. -/
example : ∃ s, run start [.make, .make, .newton, .set 0 0 0, .set 0 1 1, .solve 0, .solve 0, .destroy 0] = .ok s
    ∧ s.refs 0 = 1 ∧ s.refs 1 = 1 ∧ s.refs 2 = 0 := ⟨_, rfl, by decide, by decide, by decide⟩

/-- Moving a Newton solver leaves both with the pointers, and the second destructor meets a matrix that is gone. -/
theorem C111_refuted_move :
    run start [.make, .newton, .set 0 1 0, .drop 0, .newtonMove 0, .destroy 0, .destroy 1] = .error .fault := rfl

/-- The program keeps its reference to the vector, and cannot use it any more when both solvers are gone. -/
theorem C111_refuted_taken :
    ∃ s, run start [.make, .newton, .set 0 0 0, .newtonMove 0, .destroy 0, .destroy 1] = .ok s ∧ s.own 0 = 1 ∧ s.refs 0 = 0 :=
  ⟨_, rfl, rfl, rfl⟩

/-- Move assignment: the same, and the vector of the solver assigned to is never released. -/
theorem C111_refuted_assign :
    ∃ s, run start [.make, .make, .newton, .newton, .set 0 0 0, .set 1 0 1, .drop 0, .newtonAssign 0 1, .destroy 0, .destroy 1] = .ok s
      ∧ s.own 0 = 0 ∧ s.refs 0 = 1 ∧ s.own 1 = 1 ∧ s.refs 1 = 0 :=
  ⟨_, rfl, rfl, rfl, rfl, rfl⟩

/-- `setF` for the second time: the first vector is never released. -/
theorem C111_refuted_set :
    ∃ s, run start [.make, .make, .newton, .set 0 0 0, .set 0 0 1, .destroy 0, .drop 0, .drop 1] = .ok s
      ∧ (∀ o ∈ s.objs, o.alive = false) ∧ s.own 0 = 0 ∧ s.refs 0 = 1 :=
  ⟨_, rfl, by decide, rfl, rfl⟩

end Verif.Props
