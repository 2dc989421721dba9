import Verif.Spec.XdmfSeries
/-!
# C116: every step of a time series in an XDMF file has its own values
-/
namespace Verif.Props
open Verif.XdmfText (Text)
open Verif.XdmfSeries Verif.Spec.XdmfSeries

private theorem steps_add (name n : Text) (s : Step) (gs : List (Text × List Step)) :
    stepsIn n (addStep name s gs) = if name = n then stepsIn n gs ++ [s] else stepsIn n gs := by
  induction gs with
  | nil =>
    show (if name = n then [s] else []) = _
    split <;> simp [stepsIn]
  | cons g gs ih =>
    unfold addStep
    by_cases h1 : g.1 = name
    · rw [if_pos h1]
      by_cases h2 : name = n
      · rw [if_pos h2]
        simp [stepsIn, h1, h2]
      · rw [if_neg h2]
        simp [stepsIn, h1, h2]
    · rw [if_neg h1]
      unfold stepsIn
      rw [ih]
      by_cases h2 : g.1 = n
      · have h3 : name ≠ n := fun h => h1 (h2.trans h.symm)
        simp [h2, h3]
      · simp [h2]

private theorem run_snoc {D : Type} (cs : List (Call D)) (c : Call D) : run (cs ++ [c]) = write (run cs) c := by
  unfold run
  rw [List.foldl_append]
  rfl

private theorem snoc_ind {A : Type} {P : List A → Prop} (h0 : P []) (h1 : ∀ l a, P l → P (l ++ [a])) (l : List A) : P l := by
  have : ∀ m : List A, P m.reverse := by
    intro m
    induction m with
    | nil => exact h0
    | cons a m ih =>
      rw [List.reverse_cons]
      exact h1 _ _ ih
  have h := this l.reverse
  rwa [List.reverse_reverse] at h

private theorem run_steps {D : Type} (cs : List (Call D)) (n : Text) :
    stepsIn n (run cs).grids = (cs.filter (fun c => decide (c.name = n))).map stepOf := by
  induction cs using snoc_ind with
  | h0 => rfl
  | h1 cs c ih =>
    rw [run_snoc]
    show stepsIn n (addStep c.name (stepOf c) (run cs).grids) = _
    rw [steps_add, ih, List.filter_append, List.map_append]
    by_cases h : c.name = n
    · simp [h]
    · simp [h]

private theorem run_h5 {D : Type} (cs : List (Call D)) :
    (run cs).h5 = (written cs).foldl (fun h w => writeData h (dataPath w.1.1 w.1.2) w.2) (fun _ => none) := by
  induction cs using snoc_ind with
  | h0 => rfl
  | h1 cs c ih =>
    rw [run_snoc]
    show c.parts.foldl (fun h p => writeData h (dataPath (p.1 ++ c.name) c.time) p.2) (run cs).h5 = _
    rw [ih]
    unfold written
    rw [List.flatMap_append, List.foldl_append, List.flatMap_cons, List.flatMap_nil, List.append_nil, List.foldl_map]

private theorem word_inj (w w' r r' : Text) (h : '/' ∉ w) (h' : '/' ∉ w') (e : w ++ '/' :: r = w' ++ '/' :: r') : w = w' ∧ r = r' := by
  induction w generalizing w' with
  | nil =>
    cases w' with
    | nil =>
      rw [List.nil_append, List.nil_append, List.cons.injEq] at e
      exact ⟨rfl, e.2⟩
    | cons c w' =>
      rw [List.nil_append, List.cons_append, List.cons.injEq] at e
      exact absurd (by rw [e.1]; exact List.mem_cons_self) h'
  | cons c w ih =>
    cases w' with
    | nil =>
      rw [List.nil_append, List.cons_append, List.cons.injEq] at e
      exact absurd (by rw [← e.1]; exact List.mem_cons_self) h
    | cons c' w' =>
      rw [List.cons_append, List.cons_append, List.cons.injEq] at e
      obtain ⟨h1, h2⟩ := ih w' (fun hm => h (List.mem_cons_of_mem _ hm)) (fun hm => h' (List.mem_cons_of_mem _ hm)) e.2
      exact ⟨by rw [e.1, h1], h2⟩

private theorem plain_inj (t t' : Text) (h : '_' ∉ t) (h' : '_' ∉ t') (e : plain t = plain t') : t = t' := by
  induction t generalizing t' with
  | nil =>
    cases t' with
    | nil => rfl
    | cons c t' => simp [plain] at e
  | cons c t ih =>
    cases t' with
    | nil => simp [plain] at e
    | cons c' t' =>
      unfold plain at e
      rw [List.map_cons, List.map_cons, List.cons.injEq] at e
      have h1 := ih t' (fun hm => h (List.mem_cons_of_mem _ hm)) (fun hm => h' (List.mem_cons_of_mem _ hm)) e.2
      have hc : c ≠ '_' := fun hh => h (by rw [hh]; exact List.mem_cons_self)
      have hc' : c' ≠ '_' := fun hh => h' (by rw [hh]; exact List.mem_cons_self)
      have h2 : c = c' := by
        have e1 := e.1
        split at e1
        · split at e1
          · next a b => rw [a, b]
          · exact absurd e1.symm hc'
        · split at e1
          · exact absurd e1 hc
          · exact e1
      rw [h1, h2]

private theorem plain_slash (t : Text) (h : '/' ∉ t) : '/' ∉ plain t := by
  unfold plain
  rw [List.mem_map]
  rintro ⟨c, hc, e⟩
  split at e
  · exact absurd e (by decide)
  · rw [e] at hc
    exact h hc

private theorem path_inj (a a' t t' : Text) (h : IsTime t) (h' : IsTime t') (e : dataPath a t = dataPath a' t') : a = a' ∧ t = t' := by
  unfold dataPath at e
  have e1 := congrArg List.reverse (List.append_cancel_left e)
  simp only [List.reverse_append, List.reverse_cons, List.append_assoc, List.singleton_append] at e1
  obtain ⟨h1, h2⟩ := word_inj _ _ _ _ (by rw [List.mem_reverse]; exact plain_slash t h.1) (by rw [List.mem_reverse]; exact plain_slash t' h'.1) e1
  exact ⟨List.reverse_inj.1 h2, plain_inj t t' h.2 h'.2 (List.reverse_inj.1 h1)⟩

private theorem h5_last {D : Type} (ws : List ((Text × Text) × D)) (hw : ∀ w ∈ ws, IsTime w.1.2) (k : Text × Text) (hk : IsTime k.2) :
    ws.foldl (fun h w => writeData h (dataPath w.1.1 w.1.2) w.2) (fun _ => none) (dataPath k.1 k.2)
      = (ws.filter (fun w => decide (w.1 = k))).getLast?.map (·.2) := by
  induction ws using snoc_ind with
  | h0 => rfl
  | h1 ws w ih =>
    have h := ih (fun x hx => hw x (List.mem_append_left _ hx))
    rw [List.foldl_append, List.filter_append]
    show (if dataPath k.1 k.2 = dataPath w.1.1 w.1.2 then some w.2 else _) = _
    by_cases e : w.1 = k
    · rw [if_pos (by rw [e])]
      simp [e]
    · rw [if_neg, h]
      · simp [e]
      · intro hp
        obtain ⟨h1, h2⟩ := path_inj _ _ _ _ hk (hw w (List.mem_append_right _ List.mem_cons_self)) hp
        exact e (Prod.ext h1.symm h2.symm)

private theorem written_time {D : Type} (cs : List (Call D)) (ht : ∀ c ∈ cs, IsTime c.time) : ∀ w ∈ written cs, IsTime w.1.2 := by
  intro w hw
  unfold written at hw
  rw [List.mem_flatMap] at hw
  obtain ⟨c, hc, hw⟩ := hw
  rw [List.mem_map] at hw
  obtain ⟨p, _, rfl⟩ := hw
  exact ht c hc

/-- **What is in the file**, for every program: a step for each call, in the order of the calls with the name, with its time, and with the
data that were written *last* for that name and time. -/
theorem C116_exact {D : Type} (cs : List (Call D)) (ht : ∀ c ∈ cs, IsTime c.time) (name : Text) :
    series (run cs) name = expected (fun k _ => lastWritten cs k) cs name := by
  unfold series expected
  rw [run_steps, List.map_map]
  apply List.map_congr_left
  intro c hc
  have hm := (List.mem_filter.1 hc).1
  show (c.time, (c.parts.map _).map _) = _
  rw [List.map_map]
  congr 1
  apply List.map_congr_left
  intro p _
  show (p.1 ++ c.name, (run cs).h5 (dataPath (p.1 ++ c.name) c.time)) = _
  rw [run_h5, h5_last (written cs) (written_time cs ht) (p.1 ++ c.name, c.time) (ht c hm)]
  rfl

private theorem filter_one {K D : Type} [DecidableEq K] (ws : List (K × D)) (hn : (ws.map (·.1)).Nodup) (w : K × D) (hw : w ∈ ws) :
    ws.filter (fun x => decide (x.1 = w.1)) = [w] := by
  induction ws with
  | nil => cases hw
  | cons x ws ih =>
    rw [List.map_cons, List.nodup_cons] at hn
    rcases List.mem_cons.1 hw with rfl | hw
    · rw [List.filter_cons_of_pos (by simp)]
      congr 1
      rw [List.filter_eq_nil_iff]
      intro y hy e
      have e := of_decide_eq_true e
      exact hn.1 (List.mem_map.2 ⟨y, hy, e⟩)
    · rw [List.filter_cons_of_neg, ih hn.2 hw]
      intro e
      have e := of_decide_eq_true e
      exact hn.1 (List.mem_map.2 ⟨w, hw, e.symm⟩)

/-- **Own values**: if no two attributes have the same name and the same time, each step has the data of its own call.  The full claim has no
such condition: see `C116_refuted_overwritten`. -/
theorem C116_series_partial {D : Type} (cs : List (Call D)) (ht : ∀ c ∈ cs, IsTime c.time) (hn : ((written cs).map (·.1)).Nodup) (name : Text) :
    series (run cs) name = expected (fun _ d => some d) cs name := by
  rw [C116_exact cs ht]
  unfold expected
  apply List.map_congr_left
  intro c hc
  have hm := (List.mem_filter.1 hc).1
  congr 1
  apply List.map_congr_left
  intro p hp
  have hw : ((p.1 ++ c.name, c.time), p.2) ∈ written cs := by
    unfold written
    rw [List.mem_flatMap]
    exact ⟨c, hm, List.mem_map.2 ⟨p, hp, rfl⟩⟩
  show (_, lastWritten cs _) = _
  unfold lastWritten
  have := filter_one (written cs) hn _ hw
  simp only at this
  rw [this]
  rfl

/-- Two functions with the default name, written at the default time: both steps show the values of the second. -/
theorem C116_refuted_overwritten :
    let cs : List (Call Nat) := [⟨['f'], ['0'], [([], 1)]⟩, ⟨['f'], ['0'], [([], 2)]⟩]
    (∀ c ∈ cs, IsTime c.time)
    ∧ series (run cs) ['f'] = [(['0'], [(['f'], some 2)]), (['0'], [(['f'], some 2)])]
    ∧ expected (fun _ d => some d) cs ['f'] = [(['0'], [(['f'], some 1)]), (['0'], [(['f'], some 2)])] := by
  refine ⟨?_, by decide, by decide⟩
  intro c hc
  simp only [List.mem_cons, List.not_mem_nil, or_false] at hc
  rcases hc with rfl | rfl <;> exact ⟨by decide, by decide⟩

/-- The real part of a complex function `u` and a real function `real_u` have the same place, too. -/
theorem C116_refuted_prefix :
    let cs : List (Call Nat) := [⟨"u".toList, ['0'], [("real_".toList, 1), ("imag_".toList, 2)]⟩, ⟨"real_u".toList, ['0'], [([], 3)]⟩]
    series (run cs) "u".toList = [(['0'], [("real_u".toList, some 3), ("imag_u".toList, some 2)])] := by decide

example : series (run [(⟨['u'], "0.5".toList, [([], 1)]⟩ : Call Nat), ⟨['v'], "0.5".toList, [([], 2)]⟩, ⟨['u'], "1.5".toList, [([], 3)]⟩]) ['u']
    = [("0.5".toList, [(['u'], some 1)]), ("1.5".toList, [(['u'], some 3)])] := by decide

end Verif.Props
