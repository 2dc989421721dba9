import Verif.Spec.PvdSeries
/-!
# C117: the steps of a VTK series have files of their own
-/
namespace Verif.Props
open Verif.XdmfText (Text stem)
open Verif.PvdSeries Verif.Spec.PvdSeries

private def digitsVal (t : Text) : Nat := t.foldl (fun a c => 10 * a + (c.toNat - 48)) 0

private theorem digit_val : ∀ d, d < 10 → (digit d).toNat - 48 = d := by decide

private theorem digit_plain : ∀ d, d < 10 → digit d ≠ '_' ∧ digit d ≠ '.' := by decide

private theorem val_snoc (t : Text) (c : Char) : digitsVal (t ++ [c]) = 10 * digitsVal t + (c.toNat - 48) := by
  unfold digitsVal
  rw [List.foldl_append]
  rfl

private theorem decAux_val (f n : Nat) (h : n < f) : digitsVal (decAux f n) = n := by
  induction f generalizing n with
  | zero => omega
  | succ f ih =>
    unfold decAux
    by_cases h1 : n < 10
    · rw [if_pos h1]
      show 10 * 0 + ((digit n).toNat - 48) = n
      rw [digit_val n h1]
      omega
    · rw [if_neg h1, val_snoc, ih (n / 10) (by omega), digit_val _ (Nat.mod_lt _ (by decide))]
      omega

private theorem dec_val (n : Nat) : digitsVal (dec n) = n := decAux_val (n + 1) n (by omega)

private theorem zeros_val (k : Nat) (t : Text) : digitsVal (List.replicate k '0' ++ t) = digitsVal t := by
  induction k with
  | zero => rfl
  | succ k ih =>
    rw [List.replicate_succ, List.cons_append]
    exact ih

private theorem pad_inj (k k' : Nat) (h : pad k = pad k') : k = k' := by
  have := congrArg digitsVal h
  unfold pad at this
  rwa [zeros_val, zeros_val, dec_val, dec_val] at this

private theorem dec_inj (k k' : Nat) (h : dec k = dec k') : k = k' := by
  have := congrArg digitsVal h
  rwa [dec_val, dec_val] at this

private theorem decAux_plain (f n : Nat) : ∀ c ∈ decAux f n, c ≠ '_' ∧ c ≠ '.' := by
  induction f generalizing n with
  | zero => intro c hc; cases hc
  | succ f ih =>
    intro c hc
    unfold decAux at hc
    split at hc
    · next h =>
      rw [List.mem_singleton] at hc
      rw [hc]
      exact digit_plain n h
    · rw [List.mem_append, List.mem_singleton] at hc
      rcases hc with hc | hc
      · exact ih _ c hc
      · rw [hc]
        exact digit_plain _ (Nat.mod_lt _ (by decide))

private theorem pad_plain (n : Nat) : '.' ∉ pad n := by
  unfold pad
  rw [List.mem_append]
  rintro (h | h)
  · exact absurd (List.eq_of_mem_replicate h) (by decide)
  · exact (decAux_plain _ _ _ h).2 rfl

private theorem decAux_length (k f n : Nat) (hk : n < 10 ^ (k + 1)) : (decAux f n).length ≤ k + 1 := by
  induction k generalizing f n with
  | zero =>
    cases f with
    | zero => simp [decAux]
    | succ f =>
      unfold decAux
      rw [if_pos (by omega)]
      simp
  | succ k ih =>
    cases f with
    | zero => simp [decAux]
    | succ f =>
      unfold decAux
      split
      · simp
      · have := ih f (n / 10) (by rw [Nat.pow_succ] at hk; omega)
        simp only [List.length_append, List.length_singleton]
        omega

private theorem counter_eq (n : Nat) (h : n < 1000000) : counter n = some (pad n) := by
  unfold counter
  rw [if_neg]
  have := decAux_length 5 (n + 1) n (by omega)
  unfold dec
  omega

private theorem dropWhile_none (l : Text) (h : '.' ∉ l) : l.dropWhile (· != '.') = [] := by
  induction l with
  | nil => rfl
  | cons c l ih =>
    have hc : c ≠ '.' := fun e => h (by rw [e]; exact List.mem_cons_self)
    rw [List.dropWhile_cons, if_pos (by simp [hc])]
    exact ih (fun hm => h (List.mem_cons_of_mem _ hm))

private theorem stem_plain (t : Text) (h : '.' ∉ t) : stem t = t := by
  unfold stem
  rw [dropWhile_none _ (by rw [List.mem_reverse]; exact h)]

private theorem cut_inj (w w' r r' : Text) (h : '_' ∉ w) (h' : '_' ∉ w') (e : w ++ '_' :: r = w' ++ '_' :: r') : w = w' ∧ r = r' := by
  induction w generalizing w' with
  | nil =>
    cases w' with
    | nil =>
      rw [List.nil_append, List.nil_append, List.cons.injEq] at e
      exact ⟨rfl, e.2⟩
    | cons c w' =>
      rw [List.nil_append, List.cons_append, List.cons.injEq] at e
      exact absurd (by rw [e.1]; exact List.mem_cons_self) h'
  | cons c w ih =>
    cases w' with
    | nil =>
      rw [List.nil_append, List.cons_append, List.cons.injEq] at e
      exact absurd (by rw [← e.1]; exact List.mem_cons_self) h
    | cons c' w' =>
      rw [List.cons_append, List.cons_append, List.cons.injEq] at e
      obtain ⟨h1, h2⟩ := ih w' (fun hm => h (List.mem_cons_of_mem _ hm)) (fun hm => h' (List.mem_cons_of_mem _ hm)) e.2
      exact ⟨by rw [e.1, h1], h2⟩

private theorem dec_under (n : Nat) : '_' ∉ dec n := fun h => (decAux_plain _ _ _ h).1 rfl

private theorem vtu_eq (s : Text) (hs : '.' ∉ s) (k r : Nat) :
    vtuName s (pad k) r = s ++ ('_' :: 'p' :: (dec r ++ '_' :: pad k)) ++ ['.', 'v', 't', 'u'] := by
  unfold vtuName
  rw [stem_plain]
  rw [List.mem_append, List.mem_cons, List.mem_cons, List.mem_append, List.mem_cons]
  rintro (h | h | h | h | h | h)
  · exact hs h
  · exact absurd h (by decide)
  · exact absurd h (by decide)
  · exact (decAux_plain _ _ _ h).2 rfl
  · exact absurd h (by decide)
  · exact pad_plain k h

private theorem pvtu_eq (s : Text) (hs : '.' ∉ s) (k : Nat) : pvtuName s (pad k) = s ++ pad k ++ ['.', 'p', 'v', 't', 'u'] := by
  unfold pvtuName
  rw [stem_plain]
  rw [List.mem_append]
  rintro (h | h)
  · exact hs h
  · exact pad_plain k h

private theorem vtu_inj (s : Text) (hs : '.' ∉ s) (k k' r r' : Nat) (h : vtuName s (pad k) r = vtuName s (pad k') r') : r = r' ∧ k = k' := by
  rw [vtu_eq s hs, vtu_eq s hs] at h
  have h1 := List.append_cancel_left (List.append_cancel_right h)
  rw [List.cons.injEq, List.cons.injEq] at h1
  obtain ⟨h2, h3⟩ := cut_inj _ _ _ _ (dec_under r) (dec_under r') h1.2.2
  exact ⟨dec_inj _ _ h2, pad_inj _ _ h3⟩

private theorem pvtu_inj (s : Text) (hs : '.' ∉ s) (k k' : Nat) (h : pvtuName s (pad k) = pvtuName s (pad k')) : k = k' := by
  rw [pvtu_eq s hs, pvtu_eq s hs] at h
  exact pad_inj _ _ (List.append_cancel_left (List.append_cancel_right h))

private theorem vtu_ne (s : Text) (hs : '.' ∉ s) (k k' r : Nat) : vtuName s (pad k) r ≠ pvtuName s (pad k') := by
  rw [vtu_eq s hs, pvtu_eq s hs]
  intro h
  have := congrArg List.reverse h
  simp at this

private theorem disk_get {D : Type} (ws : List (Text × Content D)) (hc : ∀ w ∈ ws, ∀ w' ∈ ws, w.1 = w'.1 → w.2 = w'.2) (w : Text × Content D)
    (hw : w ∈ ws) : disk ws w.1 = some w.2 := by
  have key : ∀ (l : List (Text × Content D)) (fs : Text → Option (Content D)), (∀ x ∈ l, x ∈ ws) → (fs w.1 = some w.2 ∨ w ∈ l) →
      l.foldl (fun fs w q => if q = w.1 then some w.2 else fs q) fs w.1 = some w.2 := by
    intro l
    induction l with
    | nil =>
      intro fs _ h
      rcases h with h | h
      · exact h
      · cases h
    | cons x l ih =>
      intro fs hl h
      rw [List.foldl_cons]
      apply ih _ (fun y hy => hl y (List.mem_cons_of_mem _ hy))
      by_cases e : w.1 = x.1
      · left
        show (if w.1 = x.1 then some x.2 else _) = _
        rw [if_pos e, hc w hw x (hl x List.mem_cons_self) e]
      · rcases h with h | h
        · left
          show (if w.1 = x.1 then some x.2 else _) = _
          rw [if_neg e]
          exact h
        · rcases List.mem_cons.1 h with h | h
          · exact absurd (by rw [h]) e
          · exact Or.inr h
  exact key ws _ (fun x h => h) (Or.inr hw)

private theorem snoc_ind' {A : Type} {P : List A → Prop} (h0 : P []) (h1 : ∀ l a, P l → P (l ++ [a])) (l : List A) : P l := by
  have : ∀ m : List A, P m.reverse := by
    intro m
    induction m with
    | nil => exact h0
    | cons a m ih =>
      rw [List.reverse_cons]
      exact h1 _ _ ih
  have h := this l.reverse
  rwa [List.reverse_reverse] at h

private theorem run_eq {T D : Type} (file : Text) (n : Nat) (calls : List (Call T D)) (h : calls.length ≤ 1000000) :
    run file n calls = some ⟨calls.zipIdx.map (fun x => (x.1.time, pvtuName (stem file) (pad x.2))),
      calls.zipIdx.flatMap (fun x => filesOf (stem file) n (pad x.2) x.1)⟩ := by
  induction calls using snoc_ind' with
  | h0 => rfl
  | h1 cs c ih =>
    rw [List.length_append, List.length_singleton] at h
    have ih := ih (by omega)
    unfold run at ih ⊢
    rw [List.foldl_append, ih]
    show write (stem file) n _ c = _
    unfold write
    simp only [List.length_map, List.length_zipIdx]
    rw [counter_eq _ (by omega)]
    simp [List.zipIdx_append]

/-- **Own files**: if the name of the PVD file has no dot but that of its extension, a reader finds in the step of each call the time and what
each of the ranks has written in that call, in whatever order the ranks have written all their files, for up to a million steps.  The full claim
has no condition on the name and no bound: see `C117_refuted_dot` and `C117_refuted_million`. -/
theorem C117_series_partial {T D : Type} (s ext : Text) (hs : '.' ∉ s) (hn : s ≠ []) (he : '.' ∉ ext) (n : Nat) (calls : List (Call T D))
    (hl : calls.length ≤ 1000000) :
    ∃ st, run (s ++ '.' :: ext) n calls = some st ∧ ∀ ws, SameWrites ws st.writes → readSeries st.entries (disk ws) = steps n calls := by
  have hstem : stem (s ++ '.' :: ext) = s := by
    unfold stem
    have h1 : (s ++ '.' :: ext).reverse = ext.reverse ++ '.' :: s.reverse := by simp
    have h2 : ∀ l : Text, '.' ∉ l → (l ++ '.' :: s.reverse).dropWhile (· != '.') = '.' :: s.reverse := by
      intro l
      induction l with
      | nil => intro _; rfl
      | cons c l ih =>
        intro h
        have hc : c ≠ '.' := fun e => h (by rw [e]; exact List.mem_cons_self)
        rw [List.cons_append, List.dropWhile_cons, if_pos (by simp [hc])]
        exact ih (fun hm => h (List.mem_cons_of_mem _ hm))
    rw [h1, h2 _ (by rw [List.mem_reverse]; exact he)]
    cases hr : s.reverse with
    | nil => exact absurd (List.reverse_eq_nil_iff.1 hr) hn
    | cons a b =>
      show (a :: b).reverse = s
      rw [← hr, List.reverse_reverse]
  refine ⟨_, run_eq _ n calls hl, ?_⟩
  rw [hstem]
  intro ws hw
  simp only at hw ⊢
  have hmem : ∀ w, w ∈ ws ↔ ∃ x ∈ calls.zipIdx, w ∈ filesOf s n (pad x.2) x.1 := by
    intro w
    rw [hw w, List.mem_flatMap]
  have hfun : ∀ x ∈ calls.zipIdx, ∀ y ∈ calls.zipIdx, x.2 = y.2 → x.1 = y.1 := by
    intro x hx y hy e
    have h1 := List.mem_zipIdx_iff_getElem?.1 hx
    have h2 := List.mem_zipIdx_iff_getElem?.1 hy
    rw [e, h2] at h1
    exact (Option.some.inj h1).symm
  have hcons : ∀ w ∈ ws, ∀ w' ∈ ws, w.1 = w'.1 → w.2 = w'.2 := by
    intro w h w' h' e
    obtain ⟨x, hx, h⟩ := (hmem w).1 h
    obtain ⟨y, hy, h'⟩ := (hmem w').1 h'
    unfold filesOf at h h'
    rw [List.mem_append, List.mem_map, List.mem_singleton] at h h'
    rcases h with ⟨r, _, rfl⟩ | rfl <;> rcases h' with ⟨r', _, rfl⟩ | rfl
    · obtain ⟨h1, h2⟩ := vtu_inj s hs _ _ _ _ e
      have h3 := hfun x hx y hy h2
      simp only [h1, h3]
    · exact absurd e (vtu_ne s hs _ _ _)
    · exact absurd e.symm (vtu_ne s hs _ _ _)
    · have h2 := pvtu_inj s hs _ _ e
      simp only [h2]
  unfold readSeries steps
  rw [List.map_map]
  have hz : calls = calls.zipIdx.map (·.1) := by simp
  conv => rhs; rw [hz, List.map_map]
  apply List.map_congr_left
  intro x hx
  show (x.1.time, partsAt (disk ws) (pvtuName s (pad x.2))) = (x.1.time, _)
  congr 1
  have hp := disk_get ws hcons (pvtuName s (pad x.2), Content.parts ((List.range n).map (vtuName s (pad x.2))))
    ((hmem _).2 ⟨x, hx, List.mem_append_right _ List.mem_cons_self⟩)
  unfold partsAt
  simp only at hp
  rw [hp]
  simp only
  rw [List.map_map]
  apply List.map_congr_left
  intro r hr
  have hv := disk_get ws hcons (vtuName s (pad x.2) r, Content.piece (x.1.data r))
    ((hmem _).2 ⟨x, hx, List.mem_append_left _ (List.mem_map.2 ⟨r, hr, rfl⟩)⟩)
  simp only at hv
  show pieceAt (disk ws) (vtuName s (pad x.2) r) = some (x.1.data r)
  unfold pieceAt
  rw [hv]

/-- With the name `u_0.5.pvd`, all ranks write to the same file in every step, and all steps show what was written last. -/
theorem C117_refuted_dot :
    (run "u_0.5.pvd".toList 2 [(⟨0, fun r => 10 + r⟩ : Call Nat Nat), ⟨1, fun r => 20 + r⟩]).map (fun st => readSeries st.entries (disk st.writes))
      = some [(0, [some 21, some 21]), (1, [some 21, some 21])] := by decide

/-- The millionth and first step raises an exception. -/
theorem C117_refuted_million : counter 1000000 = none := by decide

example : (run "u.pvd".toList 2 [(⟨0, fun r => 10 + r⟩ : Call Nat Nat), ⟨1, fun r => 20 + r⟩]).map (fun st => readSeries st.entries (disk st.writes))
      = some [(0, [some 10, some 11]), (1, [some 20, some 21])] := by decide

example : vtuName "u".toList (pad 12) 3 = "u_p3_000012.vtu".toList ∧ pvtuName "u".toList (pad 12) = "u000012.pvtu".toList := by decide

end Verif.Props
