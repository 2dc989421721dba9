import Verif.Lemmas.BlockSpaces
import Verif.Props.C68_SubSpace
/-!
# C85: conditions reach exactly the blocks that they constrain
-/
namespace Verif.Props
open Verif.SubSpace Verif.BlockSpaces Verif.Spec.BlockSpaces

/-! ## Sub-spaces -/

/-- C85: `V.contains(W)` says whether `W` is `V`, a sub-space of a sub-space … of `V`, or the same
part of the same space, for all spaces that a program makes; clones and collapsed spaces are new.  The
random numbers of the spaces are assumed to be different. -/
theorem C85_contains {uuid : Nat → Nat} (hu : ∀ i j, uuid i = uuid j → i = j) {ops : List Op} {st : List Space} (h : run uuid ops = some st) (a b : Nat) :
    contains st a b = true ↔ Within ops a b := by
  have hlen := (run_get h).1
  unfold contains
  constructor
  · intro hc
    cases hA : st[a]? with
    | none => rw [hA] at hc; cases hc
    | some A =>
      cases hB : st[b]? with
      | none => rw [hA, hB] at hc; cases hc
      | some B =>
        rw [hA, hB] at hc
        simp only at hc
        obtain ⟨ra, _, hfa, hra⟩ := run_from h a A hA
        obtain ⟨rb, _, hfb, hrb⟩ := run_from h b B hB
        split_ifs at hc with h1 h2 h3
        · subst h1
          exact ⟨ra, A.comp, [], hfa, by rw [List.append_nil]; exact hfa⟩
        · have hr : ra = rb := hu _ _ (by rw [← hra, ← hrb]; exact not_not.mp h2)
          subst hr
          refine ⟨ra, A.comp, B.comp.drop A.comp.length, hfa, ?_⟩
          rw [beq_iff_eq] at hc
          have : A.comp ++ B.comp.drop A.comp.length = B.comp := by
            conv_lhs => rw [hc]
            rw [List.length_take, Nat.min_eq_left (by omega), List.take_append_drop]
          rw [this]
          exact hfb
  · rintro ⟨r, p, q, hfa, hfb⟩
    have ha : a < st.length := by rw [hlen]; exact from_lt hfa
    have hb : b < st.length := by rw [hlen]; exact from_lt hfb
    have hA := List.getElem?_eq_getElem ha
    have hB := List.getElem?_eq_getElem hb
    rw [hA, hB]
    simp only
    obtain ⟨ra, _, hfa', hra⟩ := run_from h a _ hA
    obtain ⟨rb, _, hfb', hrb⟩ := run_from h b _ hB
    obtain ⟨e1, e2⟩ := from_unique hfa hfa'
    obtain ⟨e3, e4⟩ := from_unique hfb hfb'
    subst e1 e3
    split_ifs with h1 h2 h3
    · rfl
    · exact absurd (by rw [hra, hrb]) h2
    · rw [e2, e4, List.length_append] at h3
      omega
    · rw [e2, e4, beq_iff_eq, List.take_left']
      rfl

/-- C85: all dofs of a space that `V` contains are dofs of `V`. -/
theorem C85_dofs {uuid : Nat → Nat} (hu : ∀ i j, uuid i = uuid j → i = j) {ops : List Op} {st : List Space} (h : run uuid ops = some st) {sh : List Nat} {nc : Nat}
    (hcreate : ∀ (k : Nat) e D, ops[k]? = some (.create e D) → e.Ok sh ∧ D.IsFor e nc)
    (hcollapse : ∀ (k V : Nat) D A, ops[k]? = some (.collapse V D) → st[V]? = some A → D.IsFor A.elem nc)
    {a b : Nat} {A B : Space} (hA : st[a]? = some A) (hB : st[b]? = some B) (hc : contains st a b = true) :
    ∀ x, HasDof B.dm B.elem nc x → HasDof A.dm A.elem nc x := by
  obtain ⟨r, p, q, hfa, hfb⟩ := (C85_contains hu h a b).mp hc
  obtain ⟨a1, a2, a3⟩ := run_dofmaps h hcreate hcollapse a A hA
  obtain ⟨b1, b2, b3⟩ := run_dofmaps h hcreate hcollapse b B hB
  obtain ⟨R, o, s, hR, hsub, hpart⟩ := a3 r p hfa
  obtain ⟨R', o', s', hR', hsub', hpart'⟩ := b3 r _ hfb
  rw [hR] at hR'
  cases hR'
  rw [part_append, hpart, Option.bind_some] at hpart'
  obtain ⟨⟨o2, s2, e2⟩, hq, heq⟩ := Option.map_eq_some_iff.mp hpart'
  simp only [Prod.mk.injEq] at heq
  obtain ⟨_, _, rfl⟩ := heq
  obtain ⟨W, hW, _, _, _, hdofs⟩ := C68_view a1 a2 q hq
  have hWB : W = B.dm := by
    unfold DofMap.sub at hsub hsub' hW
    rw [List.foldlM_append, hsub] at hsub'
    rw [Option.bind_eq_bind, Option.bind_some, hW] at hsub'
    exact Option.some.inj hsub'
  subst hWB
  rintro x ⟨c, j, hcn, hj, hx⟩
  obtain ⟨hlt, y, hy1, hy2⟩ := hdofs c hcn j hj
  rw [hx] at hy1
  cases hy1
  exact ⟨c, o2 + s2 * j, hcn, hlt, hy2⟩

/-! ## Spaces of forms -/

theorem shape_ok {fs : List (List (Option Form))} {m : Nat} (hm : 0 < m) (hne : fs ≠ []) (hcol : Columns m fs) :
    (fs.headD []).length = m ∧ ¬ (fs.any (fun row => row.length ≠ (fs.headD []).length) ∨ (fs.headD []).length = 0) := by
  have h1 : (fs.headD []).length = m := by
    cases fs with
    | nil => exact absurd rfl hne
    | cons row fs => exact hcol row (List.mem_cons_self ..)
  refine ⟨h1, ?_⟩
  rw [h1]
  rintro (h | h)
  · obtain ⟨row, hr, hx⟩ := List.any_eq_true.mp h
    exact absurd (hcol row hr) (of_decide_eq_true hx)
  · omega

theorem formAt_lt {fs : List (List (Option Form))} {m : Nat} (hcol : Columns m fs) {i j : Nat} {f : Form} (h : FormAt fs i j f) : i < fs.length ∧ j < m := by
  obtain ⟨row, hr, hf⟩ := h
  have hi : i < fs.length := by
    by_contra hc
    rw [List.getElem?_eq_none (by omega)] at hr
    cases hr
  refine ⟨hi, ?_⟩
  by_contra hc
  rw [List.getElem?_eq_none (by rw [hcol row (List.mem_of_getElem? hr)]; omega)] at hf
  cases hf

theorem spaceAt_ok {k : Nat} {fs : List (List (Option Form))} : (∃ V, mapEntries (spaceAt k) fs = some V) ↔ HaveSpaces (k + 1) fs := by
  rw [mapEntries_ok (spaceAt k) rfl]
  refine forall_congr' fun i => forall_congr' fun j => forall_congr' fun f => imp_congr_right fun _ => ?_
  unfold spaceAt
  constructor
  · rintro ⟨x, hx⟩
    obtain ⟨y, hy, _⟩ := Option.map_eq_some_iff.mp hx
    obtain ⟨hlt, _⟩ := List.getElem?_eq_some_iff.mp hy
    omega
  · intro hlt
    show ∃ x, Option.map some f.spaces[k]? = some x
    rw [List.getElem?_eq_getElem (show k < f.spaces.length by omega)]
    exact ⟨_, rfl⟩

theorem spaceAt_entry {k : Nat} {fs : List (List (Option Form))} {V : List (List (Option Nat))} (hV : mapEntries (spaceAt k) fs = some V) {i j s : Nat} :
    entry V i j = some s ↔ ∃ f, FormAt fs i j f ∧ f.spaces[k]? = some s := by
  rw [entry_some (g := spaceAt k) rfl hV]
  refine exists_congr fun f => and_congr_right fun _ => ?_
  unfold spaceAt
  constructor
  · intro h
    obtain ⟨y, hy, h2⟩ := Option.map_eq_some_iff.mp h
    cases h2
    exact hy
  · intro h
    show Option.map some f.spaces[k]? = some (some s)
    rw [h]
    rfl

/-- C85: with `index=0` an array of forms gives the test space of each row, exactly if the forms of
each row have the same one. -/
theorem C85_rows {fs : List (List (Option Form))} {m : Nat} (hm : 0 < m) (hne : fs ≠ []) (hcol : Columns m fs) (L : List (Option Nat)) :
    extractArray fs (some 0) = some L ↔ HaveSpaces 1 fs ∧ TestSpaces fs L := by
  obtain ⟨h1, h2⟩ := shape_ok hm hne hcol
  unfold extractArray
  simp only
  rw [if_neg h2, h1, Option.bind_eq_some_iff]
  constructor
  · rintro ⟨V, hV, hL⟩
    obtain ⟨k1, k2⟩ := (uniqueSpaces_some hm).mp hL
    refine ⟨spaceAt_ok.mp ⟨V, hV⟩, k1, fun i s => ?_⟩
    rw [k2]
    constructor
    · rintro ⟨_, j, _, hj⟩
      exact ⟨j, spaceAt_entry hV |>.mp hj⟩
    · rintro ⟨j, f, hf, hs⟩
      obtain ⟨l1, l2⟩ := formAt_lt hcol hf
      exact ⟨l1, j, l2, (spaceAt_entry hV).mpr ⟨f, hf, hs⟩⟩
  · rintro ⟨h3, h4, h5⟩
    obtain ⟨V, hV⟩ := spaceAt_ok.mpr h3
    refine ⟨V, hV, (uniqueSpaces_some hm).mpr ⟨h4, fun i s => ?_⟩⟩
    rw [h5]
    constructor
    · rintro ⟨j, f, hf, hs⟩
      obtain ⟨l1, l2⟩ := formAt_lt hcol hf
      exact ⟨l1, j, l2, (spaceAt_entry hV).mpr ⟨f, hf, hs⟩⟩
    · rintro ⟨_, j, _, hj⟩
      exact ⟨j, spaceAt_entry hV |>.mp hj⟩

/-- C85: with `index=1` an array of forms gives the trial space of each column. -/
theorem C85_columns {fs : List (List (Option Form))} {m : Nat} (hm : 0 < m) (hne : fs ≠ []) (hcol : Columns m fs) (L : List (Option Nat)) :
    extractArray fs (some 1) = some L ↔ HaveSpaces 2 fs ∧ TrialSpaces m fs L := by
  obtain ⟨h1, h2⟩ := shape_ok hm hne hcol
  have hn : 0 < fs.length := List.length_pos_iff.mpr hne
  unfold extractArray
  simp only
  rw [if_neg h2, h1, Option.bind_eq_some_iff]
  constructor
  · rintro ⟨V, hV, hL⟩
    obtain ⟨k1, k2⟩ := (uniqueSpaces_some hn).mp hL
    refine ⟨spaceAt_ok.mp ⟨V, hV⟩, k1, fun j s => ?_⟩
    rw [k2]
    constructor
    · rintro ⟨_, i, _, hi⟩
      exact ⟨i, spaceAt_entry hV |>.mp hi⟩
    · rintro ⟨i, f, hf, hs⟩
      obtain ⟨l1, l2⟩ := formAt_lt hcol hf
      exact ⟨l2, i, l1, (spaceAt_entry hV).mpr ⟨f, hf, hs⟩⟩
  · rintro ⟨h3, h4, h5⟩
    obtain ⟨V, hV⟩ := spaceAt_ok.mpr h3
    refine ⟨V, hV, (uniqueSpaces_some hn).mpr ⟨h4, fun j s => ?_⟩⟩
    rw [h5]
    constructor
    · rintro ⟨i, f, hf, hs⟩
      obtain ⟨l1, l2⟩ := formAt_lt hcol hf
      exact ⟨l2, i, l1, (spaceAt_entry hV).mpr ⟨f, hf, hs⟩⟩
    · rintro ⟨_, i, _, hi⟩
      exact ⟨i, spaceAt_entry hV |>.mp hi⟩

/-- C85: a list of linear forms gives their test spaces, exactly if all have rank one. -/
theorem C85_list (fs : List (Option Form)) (L : List (Option Nat)) :
    extractList fs none = some L ↔ L.length = fs.length ∧ ∀ (i : Nat) o, fs[i]? = some o →
      (o = none ∧ L[i]? = some none) ∨ ∃ s, o = some ⟨[s]⟩ ∧ L[i]? = some (some s) := by
  unfold extractList
  rw [if_neg (fun h => h rfl), mapM_forall]
  refine and_congr_right fun hlen => forall_congr' fun i => forall_congr' fun o => imp_congr_right fun ho => ?_
  have hi : i < L.length := by
    rw [hlen]
    by_contra hc
    rw [List.getElem?_eq_none (by omega)] at ho
    cases ho
  rw [List.getElem?_eq_getElem hi]
  cases o with
  | none => simp [linearSpace]
  | some f =>
    obtain ⟨sp⟩ := f
    unfold linearSpace
    simp only
    match sp with
    | [] => simp
    | [s] => simp
    | s :: s' :: sp => simp

/-- C85: wrong values of `index`, rows of different lengths and arrays without entries are refused. -/
theorem C85_refused (fs : List (List (Option Form))) (index : Option Nat) (h : (index ≠ some 0 ∧ index ≠ some 1) ∨ (∀ m, ¬ Columns m fs) ∨ Columns 0 fs) :
    extractArray fs index = none := by
  unfold extractArray
  simp only
  split
  · rfl
  · rename_i hc
    rcases h with h | h | h
    · match index with
      | none => rfl
      | some 0 => exact absurd rfl h.1
      | some 1 => exact absurd rfl h.2
      | some (n + 2) => rfl
    · refine absurd ?_ (h (fs.headD []).length)
      intro row hr
      by_contra hx
      exact hc (.inl (List.any_eq_true.mpr ⟨row, hr, decide_eq_true hx⟩))
    · refine absurd (.inr ?_) hc
      cases fs with
      | nil => rfl
      | cons row fs => exact h row (List.mem_cons_self ..)

/-- C85: the spaces that the C++ layer deduces for a block matrix are those of the Python layer, and
there are some exactly if every row and every column has a form. -/
theorem C85_cpp {fs : List (List (Option Form))} {m : Nat} (hm : 0 < m) (hne : fs ≠ []) (hcol : Columns m fs) (L0 L1 : List Nat) :
    commonSpaces fs = some (L0, L1) ↔ extractArray fs (some 0) = some (L0.map some) ∧ extractArray fs (some 1) = some (L1.map some) := by
  obtain ⟨h1, _⟩ := shape_ok hm hne hcol
  have hany : ¬ (fs.any fun row => (fs.headD []).length < row.length) = true := by
    rw [h1]
    intro h
    obtain ⟨row, hr, hx⟩ := List.any_eq_true.mp h
    have := hcol row hr
    have := of_decide_eq_true hx
    omega
  have hid : ∀ (S : List (Option Nat)) (L : List Nat), S.mapM id = some L ↔ S = L.map some := by
    intro S
    induction S with
    | nil => intro L; rw [List.mapM_nil]; cases L <;> simp
    | cons o S ih =>
      intro L
      rw [List.mapM_cons]
      simp only [id, Option.bind_eq_bind, Option.bind_eq_some_iff, Option.pure_def, Option.some.injEq]
      constructor
      · rintro ⟨x, rfl, L', hL', rfl⟩
        rw [(ih L').mp hL']
        rfl
      · intro h
        cases L with
        | nil => cases h
        | cons x L =>
          simp only [List.map_cons, List.cons.injEq] at h
          exact ⟨x, h.1, L, (ih L).mpr h.2, rfl⟩
  have hpair : ∀ f : Form, ∀ x : Nat × Nat, spacePair (some f) = some (some x) ↔ f.spaces[0]? = some x.1 ∧ f.spaces[1]? = some x.2 := by
    intro f x
    obtain ⟨u, v⟩ := x
    unfold spacePair
    simp only [Option.bind_eq_some_iff, Option.map_eq_some_iff, Option.some.injEq, Prod.mk.injEq]
    constructor
    · rintro ⟨a, ha, b, hb, rfl, rfl⟩
      exact ⟨ha, hb⟩
    · rintro ⟨h1, h2⟩
      exact ⟨u, h1, v, h2, rfl, rfl⟩
  have hok : (∃ V, mapEntries spacePair fs = some V) ↔ HaveSpaces 2 fs := by
    rw [mapEntries_ok spacePair rfl]
    refine forall_congr' fun i => forall_congr' fun j => forall_congr' fun f => imp_congr_right fun _ => ?_
    constructor
    · rintro ⟨x, hx⟩
      unfold spacePair at hx
      simp only [Option.bind_eq_some_iff, Option.map_eq_some_iff] at hx
      obtain ⟨a, _, b, hb, _⟩ := hx
      obtain ⟨hlt, _⟩ := List.getElem?_eq_some_iff.mp hb
      omega
    · intro hlt
      have := (hpair f (f.spaces[0]'(by omega), f.spaces[1]'(by omega))).mpr ⟨List.getElem?_eq_getElem (by omega), List.getElem?_eq_getElem (by omega)⟩
      exact ⟨_, this⟩
  have hmem : ∀ i j, (i, j) ∈ ((List.range fs.length).flatMap fun i => (List.range m).map fun j => (i, j)) ↔ i < fs.length ∧ j < m := by
    intro i j
    simp only [List.mem_flatMap, List.mem_map, List.mem_range, Prod.mk.injEq]
    constructor
    · rintro ⟨a, ha, b, hb, rfl, rfl⟩
      exact ⟨ha, hb⟩
    · rintro ⟨a, b⟩
      exact ⟨i, a, j, b, rfl, rfl⟩
  have hswap : ∀ i j, (j, i) ∈ ((List.range fs.length).flatMap fun i => (List.range m).map fun j => (i, j)).map Prod.swap ↔ i < fs.length ∧ j < m := by
    intro i j
    rw [← hmem, List.mem_map]
    constructor
    · rintro ⟨⟨a, b⟩, h, he⟩
      cases he
      exact h
    · intro h
      exact ⟨_, h, rfl⟩
  have hrep : ∀ (n i s : Nat), (List.replicate n (none : Option Nat))[i]? ≠ some (some s) := by
    intro n i s h
    rw [List.getElem?_replicate] at h
    split at h <;> cases h
  -- what the loop gives
  have hloop : ∀ V, mapEntries spacePair fs = some V → ∀ S0 S1,
      ((List.range fs.length).flatMap fun i => (List.range m).map fun j => (i, j)).foldlM (commonStep (entry V))
        (List.replicate fs.length none, List.replicate m none) = some (S0, S1) ↔ TestSpaces fs S0 ∧ TrialSpaces m fs S1 := by
    intro V hV S0 S1
    have hent : ∀ {i j : Nat} {x : Nat × Nat}, entry V i j = some x ↔ ∃ f, FormAt fs i j f ∧ f.spaces[0]? = some x.1 ∧ f.spaces[1]? = some x.2 := by
      intro i j x
      rw [entry_some (g := spacePair) rfl hV]
      exact exists_congr fun f => and_congr_right fun _ => hpair f x
    have hsp := hok.mp ⟨V, hV⟩
    have hfst : ∀ {i j s : Nat}, ((entry V i j).map Prod.fst = some s) ↔ ∃ f, FormAt fs i j f ∧ f.spaces[0]? = some s := by
      intro i j s
      rw [Option.map_eq_some_iff]
      constructor
      · rintro ⟨x, hx, rfl⟩
        obtain ⟨f, a, b, _⟩ := hent.mp hx
        exact ⟨f, a, b⟩
      · rintro ⟨f, a, b⟩
        have := hsp i j f a
        exact ⟨(s, f.spaces[1]'(by omega)), hent.mpr ⟨f, a, b, List.getElem?_eq_getElem (by omega)⟩, rfl⟩
    have hsnd : ∀ {i j s : Nat}, ((entry V i j).map Prod.snd = some s) ↔ ∃ f, FormAt fs i j f ∧ f.spaces[1]? = some s := by
      intro i j s
      rw [Option.map_eq_some_iff]
      constructor
      · rintro ⟨x, hx, rfl⟩
        obtain ⟨f, a, _, b⟩ := hent.mp hx
        exact ⟨f, a, b⟩
      · rintro ⟨f, a, b⟩
        have := hsp i j f a
        exact ⟨(f.spaces[0]'(by omega), s), hent.mpr ⟨f, a, List.getElem?_eq_getElem (by omega), b⟩, rfl⟩
    rw [commonStep_loop]
    simp only [Option.bind_eq_some_iff, Option.map_eq_some_iff, Prod.mk.injEq]
    constructor
    · rintro ⟨T0, hT0, T1, hT1, rfl, rfl⟩
      obtain ⟨_, a2, a3⟩ := puts_some.mp hT0
      obtain ⟨_, b2, b3⟩ := puts_some.mp hT1
      refine ⟨⟨by rw [a2, List.length_replicate], fun i s => ?_⟩, ⟨by rw [b2, List.length_replicate], fun j s => ?_⟩⟩
      · rw [a3, mem_present]
        constructor
        · rintro (h | ⟨j, _, h⟩)
          · exact absurd h (hrep _ _ _)
          · exact ⟨j, hfst.mp h⟩
        · rintro ⟨j, f, hf, hs⟩
          exact .inr ⟨j, (hmem i j).mpr (formAt_lt hcol hf), hfst.mpr ⟨f, hf, hs⟩⟩
      · rw [b3, mem_present]
        constructor
        · rintro (h | ⟨i, _, h⟩)
          · exact absurd h (hrep _ _ _)
          · exact ⟨i, hsnd.mp h⟩
        · rintro ⟨i, f, hf, hs⟩
          exact .inr ⟨i, (hswap i j).mpr (formAt_lt hcol hf), hsnd.mpr ⟨f, hf, hs⟩⟩
    · rintro ⟨⟨a1, a2⟩, b1, b2⟩
      refine ⟨S0, puts_some.mpr ⟨?_, by rw [a1, List.length_replicate], fun i s => ?_⟩, S1, puts_some.mpr ⟨?_, by rw [b1, List.length_replicate], fun j s => ?_⟩, rfl, rfl⟩
      · rintro ⟨i, s⟩ hp
        obtain ⟨j, hj, _⟩ := mem_present.mp hp
        rw [List.length_replicate]
        exact ((hmem i j).mp hj).1
      · rw [a2, mem_present]
        constructor
        · rintro ⟨j, f, hf, hs⟩
          exact .inr ⟨j, (hmem i j).mpr (formAt_lt hcol hf), hfst.mpr ⟨f, hf, hs⟩⟩
        · rintro (h | ⟨j, _, h⟩)
          · exact absurd h (hrep _ _ _)
          · exact ⟨j, hfst.mp h⟩
      · rintro ⟨j, s⟩ hp
        obtain ⟨i, hi, _⟩ := mem_present.mp hp
        rw [List.length_replicate]
        exact ((hswap i j).mp hi).2
      · rw [b2, mem_present]
        constructor
        · rintro ⟨i, f, hf, hs⟩
          exact .inr ⟨i, (hswap i j).mpr (formAt_lt hcol hf), hsnd.mpr ⟨f, hf, hs⟩⟩
        · rintro (h | ⟨i, _, h⟩)
          · exact absurd h (hrep _ _ _)
          · exact ⟨i, hsnd.mp h⟩
  rw [C85_rows hm hne hcol, C85_columns hm hne hcol]
  unfold commonSpaces
  simp only
  rw [if_neg hany, h1]
  simp only [Option.bind_eq_bind, Option.bind_eq_some_iff, Option.some.injEq, Prod.mk.injEq]
  constructor
  · rintro ⟨V, hV, ⟨S0, S1⟩, hS, T0, hT0, T1, hT1, rfl, rfl⟩
    obtain ⟨k1, k2⟩ := (hloop V hV S0 S1).mp hS
    have hsp := hok.mp ⟨V, hV⟩
    rw [(hid S0 T0).mp hT0] at k1
    rw [(hid S1 T1).mp hT1] at k2
    exact ⟨⟨fun i j f hf => by have := hsp i j f hf; omega, k1⟩, hsp, k2⟩
  · rintro ⟨⟨_, k1⟩, hsp, k2⟩
    obtain ⟨V, hV⟩ := hok.mpr hsp
    exact ⟨V, hV, (L0.map some, L1.map some), (hloop V hV _ _).mpr ⟨k1, k2⟩, L0, (hid _ _).mpr rfl, L1, (hid _ _).mpr rfl, rfl, rfl⟩

/-! ## Conditions of blocks -/

/-- C85: entry `i` of `bcs_by_block` has the conditions, in the given order, whose space is space `i`
or within it. -/
theorem C85_bcs {uuid : Nat → Nat} (hu : ∀ i j, uuid i = uuid j → i = j) {ops : List Op} {st : List Space} (h : run uuid ops = some st)
    (spaces : List (Option Nat)) (bcs : List Bc) : (bcsByBlock st spaces (.list bcs)).length = spaces.length ∧ ∀ (i : Nat) o, spaces[i]? = some o →
      ∃ P : Bc → Bool, (bcsByBlock st spaces (.list bcs))[i]? = some (bcs.filter P) ∧ ∀ bc, P bc = true ↔ ∃ V, o = some V ∧ Within ops V bc.space := by
  rw [bcsByBlock_list]
  refine ⟨List.length_map _, fun i o ho => ?_⟩
  rw [List.getElem?_map, ho, Option.map_some]
  cases o with
  | none =>
    refine ⟨fun _ => false, ?_, ?_⟩
    · simp [bcsOf]
    · simp
  | some V =>
    refine ⟨fun bc => contains st V bc.space, rfl, fun bc => ?_⟩
    rw [C85_contains hu h]
    simp

/-- C85: the conditions of column `j` of a block matrix are those on the trial space of its forms, or on
sub-spaces of it, and their dofs are dofs of this space. -/
theorem C85_block {uuid : Nat → Nat} (hu : ∀ i j, uuid i = uuid j → i = j) {ops : List Op} {st : List Space} (h : run uuid ops = some st)
    {fs : List (List (Option Form))} {m : Nat} (hm : 0 < m) (hne : fs ≠ []) (hcol : Columns m fs) {L : List (Option Nat)} (hL : extractArray fs (some 1) = some L)
    (bcs : List Bc) {j : Nat} (hj : j < m) :
    ∃ P : Bc → Bool, (bcsByBlock st L (.list bcs))[j]? = some (bcs.filter P) ∧
      (∀ bc, P bc = true ↔ ∃ i f s, FormAt fs i j f ∧ f.spaces[1]? = some s ∧ Within ops s bc.space) ∧
      ∀ sh nc, (∀ (k : Nat) e D, ops[k]? = some (.create e D) → e.Ok sh ∧ D.IsFor e nc) →
        (∀ (k V : Nat) D A, ops[k]? = some (.collapse V D) → st[V]? = some A → D.IsFor A.elem nc) →
        ∀ bc, P bc = true → ∀ B, st[bc.space]? = some B → (∀ x ∈ bc.dofs, HasDof B.dm B.elem nc x) →
        ∀ i f s A, FormAt fs i j f → f.spaces[1]? = some s → st[s]? = some A → ∀ x ∈ bc.dofs, HasDof A.dm A.elem nc x := by
  obtain ⟨_, hlen, hsp⟩ := (C85_columns hm hne hcol L).mp hL
  obtain ⟨o, ho⟩ : ∃ o, L[j]? = some o := ⟨_, List.getElem?_eq_getElem (by omega)⟩
  obtain ⟨P, hP1, hP2⟩ := (C85_bcs hu h L bcs).2 j o ho
  refine ⟨P, hP1, fun bc => ?_, ?_⟩
  · rw [hP2]
    constructor
    · rintro ⟨V, rfl, hw⟩
      obtain ⟨i, f, hf, hs⟩ := (hsp j V).mp ho
      exact ⟨i, f, V, hf, hs, hw⟩
    · rintro ⟨i, f, s, hf, hs, hw⟩
      have := (hsp j s).mpr ⟨i, f, hf, hs⟩
      rw [ho] at this
      exact ⟨s, Option.some.inj this, hw⟩
  · intro sh nc h1 h2 bc hbc B hB hd i f s A hf hs hA x hx
    obtain ⟨V, rfl, hw⟩ := (hP2 bc).mp hbc
    have := (hsp j s).mpr ⟨i, f, hf, hs⟩
    rw [ho] at this
    cases this
    exact C85_dofs hu h h1 h2 hA hB ((C85_contains hu h s bc.space).mpr hw) x (hd x hx)

/-- C85 (partial): a condition goes to one block only, if no two blocks have parts of the same space. -/
theorem C85_one_block_partial {uuid : Nat → Nat} (hu : ∀ i j, uuid i = uuid j → i = j) {ops : List Op} {st : List Space} (h : run uuid ops = some st)
    {spaces : List (Option Nat)} (hd : ∀ (i j V W r : Nat) (p q : List Nat), spaces[i]? = some (some V) → spaces[j]? = some (some W) → From ops V r p → From ops W r q → i = j)
    (bcs : List Bc) {i j : Nat} {Bi Bj : List Bc} (hi : (bcsByBlock st spaces (.list bcs))[i]? = some Bi) (hj : (bcsByBlock st spaces (.list bcs))[j]? = some Bj)
    {bc : Bc} (h1 : bc ∈ Bi) (h2 : bc ∈ Bj) : i = j := by
  obtain ⟨hlen, hb⟩ := C85_bcs hu h spaces bcs
  have key : ∀ {k : Nat} {B : List Bc}, (bcsByBlock st spaces (.list bcs))[k]? = some B → bc ∈ B → ∃ V, spaces[k]? = some (some V) ∧ Within ops V bc.space := by
    intro k B hk hm
    obtain ⟨hlt, _⟩ := List.getElem?_eq_some_iff.mp hk
    obtain ⟨P, hP1, hP2⟩ := hb k _ (List.getElem?_eq_getElem (by omega))
    rw [hk] at hP1
    cases hP1
    obtain ⟨V, hV, hw⟩ := (hP2 bc).mp (List.mem_filter.mp hm).2
    exact ⟨V, by rw [List.getElem?_eq_getElem (by omega), hV], hw⟩
  obtain ⟨V, hV, r, p, q, a1, a2⟩ := key hi h1
  obtain ⟨W, hW, r', p', q', b1, b2⟩ := key hj h2
  obtain ⟨rfl, _⟩ := from_unique a2 b2
  exact hd i j V W r' p p' hV hW a1 b1

/-! ## Examples and counterexamples -/

namespace C85ex

/-- Linear functions with two components on two intervals. -/
def lin : Elem := .blocked 2 ⟨2, [[[0], [1]], [[]]], none⟩
def linMap : DofMap := ⟨lin.layout [], 2, [0, 1, 1, 2], 2⟩

/-- Space 0, its sub-spaces 1 and 2 for the second component, a clone 3 with sub-space 4. -/
def prog : List Op := [.create lin linMap, .sub 0 1, .sub 0 1, .clone 0, .sub 3 1]

def spaces : List Space := (run id prog).getD []
theorem run_prog : run id prog = some spaces := by
  have : (run id prog).isSome = true := by decide +kernel
  unfold spaces
  obtain ⟨x, hx⟩ := Option.isSome_iff_exists.mp this
  rw [hx]
  rfl

theorem lin_ok : lin.Ok [2, 1] := ⟨by decide, by decide, rfl, rfl⟩
theorem linMap_for : linMap.IsFor lin 2 := ⟨⟨[], rfl⟩, Or.inr rfl, by decide⟩

example : (List.range 5).map (fun a => (List.range 5).map (contains spaces a)) =
    [[true, true, true, false, false], [false, true, true, false, false], [false, true, true, false, false],
     [false, false, false, true, true], [false, false, false, false, true]] := by decide +kernel

example : Within prog 1 2 := ⟨0, [1], [], .sub (p := []) rfl (.root rfl (by simp)), .sub (p := []) rfl (.root rfl (by simp))⟩
example : contains spaces 1 2 = true := (C85_contains (fun _ _ h => h) run_prog 1 2).mpr
  ⟨0, [1], [], .sub (p := []) rfl (.root rfl (by simp)), .sub (p := []) rfl (.root rfl (by simp))⟩

theorem created (k : Nat) (e : Elem) (D : DofMap) (h : prog[k]? = some (.create e D)) : e.Ok [2, 1] ∧ D.IsFor e 2 := by
  match k with
  | 0 => cases h; exact ⟨lin_ok, linMap_for⟩
  | 1 => cases h
  | 2 => cases h
  | 3 => cases h
  | 4 => cases h
  | n + 5 => cases h

theorem not_collapsed (k V : Nat) (D : DofMap) (A : Space) (h : prog[k]? = some (.collapse V D)) (_ : spaces[V]? = some A) : D.IsFor A.elem 2 := by
  match k with
  | 0 => cases h
  | 1 => cases h
  | 2 => cases h
  | 3 => cases h
  | 4 => cases h
  | n + 5 => cases h

example {A B : Space} (hA : spaces[0]? = some A) (hB : spaces[1]? = some B) := C85_dofs (fun _ _ h => h) run_prog created not_collapsed hA hB (by decide +kernel)
example : (spaces[1]?).map (fun B => B.dm.arr) = some [1, 3, 3, 5] := by decide +kernel

/-- A saddle point problem with test and trial functions in spaces 0 and 3. -/
def saddle : List (List (Option Form)) := [[some ⟨[0, 0]⟩, some ⟨[0, 3]⟩], [some ⟨[3, 0]⟩, none]]

theorem saddle_cols : Columns 2 saddle := by simp [Columns, saddle]
example : extractArray saddle (some 0) = some [some 0, some 3] := by decide +kernel
example : extractArray saddle (some 1) = some [some 0, some 3] := by decide +kernel
example : commonSpaces saddle = some ([0, 3], [0, 3]) := by decide +kernel
example := (C85_cpp (by decide) (by decide) saddle_cols [0, 3] [0, 3]).mp (by decide +kernel)
example : TestSpaces saddle [some 0, some 3] := ((C85_rows (by decide) (by decide) saddle_cols _).mp (by decide +kernel)).2
example : extractArray [[some ⟨[0, 0]⟩, some ⟨[3, 3]⟩]] (some 0) = none := by decide +kernel
example : extractArray [[some ⟨[0, 0]⟩, none], [some ⟨[0, 0]⟩, none]] (some 1) = some [some 0, none] := by decide +kernel
example : commonSpaces [[some ⟨[0, 0]⟩, none], [some ⟨[0, 0]⟩, none]] = none := by decide +kernel
example : extractList [some ⟨[0]⟩, none, some ⟨[3]⟩] none = some [some 0, none, some 3] := by decide +kernel
example : extractList [some ⟨[0, 0]⟩] none = none := by decide +kernel
example : extractArray [[none], [none, none]] (some 0) = none := C85_refused _ _ (.inr (.inl fun m h => by
  have h1 := h [none] (by simp)
  have h2 := h [none, none] (by simp)
  simp at h1 h2
  omega))

/-- Conditions on the first space, on its second component and on the second component of the clone. -/
def conds : List Bc := [⟨0, [0, 1]⟩, ⟨2, [5]⟩, ⟨4, [1]⟩]

example : bcsByBlock spaces [some 0, some 3, none] (.list conds) = [[⟨0, [0, 1]⟩, ⟨2, [5]⟩], [⟨4, [1]⟩], []] := rfl
example := C85_block (fun _ _ h => h) run_prog (by decide) (by decide) saddle_cols (L := [some 0, some 3]) (by decide +kernel) conds (j := 1) (by decide)

theorem from_prog {V r : Nat} {p : List Nat} (h : From prog V r p) (hV : V = 0 ∨ V = 3) : r = V := by
  rcases hV with rfl | rfl
  · exact (from_unique (From.root (ops := prog) (k := 0) rfl (by simp)) h).1
  · exact (from_unique (From.root (ops := prog) (k := 3) rfl (by simp)) h).1

example {i j : Nat} {Bi Bj : List Bc} (hi : (bcsByBlock spaces [some 0, some 3] (.list conds))[i]? = some Bi)
    (hj : (bcsByBlock spaces [some 0, some 3] (.list conds))[j]? = some Bj) {bc : Bc} (h1 : bc ∈ Bi) (h2 : bc ∈ Bj) : i = j := by
  refine C85_one_block_partial (fun _ _ h => h) run_prog ?_ conds hi hj h1 h2
  intro i j V W r p q hV hW h1 h2
  have at_ : ∀ {i V : Nat}, ([some 0, some 3] : List (Option Nat))[i]? = some (some V) → (i = 0 ∧ V = 0) ∨ (i = 1 ∧ V = 3) := by
    intro i V h
    match i with
    | 0 => cases h; exact .inl ⟨rfl, rfl⟩
    | 1 => cases h; exact .inr ⟨rfl, rfl⟩
    | n + 2 => cases h
  have e1 := from_prog h1 (by rcases at_ hV with ⟨_, rfl⟩ | ⟨_, rfl⟩ <;> simp)
  have e2 := from_prog h2 (by rcases at_ hW with ⟨_, rfl⟩ | ⟨_, rfl⟩ <;> simp)
  rcases at_ hV with ⟨a, b⟩ | ⟨a, b⟩ <;> rcases at_ hW with ⟨c, d⟩ | ⟨c, d⟩ <;> omega

end C85ex

open C85ex in
/-- If two unknowns have the same space, a condition on it goes to both blocks. -/
theorem C85_refuted_shared_space : ∃ (fs : List (List (Option Form))) (L : List (Option Nat)) (bc : Bc), run id prog = some spaces ∧ Columns 2 fs ∧
    extractArray fs (some 1) = some L ∧ bcsByBlock spaces L (.list [bc]) = [[bc], [bc]] :=
  ⟨[[some ⟨[0, 0]⟩, some ⟨[0, 0]⟩], [some ⟨[0, 0]⟩, some ⟨[0, 0]⟩]], [some 0, some 0], ⟨0, [0]⟩, run_prog, by simp [Columns], by decide +kernel, rfl⟩

open C85ex in
/-- Conditions that are given by a generator, which is an `Iterable` as asked for, go to the first block only. -/
theorem C85_refuted_generator : ∃ (L : List (Option Nat)) (bcs : List Bc), run id prog = some spaces ∧
    bcsByBlock spaces L (.list bcs) = [[⟨0, [0]⟩], [⟨4, [1]⟩]] ∧ bcsByBlock spaces L (.generator bcs) = [[⟨0, [0]⟩], []] :=
  ⟨[some 0, some 3], [⟨0, [0]⟩, ⟨4, [1]⟩], run_prog, rfl, rfl⟩

/-- The C++ layer looks for the columns in the first row only: with a longer row it writes outside of an array, where the Python layer refuses. -/
theorem C85_ragged {fs : List (List (Option Form))} {row : List (Option Form)} (h : row ∈ fs) (hl : (fs.headD []).length < row.length) : commonSpaces fs = none := by
  unfold commonSpaces
  simp only
  rw [if_pos (List.any_eq_true.mpr ⟨row, h, decide_eq_true hl⟩)]

end Verif.Props
