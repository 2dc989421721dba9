import Verif.Lemmas.EntityMatch
import Verif.Props.C37_EntityNumbering
/-!
# Owners and numbers of entities
-/
namespace Verif.EntityIndexing
open Verif.SubMap Verif.World Verif.Std Verif.Exchange Verif.Group Verif.Shared Verif.Spec Verif.Props Verif.EntityNumbering

variable {I : Input}

/-! ### Candidates -/

variable (I) in
/-- Rank `q` has the entity with global vertices `K` on one of its own cells. -/
def Cand (q : Nat) (K : List Nat) : Prop := q < I.w.P ∧ ∃ id, id < count I q ∧ vglobal I q id = K ∧ (I.status q).getD id 1 ≠ 1

instance (q : Nat) (K : List Nat) : Decidable (∃ id, id < count I q ∧ vglobal I q id = K ∧ (I.status q).getD id 1 ≠ 1) :=
  inferInstanceAs (Decidable (∃ id, id < count I q ∧ (vglobal I q id = K ∧ (I.status q).getD id 1 ≠ 1)))

instance (q : Nat) (K : List Nat) : Decidable (Cand I q K) := inferInstanceAs (Decidable (_ ∧ _))

variable (I) in
/-- The candidates in ascending order. -/
def candList (K : List Nat) : List Nat := (List.range I.w.P).filter fun q => decide (Cand I q K)

theorem mem_candList (q : Nat) (K : List Nat) : q ∈ candList I K ↔ Cand I q K := by
  unfold candList
  rw [List.mem_filter, List.mem_range, decide_eq_true_eq]
  exact ⟨fun h => h.2, fun h => ⟨h.1, h⟩⟩

theorem candList_strict (K : List Nat) : (candList I K).Pairwise (· < ·) :=
  List.pairwise_lt_range.sublist List.filter_sublist

variable (I) in
/-- The owner that the candidates agree on. -/
def ownerOf (K : List Nat) : Nat := ownership (candList I K) K

theorem ownership_mem (procs vs : List Nat) (h : procs ≠ []) : ownership procs vs ∈ procs := by
  unfold ownership
  have hl : 0 < procs.length := List.length_pos_iff.mpr h
  have := Nat.mod_lt (hash vs).toNat hl
  rw [List.getD_eq_getElem _ _ this]
  exact List.getElem_mem this

theorem ownerOf_cand (K : List Nat) (h : ∃ q, Cand I q K) : Cand I (ownerOf I K) K := by
  obtain ⟨q, hq⟩ := h
  rw [← mem_candList]
  exact ownership_mem _ _ (List.ne_nil_of_mem ((mem_candList q K).mpr hq))

/-- What a rank learns: which other ranks are candidates. -/
theorem received_iff (h : Core I) (order : Nat → List Nat) (ho : OrderOk I order) (r i q : Nat) (hr : r < I.w.P) :
    (∃ x ∈ offer I q r, q ∈ ranks I r ∧ find I order r x.1 = some i) ↔
      i < count I r ∧ q ≠ r ∧ Cand I q (vglobal I r i) := by
  constructor
  · rintro ⟨⟨K, idq⟩, hx, hq, hf⟩
    obtain ⟨f1, f2, f3⟩ := (find_spec h order ho r hr K i).mp hf
    obtain ⟨hqP, hqr, _⟩ := (mem_ranks I h.valid r q hr).mp hq
    obtain ⟨o1, o2, o3, o4⟩ := (mem_offer q r K idq).mp hx
    exact ⟨f1, hqr, hqP, idq, o1, o4.symm.trans f3, o3⟩
  · rintro ⟨hi, hqr, hqP, idq, c1, c2, c3⟩
    have hr1 : r ∈ hits I q idq := (mem_hits h q idq r hqP c1).mpr
      ⟨hr, hqr.symm, fun g hg => vglobal_has h r i hr hi g (c2 ▸ hg)⟩
    have hr2 : q ∈ hits I r i := (mem_hits h r i q hr hi).mpr
      ⟨hqP, hqr, fun g hg => vglobal_has h q idq hqP c1 g (c2.symm ▸ hg)⟩
    refine ⟨(vglobal I q idq, idq), (mem_offer _ _ _ _).mpr ⟨c1, hr1, c3, rfl⟩, hits_ranks h r i q hr hi hr2, ?_⟩
    exact (find_spec h order ho r hr _ i).mpr ⟨hi, List.ne_nil_of_mem hr2, c2⟩

theorem sharedData_eq (h : Core I) (order : Nat → List Nat) (r : Nat) (hr : r < I.w.P) :
    sharedData I order r = (ranks I r).flatMap fun q => (offer I q r).flatMap fun x =>
      (find I order r x.1).elim [] fun idx => [(idx, q), (idx, r)] := by
  unfold sharedData
  rw [recvKeys_eq h r hr]
  have hz : (ranks I r).zip ((ranks I r).map fun q => (offer I q r).map Prod.fst) =
      (ranks I r).map fun q => (q, (offer I q r).map Prod.fst) := by
    have := zip_map_same (ranks I r) (fun q => q) (fun q => (offer I q r).map Prod.fst)
    rwa [List.map_id'] at this
  rw [hz, List.flatMap_map]
  apply List.flatMap_congr
  intro q _
  rw [List.flatMap_map]
  apply List.flatMap_congr
  intro x _
  cases find I order r x.1 <;> rfl

theorem sharedVData_eq (h : Core I) (order : Nat → List Nat) (r : Nat) (hr : r < I.w.P) :
    sharedVData I order r = (ranks I r).flatMap fun q => (offer I q r).flatMap fun x =>
      (find I order r x.1).elim [] fun idx => x.1.map fun v => (idx, v) := by
  unfold sharedVData
  rw [recvKeys_eq h r hr]
  have hz : (ranks I r).zip ((ranks I r).map fun q => (offer I q r).map Prod.fst) =
      (ranks I r).map fun q => (q, (offer I q r).map Prod.fst) := by
    have := zip_map_same (ranks I r) (fun q => q) (fun q => (offer I q r).map Prod.fst)
    rwa [List.map_id'] at this
  rw [hz, List.flatMap_map]
  apply List.flatMap_congr
  intro q _
  rw [List.flatMap_map]
  apply List.flatMap_congr
  intro x _
  cases find I order r x.1 <;> rfl

theorem mem_sharedData (h : Core I) (order : Nat → List Nat) (ho : OrderOk I order) (r i b : Nat) (hr : r < I.w.P) :
    (i, b) ∈ sharedData I order r ↔ i < count I r ∧ ∃ q, q ≠ r ∧ Cand I q (vglobal I r i) ∧ (b = q ∨ b = r) := by
  rw [sharedData_eq h order r hr]
  simp only [List.mem_flatMap]
  constructor
  · rintro ⟨q, hq, x, hx, hm⟩
    cases hf : find I order r x.1 with
    | none => rw [hf] at hm; simp at hm
    | some idx =>
      rw [hf] at hm
      have hi : i = idx := by
        simp only [Option.elim, List.mem_cons, Prod.mk.injEq, List.not_mem_nil, or_false] at hm
        rcases hm with hm | hm <;> exact hm.1
      subst hi
      obtain ⟨g1, g2, g3⟩ := (received_iff h order ho r i q hr).mp ⟨x, hx, hq, hf⟩
      refine ⟨g1, q, g2, g3, ?_⟩
      simp only [Option.elim, List.mem_cons, Prod.mk.injEq, List.not_mem_nil, or_false] at hm
      tauto
  · rintro ⟨g1, q, g2, g3, g4⟩
    obtain ⟨x, hx, hq, hf⟩ := (received_iff h order ho r i q hr).mpr ⟨g1, g2, g3⟩
    refine ⟨q, hq, x, hx, ?_⟩
    rw [hf]
    simp only [Option.elim, List.mem_cons, Prod.mk.injEq, List.not_mem_nil, or_false]
    tauto

theorem mem_sharedVData (h : Core I) (order : Nat → List Nat) (ho : OrderOk I order) (r i v : Nat) (hr : r < I.w.P) :
    (i, v) ∈ sharedVData I order r ↔ i < count I r ∧ (∃ q, q ≠ r ∧ Cand I q (vglobal I r i)) ∧ v ∈ vglobal I r i := by
  rw [sharedVData_eq h order r hr]
  simp only [List.mem_flatMap]
  constructor
  · rintro ⟨q, hq, x, hx, hm⟩
    cases hf : find I order r x.1 with
    | none => rw [hf] at hm; simp at hm
    | some idx =>
      rw [hf] at hm
      simp only [Option.elim, List.mem_map, Prod.mk.injEq] at hm
      obtain ⟨v', hv', rfl, rfl⟩ := hm
      obtain ⟨g1, g2, g3⟩ := (received_iff h order ho r idx q hr).mp ⟨x, hx, hq, hf⟩
      obtain ⟨_, _, f3⟩ := (find_spec h order ho r hr _ idx).mp hf
      exact ⟨g1, ⟨q, g2, g3⟩, f3 ▸ hv'⟩
  · rintro ⟨g1, ⟨q, g2, g3⟩, g4⟩
    obtain ⟨x, hx, hq, hf⟩ := (received_iff h order ho r i q hr).mpr ⟨g1, g2, g3⟩
    obtain ⟨_, _, f3⟩ := (find_spec h order ho r hr _ i).mp hf
    refine ⟨q, hq, x, hx, ?_⟩
    rw [hf]
    simp only [Option.elim, List.mem_map, Prod.mk.injEq]
    exact ⟨v, f3 ▸ g4, trivial, rfl⟩

open Classical in
/-- The list of sharing ranks is empty if no other rank is a candidate, otherwise it is the list of candidates. -/
theorem sharedLinks_eq (h : Core I) (order : Nat → List Nat) (ho : OrderOk I order) (r i : Nat) (hr : r < I.w.P)
    (hi : i < count I r) (hst : (I.status r).getD i 1 ≠ 1) :
    sharedLinks I order r i = if ∃ q, q ≠ r ∧ Cand I q (vglobal I r i) then candList I (vglobal I r i) else [] := by
  have hd : ∀ x ∈ sharedData I order r, x.1 < count I r := fun x hx =>
    ((mem_sharedData h order ho r x.1 x.2 hr).mp hx).1
  have hme : Cand I r (vglobal I r i) := ⟨hr, i, hi, rfl, hst⟩
  unfold sharedLinks
  apply strict_ext _ _ (adjLinks_strict _ _ i hd hi)
  · split
    · exact candList_strict _
    · exact List.Pairwise.nil
  · intro b
    rw [mem_adjLinks _ _ i hd hi, mem_sharedData h order ho r i b hr]
    split
    · rename_i hex
      rw [mem_candList]
      constructor
      · rintro ⟨_, q, q1, q2, rfl | rfl⟩
        · exact q2
        · exact hme
      · intro hb
        by_cases hbr : b = r
        · obtain ⟨q, q1, q2⟩ := hex; exact ⟨hi, q, q1, q2, Or.inr hbr⟩
        · exact ⟨hi, b, hbr, hb, Or.inl rfl⟩
    · rename_i hex
      constructor
      · rintro ⟨_, q, q1, q2, _⟩; exact absurd ⟨q, q1, q2⟩ hex
      · intro hb; simp at hb

theorem sharedV_eq (h : Core I) (order : Nat → List Nat) (ho : OrderOk I order) (r i : Nat) (hr : r < I.w.P)
    (hi : i < count I r) (hex : ∃ q, q ≠ r ∧ Cand I q (vglobal I r i)) : sharedV I order r i = vglobal I r i := by
  have hd : ∀ x ∈ sharedVData I order r, x.1 < count I r := fun x hx =>
    ((mem_sharedVData h order ho r x.1 x.2 hr).mp hx).1
  unfold sharedV
  apply strict_ext _ _ (adjLinks_strict _ _ i hd hi) (vglobal_strict h r i hr hi)
  intro b
  rw [mem_adjLinks _ _ i hd hi, mem_sharedVData h order ho r i b hr]
  exact ⟨fun h => h.2.2, fun h => ⟨hi, hex, h⟩⟩

variable (I) in
/-- The rank owns the entity. -/
def Owned (r i : Nat) : Prop := (I.status r).getD i 1 ≠ 1 ∧ ownerOf I (vglobal I r i) = r

instance (r i : Nat) : Decidable (Owned I r i) := inferInstanceAs (Decidable (_ ∧ _))

variable (I) in
/-- The entity lies on an own cell and on an own cell of another rank. -/
def Inter (r i : Nat) : Prop := (I.status r).getD i 1 ≠ 1 ∧ ∃ q, q < I.w.P ∧ q ≠ r ∧ Cand I q (vglobal I r i)

instance (r i : Nat) : Decidable (Inter I r i) :=
  inferInstanceAs (Decidable (_ ∧ ∃ q, q < I.w.P ∧ (q ≠ r ∧ Cand I q (vglobal I r i))))

theorem loopStep_eq (h : Core I) (order : Nat → List Nat) (ho : OrderOk I order) (r i : Nat) (hr : r < I.w.P)
    (hi : i < count I r) (s : LoopState) :
    loopStep I order r s i = ⟨if Owned I r i then s.li.set i (some s.c) else s.li,
      if Owned I r i then s.c + 1 else s.c, if Inter I r i then s.inter ++ [i] else s.inter⟩ := by
  unfold loopStep
  by_cases hst : (I.status r).getD i 1 = 1
  · rw [if_pos hst, if_neg (fun h => h.1 hst), if_neg (fun h => h.1 hst), if_neg (fun h => h.1 hst)]
  · rw [if_neg hst]
    have hsl := sharedLinks_eq h order ho r i hr hi hst
    have hme : Cand I r (vglobal I r i) := ⟨hr, i, hi, rfl, hst⟩
    by_cases hex : ∃ q, q ≠ r ∧ Cand I q (vglobal I r i)
    · rw [if_pos hex] at hsl
      have hint : Inter I r i := ⟨hst, by obtain ⟨q, q1, q2⟩ := hex; exact ⟨q, q2.1, q1, q2⟩⟩
      have hne : sharedLinks I order r i ≠ [] := by
        rw [hsl]; exact List.ne_nil_of_mem ((mem_candList _ _).mpr hme)
      rw [if_neg hne, hsl, sharedV_eq h order ho r i hr hi hex, if_pos hint]
      change (if ownerOf I (vglobal I r i) = r then _ else _) = _
      by_cases ho' : ownerOf I (vglobal I r i) = r
      · rw [if_pos ho', if_pos ⟨hst, ho'⟩, if_pos ⟨hst, ho'⟩]
      · rw [if_neg ho', if_neg (fun h => ho' h.2), if_neg (fun h => ho' h.2)]
    · rw [if_neg hex] at hsl
      rw [if_pos hsl]
      have hown : Owned I r i := by
        refine ⟨hst, ?_⟩
        have := ownerOf_cand (I := I) (vglobal I r i) ⟨r, hme⟩
        by_contra hne
        exact hex ⟨_, hne, this⟩
      rw [if_pos hown, if_pos hown, if_neg]
      rintro ⟨_, q, _, q1, q2⟩
      exact hex ⟨q, q1, q2⟩

/-! ### The numbering -/

variable (I) in
/-- Owned entities below `n`. -/
def cntO (r n : Nat) : Nat := ((List.range n).filter fun i => decide (Owned I r i)).length

variable (I) in
/-- Other entities below `n`. -/
def cntN (r n : Nat) : Nat := ((List.range n).filter fun i => !decide (Owned I r i)).length

theorem cntO_succ (r n : Nat) : cntO I r (n + 1) = if Owned I r n then cntO I r n + 1 else cntO I r n := by
  unfold cntO
  rw [List.range_succ, List.filter_append, List.length_append]
  by_cases h : Owned I r n <;> simp [h]

theorem cntN_succ (r n : Nat) : cntN I r (n + 1) = if Owned I r n then cntN I r n else cntN I r n + 1 := by
  unfold cntN
  rw [List.range_succ, List.filter_append, List.length_append]
  by_cases h : Owned I r n <;> simp [h]

theorem cnt_add (r n : Nat) : cntO I r n + cntN I r n = n := by
  induction n with
  | zero => rfl
  | succ n ih => rw [cntO_succ, cntN_succ]; split <;> omega

theorem cntO_mono (r : Nat) {m n : Nat} (h : m ≤ n) : cntO I r m ≤ cntO I r n := by
  induction h with
  | refl => exact le_refl _
  | step _ ih => rw [cntO_succ]; split <;> omega

theorem cntN_mono (r : Nat) {m n : Nat} (h : m ≤ n) : cntN I r m ≤ cntN I r n := by
  induction h with
  | refl => exact le_refl _
  | step _ ih => rw [cntN_succ]; split <;> omega

theorem cntO_lt (r : Nat) {m n : Nat} (h : m < n) (hm : Owned I r m) : cntO I r m < cntO I r n := by
  have := cntO_mono (I := I) r (show m + 1 ≤ n from h)
  rw [cntO_succ, if_pos hm] at this; omega

theorem cntN_lt (r : Nat) {m n : Nat} (h : m < n) (hm : ¬ Owned I r m) : cntN I r m < cntN I r n := by
  have := cntN_mono (I := I) r (show m + 1 ≤ n from h)
  rw [cntN_succ, if_neg hm] at this; omega

theorem loop_prefix (h : Core I) (order : Nat → List Nat) (ho : OrderOk I order) (r : Nat) (hr : r < I.w.P) (n : Nat)
    (hn : n ≤ count I r) :
    (List.range n).foldl (loopStep I order r) ⟨List.replicate (count I r) none, 0, []⟩ =
      ⟨(List.range (count I r)).map fun i => if i < n ∧ Owned I r i then some (cntO I r i) else none, cntO I r n,
        (List.range n).filter fun i => decide (Inter I r i)⟩ := by
  induction n with
  | zero =>
    simp only [List.range_zero, List.foldl_nil, Nat.not_lt_zero, false_and, if_false, List.filter_nil]
    congr 1
    rw [List.map_const', List.length_range]
  | succ n ih =>
    rw [List.range_succ (n := n), List.foldl_append, ih (by omega), List.foldl_cons, List.foldl_nil,
      loopStep_eq h order ho r n hr (by omega)]
    congr 1
    · apply List.ext_getElem?
      intro j
      by_cases hO : Owned I r n
      · rw [if_pos hO, List.getElem?_set, List.getElem?_map, List.getElem?_map, List.length_map, List.length_range]
        by_cases hj : j < count I r
        · rw [List.getElem?_range hj]
          by_cases hnj : n = j
          · subst hnj
            simp [hj, hO]
          · rw [if_neg hnj]
            have : (j < n ∧ Owned I r j) ↔ (j < n + 1 ∧ Owned I r j) := by
              constructor
              · intro h; exact ⟨by omega, h.2⟩
              · intro h; exact ⟨by omega, h.2⟩
            simp only [Option.map_some, this]
        · rw [if_neg (by omega), List.getElem?_eq_none (by simpa using hj)]; rfl
      · rw [if_neg hO, List.getElem?_map, List.getElem?_map]
        by_cases hj : j < count I r
        · rw [List.getElem?_range hj]
          have : (j < n ∧ Owned I r j) ↔ (j < n + 1 ∧ Owned I r j) := by
            constructor
            · intro h; exact ⟨by omega, h.2⟩
            · intro h
              refine ⟨?_, h.2⟩
              rcases Nat.lt_or_ge j n with h' | h'
              · exact h'
              · exact absurd h.2 ((show n = j by omega) ▸ hO)
          simp only [Option.map_some, this]
        · rw [List.getElem?_eq_none (by simpa using hj)]; rfl
    · exact (cntO_succ r n).symm
    · rw [List.filter_append]
      by_cases hI : Inter I r n <;> simp [hI]

theorem loop_eq (h : Core I) (order : Nat → List Nat) (ho : OrderOk I order) (r : Nat) (hr : r < I.w.P) :
    loop I order r = ⟨(List.range (count I r)).map fun i => if Owned I r i then some (cntO I r i) else none,
      cntO I r (count I r), (List.range (count I r)).filter fun i => decide (Inter I r i)⟩ := by
  unfold loop
  rw [loop_prefix h order ho r hr (count I r) (le_refl _)]
  congr 1
  apply List.map_congr_left
  intro i hi
  simp [List.mem_range.mp hi]

theorem numLocal_eq (h : Core I) (order : Nat → List Nat) (ho : OrderOk I order) (r : Nat) (hr : r < I.w.P) :
    numLocal I order r = cntO I r (count I r) := by
  unfold numLocal; rw [loop_eq h order ho r hr]

theorem fillRest_get (l : List (Option Nat)) (c i : Nat) :
    (fillRest l c)[i]? = l[i]?.map fun o => o.getD (c + ((l.take i).filter Option.isNone).length) := by
  induction l generalizing c i with
  | nil => simp [fillRest]
  | cons a l ih =>
    cases a with
    | none =>
      rw [fillRest]
      cases i with
      | zero => simp
      | succ i =>
        rw [List.getElem?_cons_succ, ih, List.getElem?_cons_succ, List.take_succ_cons]
        simp only [List.filter_cons, Option.isNone_none, if_true, List.length_cons]
        congr 1; funext o; congr 1; omega
    | some a =>
      rw [fillRest]
      cases i with
      | zero => simp
      | succ i =>
        rw [List.getElem?_cons_succ, ih, List.getElem?_cons_succ, List.take_succ_cons]
        simp

variable (I) in
/-- New number of an entity. -/
def nloc (r i : Nat) : Nat := if Owned I r i then cntO I r i else cntO I r (count I r) + cntN I r i

theorem localIndex_eq (h : Core I) (order : Nat → List Nat) (ho : OrderOk I order) (r : Nat) (hr : r < I.w.P) :
    localIndex I order r = (List.range (count I r)).map (nloc I r) := by
  apply List.ext_getElem?
  intro i
  unfold localIndex
  rw [fillRest_get, numLocal_eq h order ho r hr, loop_eq h order ho r hr]
  simp only [List.getElem?_map]
  by_cases hi : i < count I r
  · rw [List.getElem?_range hi]
    simp only [Option.map_some, Option.some.injEq]
    unfold nloc
    by_cases hO : Owned I r i
    · simp [hO]
    · simp only [if_neg hO, Option.getD_none]
      congr 1
      unfold cntN
      rw [← List.map_take, List.take_range, min_eq_left (by omega), List.filter_map, List.length_map]
      congr 1
      apply List.filter_congr
      intro j _
      by_cases hj : Owned I r j <;> simp [hj]
  · rw [List.getElem?_eq_none (by simpa using hi)]; rfl

theorem localIndex_getD (h : Core I) (order : Nat → List Nat) (ho : OrderOk I order) (r i : Nat) (hr : r < I.w.P)
    (hi : i < count I r) : (localIndex I order r).getD i 0 = nloc I r i := by
  rw [localIndex_eq h order ho r hr, List.getD_eq_getElem?_getD, List.getElem?_map, List.getElem?_range hi]; rfl

theorem nloc_lt (r i : Nat) (hi : i < count I r) : nloc I r i < count I r := by
  have h1 := cnt_add (I := I) r (count I r)
  unfold nloc
  split
  · rename_i hO; have := cntO_lt r hi hO; omega
  · rename_i hO; have := cntN_lt r hi hO; omega

theorem nloc_owned (r i : Nat) (hi : i < count I r) : nloc I r i < cntO I r (count I r) ↔ Owned I r i := by
  unfold nloc
  split
  · rename_i hO; exact ⟨fun _ => hO, fun _ => cntO_lt r hi hO⟩
  · rename_i hO; exact ⟨fun h => by omega, fun h => absurd h hO⟩

theorem nloc_inj (r i j : Nat) (hi : i < count I r) (hj : j < count I r) (he : nloc I r i = nloc I r j) : i = j := by
  have hiff : Owned I r i ↔ Owned I r j := by
    rw [← nloc_owned r i hi, ← nloc_owned r j hj, he]
  unfold nloc at he
  by_cases hO : Owned I r i
  · rw [if_pos hO, if_pos (hiff.mp hO)] at he
    rcases Nat.lt_trichotomy i j with h | h | h
    · have := cntO_lt r h hO; omega
    · exact h
    · have := cntO_lt r h (hiff.mp hO); omega
  · rw [if_neg hO, if_neg (fun h => hO (hiff.mpr h))] at he
    rcases Nat.lt_trichotomy i j with h | h | h
    · have := cntN_lt r h hO; omega
    · exact h
    · have := cntN_lt r h (fun h => hO (hiff.mpr h)); omega

theorem nloc_surj (r b : Nat) (hb : b < count I r) : ∃ i, i < count I r ∧ nloc I r i = b := by
  have hnd : ((List.range (count I r)).map (nloc I r)).Nodup := by
    apply List.Nodup.map_on _ List.nodup_range
    intro x hx y hy hxy
    exact nloc_inj r x y (List.mem_range.mp hx) (List.mem_range.mp hy) hxy
  have hsub : (List.range (count I r)).map (nloc I r) ⊆ List.range (count I r) := by
    intro x hx
    obtain ⟨i, hi, rfl⟩ := List.mem_map.mp hx
    exact List.mem_range.mpr (nloc_lt r i (List.mem_range.mp hi))
  have hp := (List.subperm_of_subset hnd hsub).perm_of_length_le (by simp)
  have := hp.mem_iff.mpr (List.mem_range.mpr hb)
  obtain ⟨i, hi, he⟩ := List.mem_map.mp this
  exact ⟨i, List.mem_range.mp hi, he⟩

theorem ghosts_count (r : Nat) : count I r - cntO I r (count I r) = cntN I r (count I r) := by
  have := cnt_add (I := I) r (count I r); omega

end Verif.EntityIndexing
