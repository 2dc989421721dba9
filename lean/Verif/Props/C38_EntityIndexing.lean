import Verif.Lemmas.EntityGhosts
import Verif.Props.C04_SortByPerm
import Mathlib.Tactic.FinCases
/-!
# C38: distributed numbering of mesh entities
-/
namespace Verif.Props
open Verif.SubMap Verif.World Verif.Std Verif.Spec Verif.EntityIndexing

/-- Rank `r` lists an entity with local vertices `row` and initial number `i`. -/
def Listed (I : EntityIndexing.Input) (r pos : Nat) (row : List Nat) (i : Nat) : Prop :=
  r < I.w.P ∧ (I.rows r)[pos]? = some row ∧ (I.index r)[pos]? = some i

/-- Entity `i` of rank `r` belongs to an owned cell. -/
def OnOwnCell (I : EntityIndexing.Input) (r i : Nat) : Prop := ∃ s, (I.status r)[i]? = some s ∧ s ≠ 1

/-- Two listed entities have the same global vertices. -/
def SameEntity (I : EntityIndexing.Input) (r : Nat) (row : List Nat) (r' : Nat) (row' : List Nat) : Prop :=
  (row.map (globalOf I.w r)).Perm (row'.map (globalOf I.w r'))

/-- What C37 provides: an initial numbering from 0 without gaps, equal exactly for the same vertices.  Each entity
belongs to an owned cell on some rank, because every cell is owned somewhere. -/
structure EntityInputOk (I : EntityIndexing.Input) : Prop where
  valid : I.w.Valid
  nv : 0 < I.nv
  len : ∀ r, r < I.w.P → (I.rows r).length = (I.index r).length
  row : ∀ r pos row i, Listed I r pos row i → row.length = I.nv ∧ row.Nodup ∧ ∀ v ∈ row, v < I.w.size r + (I.w.ghosts r).length
  same : ∀ r pos row i pos' row' i', Listed I r pos row i → Listed I r pos' row' i' → (i = i' ↔ row.Perm row')
  gapless : ∀ r pos row i, Listed I r pos row i → ∀ j ≤ i, ∃ pos' row', Listed I r pos' row' j
  status : ∀ r pos row i, Listed I r pos row i → i < (I.status r).length
  covered : ∀ r pos row i, Listed I r pos row i →
    ∃ q pos' row' i', Listed I q pos' row' i' ∧ SameEntity I r row q row' ∧ OnOwnCell I q i'

variable {I : EntityIndexing.Input}

theorem foldl_max_ge (l : List Nat) (a : Nat) : a ≤ l.foldl max a ∧ ∀ x ∈ l, x ≤ l.foldl max a := by
  induction l generalizing a with
  | nil => simp
  | cons b l ih =>
    obtain ⟨h1, h2⟩ := ih (max a b)
    rw [List.foldl_cons]
    refine ⟨by omega, ?_⟩
    intro x hx
    rcases List.mem_cons.mp hx with rfl | hx
    · omega
    · exact h2 x hx

theorem foldl_max_mem (l : List Nat) (a : Nat) : l.foldl max a = a ∨ l.foldl max a ∈ l := by
  induction l generalizing a with
  | nil => simp
  | cons b l ih =>
    rw [List.foldl_cons]
    rcases ih (max a b) with h | h
    · rw [h]
      rcases Nat.le_total a b with h' | h'
      · right; rw [max_eq_right h']; simp
      · left; rw [max_eq_left h']
    · right; exact List.mem_cons_of_mem _ h

theorem count_iff (h : EntityInputOk I) (r : Nat) (hr : r < I.w.P) (i : Nat) : i < count I r ↔ ∃ pos row, Listed I r pos row i := by
  unfold count
  constructor
  · intro hi
    split at hi
    · omega
    · rename_i hne
      have hmem : (I.index r).foldl max 0 ∈ I.index r := by
        rcases foldl_max_mem (I.index r) 0 with h0 | h0
        · obtain ⟨x, hx⟩ := List.exists_mem_of_ne_nil _ hne
          have := (foldl_max_ge (I.index r) 0).2 x hx
          rw [h0] at this ⊢
          rwa [show x = 0 by omega] at hx
        · exact h0
      obtain ⟨pos, hpos⟩ := List.getElem?_of_mem hmem
      have hlt := (List.getElem?_eq_some_iff.mp hpos).1
      exact h.gapless r pos _ _ ⟨hr, List.getElem?_eq_getElem (by rw [h.len r hr]; exact hlt), hpos⟩ i (by omega)
  · rintro ⟨pos, row, _, _, h3⟩
    have hm := List.mem_of_getElem? h3
    rw [if_neg (List.ne_nil_of_mem hm)]
    have := (foldl_max_ge (I.index r) 0).2 i hm
    omega

/-- The search for first instances. -/
theorem firstInstance_fold (l : List Nat) (n : Nat) (k : Nat) (a : List (Option Nat)) (ha : a.length = n)
    (hl : ∀ x ∈ l, x < n) :
    ∀ i, i < n →
      (∀ p, a.getD i none = some p →
        ((l.zipIdx k).foldl (fun a p => if a.getD p.1 none = none then a.set p.1 (some p.2) else a) a).getD i none = some p) ∧
      (a.getD i none = none → i ∈ l → ∃ p,
        ((l.zipIdx k).foldl (fun a p => if a.getD p.1 none = none then a.set p.1 (some p.2) else a) a).getD i none = some (k + p) ∧
          l[p]? = some i) := by
  induction l generalizing k a with
  | nil => intro i _; exact ⟨fun p hp => by simpa using hp, fun _ hm => by simp at hm⟩
  | cons b l ih =>
    intro i hi
    rw [List.zipIdx_cons, List.foldl_cons]
    have hb := hl b (by simp)
    have hl' : ∀ x ∈ l, x < n := fun x hx => hl x (by simp [hx])
    by_cases hnone : a.getD b none = none
    · simp only [hnone, if_true]
      obtain ⟨ih1, ih2⟩ := ih (k + 1) (a.set b (some k)) (by simpa using ha) hl' i hi
      have hget : (a.set b (some k)).getD i none = if b = i then some k else a.getD i none := by
        simp only [List.getD_eq_getElem?_getD, List.getElem?_set, ha, hb, if_true]
        split <;> rfl
      rw [hget] at ih1 ih2
      refine ⟨?_, ?_⟩
      · intro p hp
        apply ih1
        rw [if_neg (by rintro rfl; rw [hnone] at hp; cases hp)]
        exact hp
      · intro hn hm
        by_cases hbi : b = i
        · refine ⟨0, ?_, by simp [hbi]⟩
          rw [if_pos hbi] at ih1
          exact ih1 k rfl
        · rw [if_neg hbi] at ih2
          obtain ⟨p, hp1, hp2⟩ := ih2 hn (by rcases List.mem_cons.mp hm with h | h; exact absurd h.symm hbi; exact h)
          refine ⟨p + 1, ?_, by simpa using hp2⟩
          rw [hp1]; congr 1; omega
    · simp only [hnone, if_false]
      obtain ⟨ih1, ih2⟩ := ih (k + 1) a ha hl' i hi
      refine ⟨ih1, ?_⟩
      intro hn hm
      have hbi : b ≠ i := by rintro rfl; exact hnone hn
      obtain ⟨p, hp1, hp2⟩ := ih2 hn (by rcases List.mem_cons.mp hm with h | h; exact absurd h.symm hbi; exact h)
      refine ⟨p + 1, ?_, by simpa using hp2⟩
      rw [hp1]; congr 1; omega

theorem entity_listed (h : EntityInputOk I) (r : Nat) (hr : r < I.w.P) (i : Nat) (hi : i < count I r) :
    ∃ pos, Listed I r pos (entity I r i) i := by
  obtain ⟨pos, row, hL⟩ := (count_iff h r hr i).mp hi
  have hall : ∀ x ∈ I.index r, x < count I r := by
    intro x hx
    obtain ⟨p, hp⟩ := List.getElem?_of_mem hx
    have hlt := (List.getElem?_eq_some_iff.mp hp).1
    exact (count_iff h r hr x).mpr ⟨p, _, hr, List.getElem?_eq_getElem (by rw [h.len r hr]; exact hlt), hp⟩
  obtain ⟨_, h2⟩ := firstInstance_fold (I.index r) (count I r) 0 (List.replicate (count I r) none) (by simp) hall i hi
  obtain ⟨p, hp1, hp2⟩ := h2 (by simp [List.getElem?_replicate, hi]) (List.mem_of_getElem? hL.2.2)
  have hlt := (List.getElem?_eq_some_iff.mp hp2).1
  have hlt' : p < (I.rows r).length := by rw [h.len r hr]; exact hlt
  refine ⟨p, hr, ?_, hp2⟩
  have he : entity I r i = (I.rows r)[p] := by
    unfold entity firstInstance
    rw [hp1]
    simp only [Nat.zero_add, Option.getD_some]
    exact List.getD_eq_getElem _ _ hlt'
  rw [he]
  exact List.getElem?_eq_getElem hlt'

theorem map_global (r : Nat) (row : List Nat) (h : ∀ v ∈ row, v < I.w.size r + (I.w.ghosts r).length) :
    row.map (globalOf I.w r) = (row.map (gl I.w r)).map some := by
  rw [List.map_map]
  apply List.map_congr_left
  intro v hv
  exact gl_some I.w r v (h v hv)

theorem perm_some (a b : List Nat) : (a.map some).Perm (b.map some) ↔ a.Perm b := by
  constructor
  · intro h
    have := h.filterMap id
    simpa [List.filterMap_map] using this
  · intro h; exact h.map _

theorem sameEntity_iff (h : EntityInputOk I) (r pos : Nat) (row : List Nat) (i r' pos' : Nat) (row' : List Nat) (i' : Nat)
    (hL : Listed I r pos row i) (hL' : Listed I r' pos' row' i') :
    SameEntity I r row r' row' ↔ vglobal I r i = vglobal I r' i' := by
  obtain ⟨p, hp⟩ := entity_listed h r hL.1 i ((count_iff h r hL.1 i).mpr ⟨_, _, hL⟩)
  obtain ⟨p', hp'⟩ := entity_listed h r' hL'.1 i' ((count_iff h r' hL'.1 i').mpr ⟨_, _, hL'⟩)
  have e1 := (h.same r _ _ _ _ _ _ hL hp).mp rfl
  have e2 := (h.same r' _ _ _ _ _ _ hL' hp').mp rfl
  unfold SameEntity
  rw [map_global r row (h.row r _ _ _ hL).2.2, map_global r' row' (h.row r' _ _ _ hL').2.2, perm_some, vglobal_eq, vglobal_eq]
  have hk := key_eq_iff ((entity I r i).map (gl I.w r)) ((entity I r' i').map (gl I.w r'))
  refine Iff.trans ?_ hk.symm
  exact ⟨fun hp => ((e1.map _).symm.trans hp).trans (e2.map _), fun hp => ((e1.map _).trans hp).trans (e2.map _).symm⟩

theorem core_of_ok (h : EntityInputOk I) : Core I where
  valid := h.valid
  nv := h.nv
  len := fun r hr id hid => by
    obtain ⟨p, hp⟩ := entity_listed h r hr id hid; exact (h.row r _ _ _ hp).1
  nodup := fun r hr id hid => by
    obtain ⟨p, hp⟩ := entity_listed h r hr id hid; exact (h.row r _ _ _ hp).2.1
  lt := fun r hr id hid => by
    obtain ⟨p, hp⟩ := entity_listed h r hr id hid; exact (h.row r _ _ _ hp).2.2
  distinct := fun r hr id id' hid hid' he => by
    obtain ⟨p, hp⟩ := entity_listed h r hr id hid
    obtain ⟨p', hp'⟩ := entity_listed h r hr id' hid'
    have hs := (sameEntity_iff h _ _ _ _ _ _ _ _ hp hp').mpr he
    rw [h.same r _ _ _ _ _ _ hp hp']
    unfold SameEntity at hs
    have hinj : ∀ x ∈ entity I r id ++ entity I r id', ∀ y ∈ entity I r id ++ entity I r id', globalOf I.w r x = globalOf I.w r y → x = y := by
      intro x hx y hy hxy
      have hlt : ∀ v ∈ entity I r id ++ entity I r id', v < I.w.size r + (I.w.ghosts r).length := by
        intro v hv
        rcases List.mem_append.mp hv with hv | hv
        · exact (h.row r _ _ _ hp).2.2 v hv
        · exact (h.row r _ _ _ hp').2.2 v hv
      have g1 := gl_some I.w r x (hlt x hx)
      have g2 := gl_some I.w r y (hlt y hy)
      rw [← hxy, g1] at g2
      exact globalOf_inj I.w h.valid r hr x y _ g1 (by rw [← hxy]; exact g1)
    rw [List.perm_ext_iff_of_nodup (h.row r _ _ _ hp).2.1 (h.row r _ _ _ hp').2.1]
    intro v
    constructor
    · intro hv
      obtain ⟨u, hu, hue⟩ := List.mem_map.mp (hs.mem_iff.mp (List.mem_map.mpr ⟨v, hv, rfl⟩))
      rwa [← hinj u (by simp [hu]) v (by simp [hv]) hue]
    · intro hv
      obtain ⟨u, hu, hue⟩ := List.mem_map.mp (hs.mem_iff.mpr (List.mem_map.mpr ⟨v, hv, rfl⟩))
      rwa [← hinj u (by simp [hu]) v (by simp [hv]) hue]

theorem onOwn_iff (h : EntityInputOk I) (r pos : Nat) (row : List Nat) (i : Nat) (hL : Listed I r pos row i) :
    OnOwnCell I r i ↔ (I.status r).getD i 1 ≠ 1 := by
  have := h.status r pos row i hL
  unfold OnOwnCell
  rw [List.getD_eq_getElem?_getD, List.getElem?_eq_getElem this]
  simp

theorem cand_iff (h : EntityInputOk I) (r pos : Nat) (row : List Nat) (i : Nat) (hL : Listed I r pos row i) (q : Nat) :
    Cand I q (vglobal I r i) ↔ ∃ pos' row' i', Listed I q pos' row' i' ∧ SameEntity I r row q row' ∧ OnOwnCell I q i' := by
  constructor
  · rintro ⟨hq, id, h1, h2, h3⟩
    obtain ⟨p, hp⟩ := entity_listed h q hq id h1
    exact ⟨p, _, id, hp, (sameEntity_iff h _ _ _ _ _ _ _ _ hL hp).mpr h2.symm, (onOwn_iff h _ _ _ _ hp).mpr h3⟩
  · rintro ⟨p, row', id, hp, h2, h3⟩
    exact ⟨hp.1, id, (count_iff h q hp.1 id).mpr ⟨_, _, hp⟩, ((sameEntity_iff h _ _ _ _ _ _ _ _ hL hp).mp h2).symm,
      (onOwn_iff h _ _ _ _ hp).mp h3⟩

theorem covered_of_ok (h : EntityInputOk I) : Covered I := by
  intro r hr id hid
  obtain ⟨p, hp⟩ := entity_listed h r hr id hid
  obtain ⟨q, pos', row', i', h1, h2, h3⟩ := h.covered _ _ _ _ hp
  exact ⟨q, (cand_iff h _ _ _ _ hp q).mpr ⟨pos', row', i', h1, h2, h3⟩⟩

/-- C38: the distributed numbering.  No assertion fails, the resulting index map is valid (each ghost is owned by the
stated other rank), each rank numbers its entities from 0 with the owned ones first, entities on any two ranks have
the same global number exactly if they have the same global vertices, the owner has the entity on an owned cell, and
the interprocess entities are those on owned cells of two ranks. -/
theorem C38_distribution (h : EntityInputOk I) (order : Nat → List Nat) (ho : OrderOk I order) :
    ∃ E : World, E.P = I.w.P ∧ E.size = numLocal I order ∧ E.Valid ∧
      (∀ r, r < I.w.P → ∃ G, ghosts I order r = some G ∧ E.ghosts r = G.map Prod.fst ∧ E.owners r = G.map Prod.snd) ∧
      (∀ r pos row i, Listed I r pos row i → ∃ n, (newIndex I order r)[pos]? = some n ∧
        n < E.size r + (E.ghosts r).length) ∧
      (∀ r n, r < I.w.P → n < E.size r + (E.ghosts r).length → ∃ pos row i, Listed I r pos row i ∧
        (newIndex I order r)[pos]? = some n) ∧
      (∀ r pos row i r' pos' row' i' n n', Listed I r pos row i → Listed I r' pos' row' i' →
        (newIndex I order r)[pos]? = some n → (newIndex I order r')[pos']? = some n' →
        (globalOf E r n = globalOf E r' n' ↔ SameEntity I r row r' row')) ∧
      (∀ r pos row i n, Listed I r pos row i → (newIndex I order r)[pos]? = some n → n < E.size r → OnOwnCell I r i) ∧
      (∀ r pos row i n, Listed I r pos row i → (newIndex I order r)[pos]? = some n →
        (n ∈ interprocess I order r ↔ OnOwnCell I r i ∧
          ∃ q pos' row' i', q ≠ r ∧ Listed I q pos' row' i' ∧ SameEntity I r row q row' ∧ OnOwnCell I q i')) := by
  have hc := core_of_ok h
  have hcov := covered_of_ok h
  have hnew : ∀ r pos row i, Listed I r pos row i → (newIndex I order r)[pos]? = some (nloc I r i) := by
    intro r pos row i hL
    have hi := (count_iff h r hL.1 i).mpr ⟨_, _, hL⟩
    unfold newIndex
    rw [List.getElem?_map, hL.2.2, Option.map_some, localIndex_getD hc order ho r i hL.1 hi]
  have hsize : ∀ r, r < I.w.P → numLocal I order r + ((newWorld I order).ghosts r).length = count I r := by
    intro r hr
    obtain ⟨G, g1, g2, _⟩ := ghosts_eq hc hcov order ho r hr
    have : (newWorld I order).ghosts r = G.map Prod.fst := by
      change ((ghosts I order r).getD []).map Prod.fst = _; rw [g1]; rfl
    rw [this, List.length_map, g2, numLocal_eq hc order ho r hr]
    exact cnt_add r _
  refine ⟨newWorld I order, rfl, rfl, newWorld_valid hc hcov order ho, ?_, ?_, ?_, ?_, ?_, ?_⟩
  · intro r hr
    obtain ⟨G, g1, _⟩ := ghosts_eq hc hcov order ho r hr
    refine ⟨G, g1, ?_, ?_⟩
    · change ((ghosts I order r).getD []).map Prod.fst = _; rw [g1]; rfl
    · change ((ghosts I order r).getD []).map Prod.snd = _; rw [g1]; rfl
  · intro r pos row i hL
    have hi := (count_iff h r hL.1 i).mpr ⟨_, _, hL⟩
    refine ⟨_, hnew r pos row i hL, ?_⟩
    change _ < numLocal I order r + _
    rw [hsize r hL.1]
    exact nloc_lt r i hi
  · intro r n hr hn
    change _ < numLocal I order r + _ at hn
    rw [hsize r hr] at hn
    obtain ⟨i, hi, he⟩ := nloc_surj r n hn
    obtain ⟨pos, row, hL⟩ := (count_iff h r hr i).mp hi
    exact ⟨pos, row, i, hL, by rw [hnew r pos row i hL, he]⟩
  · intro r pos row i r' pos' row' i' n n' hL hL' hn hn'
    have hi := (count_iff h r hL.1 i).mpr ⟨_, _, hL⟩
    have hi' := (count_iff h r' hL'.1 i').mpr ⟨_, _, hL'⟩
    rw [hnew _ _ _ _ hL, Option.some.injEq] at hn
    rw [hnew _ _ _ _ hL', Option.some.injEq] at hn'
    subst hn; subst hn'
    rw [newWorld_global hc hcov order ho r i hL.1 hi, newWorld_global hc hcov order ho r' i' hL'.1 hi', Option.some.injEq,
      sameEntity_iff h _ _ _ _ _ _ _ _ hL hL']
    constructor
    · exact gid_inj hc _ _ (hcov r hL.1 i hi) (hcov r' hL'.1 i' hi')
    · intro he; rw [he]
  · intro r pos row i n hL hn hlt
    have hi := (count_iff h r hL.1 i).mpr ⟨_, _, hL⟩
    rw [hnew _ _ _ _ hL, Option.some.injEq] at hn
    subst hn
    change _ < numLocal I order r at hlt
    rw [numLocal_eq hc order ho r hL.1] at hlt
    exact (onOwn_iff h _ _ _ _ hL).mpr ((nloc_owned r i hi).mp hlt).1
  · intro r pos row i n hL hn
    have hi := (count_iff h r hL.1 i).mpr ⟨_, _, hL⟩
    rw [hnew _ _ _ _ hL, Option.some.injEq] at hn
    subst hn
    have hint : nloc I r i ∈ interprocess I order r ↔ EntityIndexing.Inter I r i := by
      unfold interprocess
      rw [loop_eq hc order ho r hL.1]
      simp only [List.mem_map, List.mem_filter, List.mem_range, decide_eq_true_eq]
      constructor
      · rintro ⟨j, ⟨j1, j2⟩, j3⟩
        rw [localIndex_getD hc order ho r j hL.1 j1] at j3
        rwa [← nloc_inj r j i j1 hi j3]
      · intro hI
        exact ⟨i, ⟨hi, hI⟩, localIndex_getD hc order ho r i hL.1 hi⟩
    rw [hint]
    unfold EntityIndexing.Inter
    rw [← onOwn_iff h _ _ _ _ hL]
    refine and_congr_right (fun _ => ?_)
    constructor
    · rintro ⟨q, _, q1, q2⟩
      obtain ⟨pos', row', i', c1, c2, c3⟩ := (cand_iff h _ _ _ _ hL q).mp q2
      exact ⟨q, pos', row', i', q1, c1, c2, c3⟩
    · rintro ⟨q, pos', row', i', q1, c1, c2, c3⟩
      exact ⟨q, c1.1, q1, (cand_iff h _ _ _ _ hL q).mpr ⟨pos', row', i', c1, c2, c3⟩⟩

/-- C38: the renumbering is a bijection of the initial numbers, as C37 requires. -/
theorem C38_bijection (h : EntityInputOk I) (order : Nat → List Nat) (ho : OrderOk I order) (r : Nat) (hr : r < I.w.P) :
    (localIndex I order r).Perm (List.range (count I r)) := by
  rw [localIndex_eq (core_of_ok h) order ho r hr]
  apply (List.perm_ext_iff_of_nodup _ List.nodup_range).mpr
  · intro x
    rw [List.mem_map, List.mem_range]
    constructor
    · rintro ⟨i, hi, rfl⟩; exact nloc_lt r i (List.mem_range.mp hi)
    · intro hx
      obtain ⟨i, hi, he⟩ := nloc_surj r x hx
      exact ⟨i, List.mem_range.mpr hi, he⟩
  · apply List.Nodup.map_on _ List.nodup_range
    intro x hx y hy hxy
    exact nloc_inj r x y (List.mem_range.mp hx) (List.mem_range.mp hy) hxy

/-! ### The order -/

theorem lexLe_lexCompare : ∀ a b : List Nat, LexLe (a.map Int.ofNat) (b.map Int.ofNat) → lexCompare b a = false
  | [], _, _ => by cases ‹List Nat› <;> rfl
  | _ :: _, [], h => by simp [LexLe] at h
  | a :: as, b :: bs, h => by
    simp only [List.map_cons, LexLe] at h
    rw [lexCompare]
    have hc : ∀ x y : Nat, Int.ofNat x < Int.ofNat y ↔ x < y := fun x y => Int.ofNat_lt
    rcases h with h | ⟨h1, h2⟩
    · rw [hc] at h
      rw [if_neg (by omega), if_pos h]
    · have : a = b := Int.ofNat.inj h1
      subst this
      rw [if_neg (by omega), if_neg (by omega)]
      exact lexLe_lexCompare as bs h2

/-- `entity_to_local_idx` as a flat table of 64-bit integers. -/
def flatTable (I : EntityIndexing.Input) (r : Nat) : List (BitVec 64) :=
  (toLocal I r).flatMap fun p => (p.1 ++ [p.2]).map (BitVec.ofNat 64)

/-- C38: `sort_by_perm` on the leading columns returns the order that `C38_distribution` asks for. -/
theorem C38_order (h : EntityInputOk I) (b : Nat) (hb : 0 < b) (hbw : b < 64)
    (hv : ∀ r, r < I.w.P → ∀ v g, globalOf I.w r v = some g → g < 2 ^ 63)
    (hsz : ∀ r, r < I.w.P → (toLocal I r).length ≤ 2 ^ 64) :
    ∃ order : Nat → List Nat, (∀ r, r < I.w.P →
      SortByPerm.sortByPerm b (flatTable I r) (I.nv + 1) (some I.nv) = some (order r)) ∧ OrderOk I order := by
  have hc := core_of_ok h
  have key : ∀ r, r < I.w.P → ∃ o, SortByPerm.sortByPerm b (flatTable I r) (I.nv + 1) (some I.nv) = some o ∧
      o.Perm (List.range (toLocal I r).length) ∧ o.Pairwise fun i j => lexCompare (keyAt I r j) (keyAt I r i) = false := by
    intro r hr
    have hflat : flatTable I r = (List.range (toLocal I r).length).flatMap fun i =>
        ((((toLocal I r).getD i ([], 0)).1 ++ [((toLocal I r).getD i ([], 0)).2]).map (BitVec.ofNat 64)) := by
      unfold flatTable
      have : (toLocal I r) = (List.range (toLocal I r).length).map fun i => (toLocal I r).getD i ([], 0) := by
        apply List.ext_getElem (by simp)
        intro i h1 h2
        rw [List.getElem_map, List.getElem_range, List.getD_eq_getElem _ _ h1]
      conv_lhs => rw [this]
      rw [List.flatMap_map]
    have hrowmem : ∀ i, i < (toLocal I r).length → ∃ id, id < count I r ∧ (toLocal I r).getD i ([], 0) = (vglobal I r id, id) := by
      intro i hi
      have hm : (toLocal I r).getD i ([], 0) ∈ toLocal I r := by rw [List.getD_eq_getElem _ _ hi]; exact List.getElem_mem hi
      obtain ⟨g1, _, g3⟩ := (mem_toLocal r ((toLocal I r).getD i ([], 0)).1 ((toLocal I r).getD i ([], 0)).2).mp hm
      exact ⟨_, g1, Prod.ext g3 rfl⟩
    have hklen : ∀ id, id < count I r → (vglobal I r id).length = I.nv := by
      intro id hid
      rw [vglobal_eq, (sortNat_perm _).length_eq, List.length_map, hc.len r hr id hid]
    have hlen : ∀ i, i < (toLocal I r).length → (((((toLocal I r).getD i ([], 0)).1 ++
        [((toLocal I r).getD i ([], 0)).2]).map (BitVec.ofNat 64))).length = I.nv + 1 := by
      intro i hi
      obtain ⟨id, h1, h2⟩ := hrowmem i hi
      rw [h2]; simp [hklen id h1]
    have hxl : (flatTable I r).length = (toLocal I r).length * (I.nv + 1) := by
      rw [hflat, List.length_flatMap]
      have : ((List.range (toLocal I r).length).map fun i => ((((toLocal I r).getD i ([], 0)).1 ++
        [((toLocal I r).getD i ([], 0)).2]).map (BitVec.ofNat 64)).length) =
          (List.range (toLocal I r).length).map fun _ => I.nv + 1 :=
        List.map_congr_left (fun i hi => hlen i (List.mem_range.mp hi))
      rw [this]; simp
    have hdiv : (flatTable I r).length / (I.nv + 1) = (toLocal I r).length := by
      rw [hxl]; exact Nat.mul_div_cancel _ (by omega)
    obtain ⟨o, h1, h2⟩ := C04_sort_by_perm b hb hbw (flatTable I r) (I.nv + 1) (some I.nv) (by rw [hdiv]; exact hsz r hr)
    rw [hdiv] at h2
    refine ⟨o, h1, h2.perm, ?_⟩
    have hkey : ∀ i, i < (toLocal I r).length → (tableRow (flatTable I r) (I.nv + 1) I.nv i).row = (keyAt I r i).map Int.ofNat := by
      intro i hi
      obtain ⟨id, e1, e2⟩ := hrowmem i hi
      have hk : keyAt I r i = vglobal I r id := by unfold keyAt; rw [e2]
      rw [hk]
      apply List.ext_getElem
      · unfold tableRow; simp [hklen id e1]
      · intro c c1 c2
        have hcn : c < I.nv := by simpa [tableRow] using c1
        have he : (tableRow (flatTable I r) (I.nv + 1) I.nv i).row[c] = ((flatTable I r).getD (i * (I.nv + 1) + c) 0).toInt := by
          simp [tableRow]
        rw [he, List.getElem_map]
        have hcv : c < (vglobal I r id).length := by rw [hklen id e1]; exact hcn
        rw [List.getD_eq_getElem?_getD, hflat, flatMap_const_get _ (I.nv + 1) _ hlen i c hi (by omega), e2]
        simp only [List.map_append, List.getElem?_append_left (show c < ((vglobal I r id).map (BitVec.ofNat 64)).length by simpa using hcv)]
        rw [List.getElem?_map, List.getElem?_eq_getElem hcv]
        simp only [Option.map_some, Option.getD_some]
        obtain ⟨v, hv1, hv2⟩ := (mem_vglobal r id _).mp (List.getElem_mem hcv)
        have := hv r hr v _ (gl_some I.w r v (hc.lt r hr id e1 v hv1))
        rw [hv2] at this
        rw [BitVec.toInt_eq_toNat_of_lt]
        · rw [BitVec.toNat_ofNat, Nat.mod_eq_of_lt (by omega)]; rfl
        · rw [BitVec.toNat_ofNat, Nat.mod_eq_of_lt (by omega)]; omega
    refine List.Pairwise.imp_of_mem ?_ h2.sorted
    intro i j hi hj hle
    have hi' : i < (toLocal I r).length := by simpa using h2.perm.mem_iff.mp hi
    have hj' : j < (toLocal I r).length := by simpa using h2.perm.mem_iff.mp hj
    change LexLe (tableRow _ _ I.nv i).row (tableRow _ _ I.nv j).row at hle
    rw [hkey i hi', hkey j hj'] at hle
    exact lexLe_lexCompare _ _ hle
  refine ⟨fun r => (SortByPerm.sortByPerm b (flatTable I r) (I.nv + 1) (some I.nv)).getD [], ?_, ?_⟩
  · intro r hr
    obtain ⟨o, h1, _⟩ := key r hr
    simp only [h1, Option.getD_some]
  · intro r hr
    obtain ⟨o, h1, h2⟩ := key r hr
    simp only [h1, Option.getD_some]
    exact h2

/-! ### Example -/

/-- Edges of two triangles (0,1,2) and (1,2,3), one on each of two ranks; rank 0 also has the other as a ghost. -/
def exEdges : EntityIndexing.Input where
  w := ⟨2, fun r => if r = 0 then 3 else 1, fun r => if r = 0 then [3] else [1, 2], fun r => if r = 0 then [1] else [0, 0]⟩
  nv := 2
  rows := fun r => if r = 0 then [[1, 2], [0, 2], [0, 1], [2, 3], [1, 3], [1, 2]] else [[1, 2], [0, 1], [0, 2]]
  index := fun r => if r = 0 then [2, 1, 0, 4, 3, 2] else [0, 1, 2]
  status := fun r => if r = 0 then [0, 0, 0, 1, 1] else [0, 0, 0]

theorem exEdges_listed (r pos : Nat) (row : List Nat) (i : Nat) : Listed exEdges r pos row i ↔
    (r = 0 ∧ (pos, row, i) ∈ [(0, [1, 2], 2), (1, [0, 2], 1), (2, [0, 1], 0), (3, [2, 3], 4), (4, [1, 3], 3), (5, [1, 2], 2)]) ∨
    (r = 1 ∧ (pos, row, i) ∈ [(0, [1, 2], 0), (1, [0, 1], 1), (2, [0, 2], 2)]) := by
  unfold Listed
  constructor
  · rintro ⟨h1, h2, h3⟩
    have hr : r < 2 := h1
    have : r = 0 ∨ r = 1 := by omega
    rcases this with rfl | rfl
    · left
      refine ⟨rfl, ?_⟩
      have hp : pos < 6 := (List.getElem?_eq_some_iff.mp h2).1
      have : pos = 0 ∨ pos = 1 ∨ pos = 2 ∨ pos = 3 ∨ pos = 4 ∨ pos = 5 := by omega
      rcases this with rfl | rfl | rfl | rfl | rfl | rfl <;> cases h2 <;> cases h3 <;> decide
    · right
      refine ⟨rfl, ?_⟩
      have hp : pos < 3 := (List.getElem?_eq_some_iff.mp h2).1
      have : pos = 0 ∨ pos = 1 ∨ pos = 2 := by omega
      rcases this with rfl | rfl | rfl <;> cases h2 <;> cases h3 <;> decide
  · rintro (⟨rfl, h⟩ | ⟨rfl, h⟩) <;> fin_cases h <;> exact ⟨by decide, rfl, rfl⟩

theorem exEdges_ok : EntityInputOk exEdges where
  valid := by
    constructor
    · intro r hr
      have : r = 0 ∨ r = 1 := by have : r < 2 := hr; omega
      rcases this with rfl | rfl <;> rfl
    · intro r hr
      have : r = 0 ∨ r = 1 := by have : r < 2 := hr; omega
      rcases this with rfl | rfl <;> decide
    · intro r hr k q g hq hg
      have : r = 0 ∨ r = 1 := by have : r < 2 := hr; omega
      rcases this with rfl | rfl
      · have hk : k < 1 := (List.getElem?_eq_some_iff.mp hg).1
        obtain rfl : k = 0 := by omega
        cases hq; cases hg; decide
      · have hk : k < 2 := (List.getElem?_eq_some_iff.mp hg).1
        have : k = 0 ∨ k = 1 := by omega
        rcases this with rfl | rfl <;> cases hq <;> cases hg <;> decide
  nv := by decide
  len := by
    intro r hr
    have : r = 0 ∨ r = 1 := by have : r < 2 := hr; omega
    rcases this with rfl | rfl <;> rfl
  row := by
    intro r pos row i h
    rw [exEdges_listed] at h
    rcases h with ⟨rfl, h⟩ | ⟨rfl, h⟩ <;> fin_cases h <;> decide
  same := by
    intro r pos row i pos' row' i' h h'
    rw [exEdges_listed] at h h'
    rcases h with ⟨rfl, h⟩ | ⟨rfl, h⟩ <;> rcases h' with ⟨e, h'⟩ | ⟨e, h'⟩ <;> simp at e <;>
      fin_cases h <;> fin_cases h' <;> decide
  gapless := by
    intro r pos row i h j hj
    rw [exEdges_listed] at h
    simp only [exEdges_listed]
    rcases h with ⟨rfl, h⟩ | ⟨rfl, h⟩
    · have hj' : j < 5 := by fin_cases h <;> (try simp at hj) <;> omega
      have : j = 0 ∨ j = 1 ∨ j = 2 ∨ j = 3 ∨ j = 4 := by omega
      rcases this with rfl | rfl | rfl | rfl | rfl
      · exact ⟨2, [0, 1], by decide⟩
      · exact ⟨1, [0, 2], by decide⟩
      · exact ⟨0, [1, 2], by decide⟩
      · exact ⟨4, [1, 3], by decide⟩
      · exact ⟨3, [2, 3], by decide⟩
    · have hj' : j < 3 := by fin_cases h <;> (try simp at hj) <;> omega
      have : j = 0 ∨ j = 1 ∨ j = 2 := by omega
      rcases this with rfl | rfl | rfl
      · exact ⟨0, [1, 2], by decide⟩
      · exact ⟨1, [0, 1], by decide⟩
      · exact ⟨2, [0, 2], by decide⟩
  status := by
    intro r pos row i h
    rw [exEdges_listed] at h
    rcases h with ⟨rfl, h⟩ | ⟨rfl, h⟩ <;> fin_cases h <;> decide
  covered := by
    intro r pos row i h
    rw [exEdges_listed] at h
    have own0 : ∀ i, i < 3 → OnOwnCell exEdges 0 i := by
      intro i hi
      have : i = 0 ∨ i = 1 ∨ i = 2 := by omega
      rcases this with rfl | rfl | rfl <;> exact ⟨0, rfl, by decide⟩
    have own1 : ∀ i, i < 3 → OnOwnCell exEdges 1 i := by
      intro i hi
      have : i = 0 ∨ i = 1 ∨ i = 2 := by omega
      rcases this with rfl | rfl | rfl <;> exact ⟨0, rfl, by decide⟩
    rcases h with ⟨rfl, h⟩ | ⟨rfl, h⟩
    · fin_cases h
      · exact ⟨0, 0, [1, 2], 2, (exEdges_listed _ _ _ _).mpr (by decide), List.Perm.refl _, own0 _ (by decide)⟩
      · exact ⟨0, 1, [0, 2], 1, (exEdges_listed _ _ _ _).mpr (by decide), List.Perm.refl _, own0 _ (by decide)⟩
      · exact ⟨0, 2, [0, 1], 0, (exEdges_listed _ _ _ _).mpr (by decide), List.Perm.refl _, own0 _ (by decide)⟩
      · exact ⟨1, 2, [0, 2], 2, (exEdges_listed _ _ _ _).mpr (by decide), by unfold SameEntity; decide, own1 _ (by decide)⟩
      · exact ⟨1, 1, [0, 1], 1, (exEdges_listed _ _ _ _).mpr (by decide), by unfold SameEntity; decide, own1 _ (by decide)⟩
      · exact ⟨0, 0, [1, 2], 2, (exEdges_listed _ _ _ _).mpr (by decide), List.Perm.refl _, own0 _ (by decide)⟩
    · fin_cases h
      · exact ⟨1, 0, [1, 2], 0, (exEdges_listed _ _ _ _).mpr (by decide), List.Perm.refl _, own1 _ (by decide)⟩
      · exact ⟨1, 1, [0, 1], 1, (exEdges_listed _ _ _ _).mpr (by decide), List.Perm.refl _, own1 _ (by decide)⟩
      · exact ⟨1, 2, [0, 2], 2, (exEdges_listed _ _ _ _).mpr (by decide), List.Perm.refl _, own1 _ (by decide)⟩

/-- The shared edge, given by different local vertices on the two ranks, is one entity; another one is not. -/
example : SameEntity exEdges 0 [1, 2] 1 [1, 2] ∧ ¬ SameEntity exEdges 0 [0, 2] 1 [0, 2] := by
  unfold SameEntity; decide

end Verif.Props
