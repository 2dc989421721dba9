import Verif.Lemmas.DualGraphLocal
import Verif.Lemmas.Group
import Mathlib.Data.List.Flatten
/-! # Exchange of unmatched facets through post offices -/
namespace Verif.DualGraph
open Verif.Std Verif.Offsets Verif.LocalRange Verif.Spec Verif.Props Verif.EntityNumbering Verif.Group Verif.Exchange

variable {I : Input}

/-! ### Destinations -/

/-- Position in the table of unmatched facet `f`. -/
def ui (I : Input) (r f : Nat) : Nat := (unmatched I r).getD f 0

/-- Post office of unmatched facet `f`. -/
def po (I : Input) (r f : Nat) : Nat := indexOwner I.P (firstVertex I r (ui I r f) - rangeMin I) (rangeMax I - rangeMin I)

theorem items_eq (r : Nat) : items I r = (List.range (unmatched I r).length).map fun f => (po I r f, f) := by
  unfold items po ui
  apply List.ext_getElem?
  intro f
  rw [List.getElem?_map, List.getElem?_zipIdx, List.getElem?_map]
  by_cases hf : f < (unmatched I r).length
  · rw [List.getElem?_eq_getElem hf, List.getElem?_range hf]
    simp [List.getElem?_eq_getElem hf]
  · rw [List.getElem?_eq_none (by omega), List.getElem?_eq_none (by simpa using hf)]
    rfl

theorem dest_eq (r : Nat) : dest I r = keys Prod.fst (items I r) := by
  unfold dest destRuns
  rw [runs_sortBy, List.map_map]
  exact List.map_id _

theorem numPerDest_eq (r : Nat) : numPerDest I r = (dest I r).map fun d => (grp Prod.fst (items I r) d).length := by
  rw [dest_eq]
  unfold numPerDest destRuns
  rw [runs_sortBy, List.map_map]
  rfl

theorem dest_nodup (r : Nat) : (dest I r).Nodup := by rw [dest_eq]; exact keys_nodup _ _

theorem mem_dest (r d : Nat) : d ∈ dest I r ↔ ∃ f, f < (unmatched I r).length ∧ po I r f = d := by
  rw [dest_eq, mem_keys, items_eq]
  simp only [List.mem_map, List.mem_range]
  constructor
  · rintro ⟨x, ⟨f, hf, rfl⟩, rfl⟩; exact ⟨f, hf, rfl⟩
  · rintro ⟨f, hf, rfl⟩; exact ⟨_, ⟨f, hf, rfl⟩, rfl⟩

theorem inEdges : InEdges I.P (dest I) (src I) where
  nodup r _ := List.nodup_range.filter _
  mem r _ q := by unfold src; rw [List.mem_filter, List.mem_range, decide_eq_true_eq]

theorem posToNeigh_get {r f : Nat} (hf : f < (unmatched I r).length) :
    (posToNeigh I r).getD f 0 = (dest I r).idxOf (po I r f) := by
  have hd : po I r f ∈ dest I r := (mem_dest r _).mpr ⟨f, hf, rfl⟩
  have key : ∀ v, (f, v) ∈ ((destRuns I r).zipIdx.flatMap fun p => p.1.2.map fun e => (e.2, p.2)) ↔
      v = (dest I r).idxOf (po I r f) := by
    intro v
    have hdr : destRuns I r = (dest I r).map fun d => (d, grp Prod.fst (items I r) d) := by
      rw [dest_eq]; unfold destRuns; rw [runs_sortBy]
    rw [List.mem_flatMap]
    constructor
    · rintro ⟨⟨x, k⟩, hx, h⟩
      have hx := List.mem_zipIdx_iff_getElem?.mp hx
      simp only at hx
      rw [hdr, List.getElem?_map] at hx
      cases hk : (dest I r)[k]? with
      | none => rw [hk] at hx; cases hx
      | some d =>
        rw [hk] at hx
        obtain rfl := Option.some.inj hx
        simp only [List.mem_map, Prod.mk.injEq] at h
        obtain ⟨e, he, h1, h2⟩ := h
        rw [mem_grp, items_eq, List.mem_map] at he
        obtain ⟨⟨f', hf', rfl⟩, he2⟩ := he
        simp only at h1 he2
        subst h1; subst he2; subst h2
        obtain ⟨hlt, hget⟩ := List.getElem?_eq_some_iff.mp hk
        rw [← hget, (dest_nodup r).idxOf_getElem]
    · rintro rfl
      refine ⟨((po I r f, grp Prod.fst (items I r) (po I r f)), (dest I r).idxOf (po I r f)), ?_, ?_⟩
      · rw [List.mem_zipIdx_iff_getElem?]
        simp only
        rw [hdr, List.getElem?_map, List.getElem?_idxOf hd]
        rfl
      · simp only [List.mem_map, Prod.mk.injEq]
        refine ⟨(po I r f, f), ?_, rfl, trivial⟩
        rw [mem_grp, items_eq, List.mem_map]
        exact ⟨⟨f, List.mem_range.mpr hf, rfl⟩, rfl⟩
  have := runWrites_written (List.replicate (unmatched I r).length 0) _ f ((dest I r).idxOf (po I r f)) (by simpa using hf)
    ((key _).mpr rfl) (fun b hb => (key b).mp hb)
  rw [List.getD_eq_getElem?_getD]
  unfold posToNeigh
  rw [this]; rfl

/-- Facets in the order in which they are sent. -/
def sent (I : Input) (r : Nat) : List (Nat × Nat) := sortBy Prod.fst (items I r)

theorem mem_sent (r : Nat) (x : Nat × Nat) : x ∈ sent I r ↔ x.2 < (unmatched I r).length ∧ x.1 = po I r x.2 := by
  unfold sent
  rw [mem_sortBy, items_eq, List.mem_map]
  constructor
  · rintro ⟨f, hf, rfl⟩; exact ⟨List.mem_range.mp hf, rfl⟩
  · rintro ⟨h1, h2⟩; exact ⟨x.2, List.mem_range.mpr h1, by rw [← h2]⟩

theorem fill_sent {β : Type} (r : Nat) (val : Nat → β) (z : β) :
    (fill (fun f => (posToNeigh I r).getD f 0) val (sendDisp I r) (List.replicate (numPerDest I r).sum z)
      (List.range (unmatched I r).length)).2 = (sent I r).map fun x => val x.2 := by
  have hr : List.range (unmatched I r).length = (items I r).map Prod.snd := by
    rw [items_eq, List.map_map]
    conv_lhs => rw [← List.map_id (List.range (unmatched I r).length)]
    rfl
  have hlen : (items I r).length = (unmatched I r).length := by rw [items_eq]; simp
  have hsum : (numPerDest I r).sum = (items I r).length := by
    rw [numPerDest_eq]
    apply sum_grp _ _ (dest_nodup r)
    intro x hx
    rw [dest_eq, mem_keys]; exact ⟨x, hx, rfl⟩
  have hfill : ∀ (l : List (Nat × Nat)) (st : (Nat → Nat) × List β),
      (l.map Prod.snd).foldl (fillStep (fun f => (posToNeigh I r).getD f 0) val) st =
        l.foldl (fillStep (fun x : Nat × Nat => (posToNeigh I r).getD x.2 0) (fun x => val x.2)) st := by
    intro l st; rw [List.foldl_map]; rfl
  have hpk := pack_eq (dest I r) (dest_nodup r) (items I r) Prod.fst (fun x => (posToNeigh I r).getD x.2 0)
    (fun x => val x.2) (by intro x hx; rw [dest_eq, mem_keys]; exact ⟨x, hx, rfl⟩)
    (by
      intro x hx
      rw [items_eq, List.mem_map] at hx
      obtain ⟨f, hf, rfl⟩ := hx
      exact posToNeigh_get (List.mem_range.mp hf))
    (numPerDest I r) (numPerDest_eq r) (List.replicate (numPerDest I r).sum z) (by rw [List.length_replicate, hsum])
  rw [hr]
  unfold fill at hpk ⊢
  rw [hfill]
  refine Eq.trans hpk ?_
  unfold sent
  rw [sortBy_eq, List.map_flatMap, dest_eq]

theorem sendIndex_eq (r : Nat) : sendIndex I r = (sent I r).map Prod.snd := by
  unfold sendIndex; rw [fill_sent]; rfl

/-- Row and cell sent for unmatched facet `f`. -/
def gkey (I : Input) (r f : Nat) : List Int := fkey I r (ui I r f) ++ List.replicate (shape I - localShape I r) (-1)
def gcell (I : Input) (r f : Nat) : Nat := fcell I r (ui I r f) + cellStart I r

theorem sendBuffer_eq (r : Nat) : sendBuffer I r = (sent I r).map fun x => (gkey I r x.2, gcell I r x.2) := by
  unfold sendBuffer; rw [fill_sent]; rfl

/-! ### Arrival at the post office -/

/-- Records received by post office `s`: source rank and number of the unmatched facet. -/
def tags (I : Input) (s : Nat) : List (Nat × Nat) :=
  (src I s).flatMap fun q => (grp Prod.fst (items I q) s).map fun x => (q, x.2)

theorem mem_tags {s : Nat} (hs : s < I.P) (t : Nat × Nat) :
    t ∈ tags I s ↔ t.1 < I.P ∧ t.2 < (unmatched I t.1).length ∧ po I t.1 t.2 = s := by
  unfold tags
  rw [List.mem_flatMap]
  constructor
  · rintro ⟨q, hq, h⟩
    obtain ⟨x, hx, rfl⟩ := List.mem_map.mp h
    rw [mem_grp, items_eq, List.mem_map] at hx
    obtain ⟨⟨f, hf, rfl⟩, h2⟩ := hx
    exact ⟨((inEdges.mem s hs q).mp hq).1, List.mem_range.mp hf, h2⟩
  · rintro ⟨h1, h2, h3⟩
    refine ⟨t.1, (inEdges.mem s hs _).mpr ⟨h1, (mem_dest _ _).mpr ⟨t.2, h2, h3⟩⟩, List.mem_map.mpr ⟨(s, t.2), ?_, rfl⟩⟩
    rw [mem_grp, items_eq, List.mem_map]
    exact ⟨⟨t.2, List.mem_range.mpr h2, by rw [h3]⟩, rfl⟩

theorem tags_nodup {s : Nat} (hs : s < I.P) : (tags I s).Nodup := by
  unfold tags
  rw [List.nodup_flatMap]
  refine ⟨?_, ?_⟩
  · intro q _
    apply List.Nodup.map_on
    · intro x hx y hy he
      rw [mem_grp] at hx hy
      have h1 : x.1 = y.1 := hx.2.trans hy.2.symm
      have h2 : x.2 = y.2 := (Prod.mk.inj he).2
      exact Prod.ext h1 h2
    · refine List.Nodup.filter _ ?_
      rw [items_eq]
      exact List.Nodup.map_on (fun x _ y _ he => (Prod.mk.inj he).2) List.nodup_range
  · refine ((inEdges.nodup s hs) : (src I s).Nodup).imp ?_
    intro a b hab z h1 h2
    obtain ⟨x, _, rfl⟩ := List.mem_map.mp h1
    obtain ⟨y, _, he⟩ := List.mem_map.mp h2
    exact hab (Prod.mk.inj he).1.symm

theorem recvBuffer_eq {s : Nat} (hs : s < I.P) : recvBuffer I s = (tags I s).map fun t => (gkey I t.1 t.2, gcell I t.1 t.2) := by
  unfold recvBuffer
  rw [neighborAlltoallv_eq (dest I) (src I) _ (fun q s => (grp Prod.fst (items I q) s).map fun x => (gkey I q x.2, gcell I q x.2)) s]
  · unfold tags
    rw [List.map_flatMap]
    apply List.flatMap_congr
    intro q _
    rw [List.map_map]; rfl
  · intro q _
    rw [sendBuffer_eq, numPerDest_eq]
    unfold sent
    rw [sortBy_eq, List.map_flatMap, ← dest_eq, chunks_flatMap]
    simp
  · intro q hq; exact ((inEdges.mem s hs q).mp hq).2

theorem numRecv_eq {s : Nat} (hs : s < I.P) : numRecv I s = (src I s).map fun q => (grp Prod.fst (items I q) s).length := by
  unfold numRecv neighborAlltoall
  rw [neighborAlltoallv_eq (dest I) (src I) _ (fun q s => [(grp Prod.fst (items I q) s).length]) s, flatMap_singleton]
  · intro q _
    simp only [numPerDest_eq, List.map_map]
    rfl
  · intro q hq; exact ((inEdges.mem s hs q).mp hq).2

/-! ### Answers -/

/-- Cells that share received facet `i`. -/
def ansRow (I : Input) (s i : Nat) : List Nat :=
  ((bothWays (runs (rkey I s) (I.orderPO s))).filter fun p => p.1 == i).map fun p => rcell I s p.2

theorem answerLinks_eq (s : Nat) :
    answerLinks I s = (bothWays (runs (rkey I s) (I.orderPO s))).map fun p => (p.1, rcell I s p.2) := by
  unfold answerLinks bothWays
  rw [List.map_flatMap]
  apply List.flatMap_congr
  intro l _
  rw [List.map_flatMap]
  rfl

theorem po_runs_ok (h : Ok I) {s : Nat} (hs : s < I.P) : RunsOk (rkey I s) (I.orderPO s) (runs (rkey I s) (I.orderPO s)) :=
  runs_ok _ _ (h.orderPO_sorted s hs)

theorem orderPO_nodup (h : Ok I) {s : Nat} (hs : s < I.P) : (I.orderPO s).Nodup :=
  (h.orderPO s hs).nodup_iff.mpr List.nodup_range

theorem mem_orderPO (h : Ok I) {s : Nat} (hs : s < I.P) (i : Nat) : i ∈ I.orderPO s ↔ i < (recvBuffer I s).length := by
  rw [(h.orderPO s hs).mem_iff, List.mem_range]

theorem mem_ansRow (h : Ok I) {s : Nat} (hs : s < I.P) (i x : Nat) : x ∈ ansRow I s i ↔
    i < (recvBuffer I s).length ∧ ∃ j, j < (recvBuffer I s).length ∧ i ≠ j ∧ rkey I s i = rkey I s j ∧ rcell I s j = x := by
  unfold ansRow
  simp only [List.mem_map, List.mem_filter, beq_iff_eq]
  constructor
  · rintro ⟨⟨i', j⟩, ⟨hm, rfl⟩, rfl⟩
    obtain ⟨h1, h2, h3, h4⟩ := (mem_bothWays _ (po_runs_ok h hs) (orderPO_nodup h hs) i' j).mp hm
    exact ⟨(mem_orderPO h hs _).mp h1, j, (mem_orderPO h hs _).mp h2, h3, h4, rfl⟩
  · rintro ⟨h1, j, h2, h3, h4, rfl⟩
    exact ⟨(i, j), ⟨(mem_bothWays _ (po_runs_ok h hs) (orderPO_nodup h hs) i j).mpr
      ⟨(mem_orderPO h hs _).mpr h1, (mem_orderPO h hs _).mpr h2, h3, h4⟩, rfl⟩, rfl⟩

theorem cnt_answerLinks (s i : Nat) : cnt Prod.fst (answerLinks I s) i = (ansRow I s i).length := by
  rw [answerLinks_eq, cnt_eq_length, List.filter_map, List.length_map]
  unfold ansRow
  rw [List.length_map]
  rfl

theorem answerCount_eq (s : Nat) :
    answerCount I s = (List.range (recvBuffer I s).length).map fun i => (ansRow I s i).length := by
  unfold answerCount
  apply List.map_congr_left
  intro i _
  exact cnt_answerLinks s i

theorem answerData_eq (h : Ok I) {s : Nat} (hs : s < I.P) :
    answerData I s = (List.range (recvBuffer I s).length).flatMap (ansRow I s) := by
  unfold answerData
  have hk : ∀ x ∈ answerLinks I s, x.1 < (recvBuffer I s).length := by
    intro x hx
    rw [answerLinks_eq] at hx
    obtain ⟨p, hp, rfl⟩ := List.mem_map.mp hx
    exact (mem_orderPO h hs _).mp ((mem_bothWays _ (po_runs_ok h hs) (orderPO_nodup h hs) p.1 p.2).mp hp).1
  have hlen : (answerCount I s).sum = (answerLinks I s).length := by
    rw [← excl_cnt_total Prod.fst (answerLinks I s) _ hk]; rfl
  rw [fill_eq_buckets Prod.fst Prod.snd _ _ _ hk (by rw [List.length_replicate, hlen])]
  apply List.flatMap_congr
  intro i _
  rw [answerLinks_eq, List.filter_map, List.map_map]
  rfl

/-- The answer for a record at its post office. -/
def ansOf (I : Input) (s : Nat) (t : Nat × Nat) : List Nat := ansRow I s ((tags I s).idxOf t)

theorem range_map_tags {β : Type} {s : Nat} (hs : s < I.P) (g : Nat → β) :
    (List.range (recvBuffer I s).length).map g = (tags I s).map fun t => g ((tags I s).idxOf t) := by
  have hlen : (recvBuffer I s).length = (tags I s).length := by rw [recvBuffer_eq hs]; simp
  apply List.ext_getElem
  · simp [hlen]
  · intro i h1 h2
    rw [List.getElem_map, List.getElem_map, List.getElem_range, (tags_nodup hs).idxOf_getElem]

theorem answerCount_tags {s : Nat} (hs : s < I.P) : answerCount I s =
    (src I s).flatMap fun q => (grp Prod.fst (items I q) s).map fun x => (ansOf I s (q, x.2)).length := by
  rw [answerCount_eq, range_map_tags hs]
  conv_lhs => rw [tags]
  rw [List.map_flatMap]
  apply List.flatMap_congr
  intro q _
  rw [List.map_map]; rfl

theorem answerData_tags (h : Ok I) {s : Nat} (hs : s < I.P) : answerData I s =
    (src I s).flatMap fun q => (grp Prod.fst (items I q) s).flatMap fun x => ansOf I s (q, x.2) := by
  rw [answerData_eq h hs, List.flatMap_def, range_map_tags hs, ← List.flatMap_def]
  conv_lhs => rw [tags]
  rw [List.flatMap_assoc]
  apply List.flatMap_congr
  intro q _
  rw [List.flatMap_map]; rfl

theorem answerCountPP_eq {s : Nat} (hs : s < I.P) : answerCountPP I s =
    (src I s).map fun q => ((grp Prod.fst (items I q) s).flatMap fun x => ansOf I s (q, x.2)).length := by
  unfold answerCountPP
  rw [answerCount_tags hs, numRecv_eq hs, chunks_flatMap _ _ _ (by simp), List.map_map]
  apply List.map_congr_left
  intro q _
  rw [List.length_flatMap]; rfl

/-- Conditions under which post offices are ranks. -/
theorem foldl_min_le (f : Nat → Nat) (l : List Nat) (a : Nat) : l.foldl (fun a r => min a (f r)) a ≤ a ∧
    ∀ r ∈ l, l.foldl (fun a r => min a (f r)) a ≤ f r := by
  induction l generalizing a with
  | nil => simp
  | cons b l ih =>
    rw [List.foldl_cons]
    obtain ⟨h1, h2⟩ := ih (min a (f b))
    refine ⟨by omega, ?_⟩
    intro r hr
    rcases List.mem_cons.mp hr with rfl | hr
    · omega
    · exact h2 r hr

theorem le_foldl_max (f : Nat → Nat) (l : List Nat) (a : Nat) : a ≤ l.foldl (fun a r => max a (f r)) a ∧
    ∀ r ∈ l, f r ≤ l.foldl (fun a r => max a (f r)) a := by
  induction l generalizing a with
  | nil => simp
  | cons b l ih =>
    rw [List.foldl_cons]
    obtain ⟨h1, h2⟩ := ih (max a (f b))
    refine ⟨by omega, ?_⟩
    intro r hr
    rcases List.mem_cons.mp hr with rfl | hr
    · omega
    · exact h2 r hr

theorem ui_mem {r f : Nat} (hf : f < (unmatched I r).length) : ui I r f ∈ unmatched I r := by
  unfold ui; rw [List.getD_eq_getElem _ _ hf]; exact List.getElem_mem hf

theorem firstVertex_bounds {r f : Nat} (hr : r < I.P) (hf : f < (unmatched I r).length) :
    rangeMin I ≤ firstVertex I r (ui I r f) ∧ firstVertex I r (ui I r f) < rangeMax I := by
  have hm : firstVertex I r (ui I r f) ∈ (unmatched I r).map (firstVertex I r) := List.mem_map_of_mem (ui_mem hf)
  constructor
  · refine Nat.le_trans ((foldl_min_le (localMin I) _ _).2 r (List.mem_range.mpr hr)) ?_
    unfold localMin
    cases hl : (unmatched I r).map (firstVertex I r) with
    | nil => exact Nat.zero_le _
    | cons a l =>
      rw [hl] at hm
      have := foldl_min_le (fun x => x) l a
      rcases List.mem_cons.mp hm with h | h
      · rw [h]; exact this.1
      · exact this.2 _ h
  · unfold rangeMax
    have h1 := (le_foldl_max (localMax I) (List.range I.P) 0).2 r (List.mem_range.mpr hr)
    have h2 : firstVertex I r (ui I r f) ≤ localMax I r := by
      unfold localMax
      exact (le_foldl_max (fun x => x) _ 0).2 _ hm
    omega

theorem po_lt {r f : Nat} (hr : r < I.P) (hf : f < (unmatched I r).length) : po I r f < I.P := by
  have := firstVertex_bounds hr hf
  exact (C02_index_owner_spec I.P _ _ (by omega) (by omega)).1

theorem reply {β : Type} (g : Nat → Nat → Nat × Nat → List β) {r : Nat} (hr : r < I.P) (blocks : Nat → List (List β))
    (hb : ∀ s, s < I.P → blocks s = (src I s).map fun q => (grp Prod.fst (items I q) s).flatMap (g s q)) :
    neighborAlltoallv (src I) (dest I) blocks r = (sent I r).flatMap fun x => g x.1 r x := by
  have hlt : ∀ s ∈ dest I r, s < I.P := by
    intro s hs
    obtain ⟨f, hf, rfl⟩ := (mem_dest r s).mp hs
    exact po_lt hr hf
  rw [neighborAlltoallv_eq (src I) (dest I) _ (fun s q => (grp Prod.fst (items I q) s).flatMap (g s q)) r]
  · unfold sent
    rw [sortBy_eq, List.flatMap_assoc, dest_eq]
    apply List.flatMap_congr
    intro s _
    apply List.flatMap_congr
    intro x hx
    rw [((mem_grp _ _ _ _).mp hx).2]
  · intro s hs; exact hb s (hlt s hs)
  · intro s hs
    exact (inEdges.mem s (hlt s hs) r).mpr ⟨hr, hs⟩

theorem recvCount_eq {r : Nat} (hr : r < I.P) :
    recvCount I r = (sent I r).map fun x => (ansOf I x.1 (r, x.2)).length := by
  unfold recvCount
  rw [reply (fun s q x => [(ansOf I s (q, x.2)).length]) hr, flatMap_singleton]
  intro s hs
  rw [answerCount_tags hs, numRecv_eq hs, chunks_flatMap _ _ _ (by simp)]
  apply List.map_congr_left
  intro q _
  rw [flatMap_singleton]

theorem recvData_eq (h : Ok I) {r : Nat} (hr : r < I.P) :
    recvData I r = (sent I r).flatMap fun x => ansOf I x.1 (r, x.2) := by
  unfold recvData
  rw [reply (fun s q x => ansOf I s (q, x.2)) hr]
  intro s hs
  rw [answerData_tags h hs, answerCountPP_eq hs, chunks_flatMap _ _ _ rfl]

/-! ### The final graph -/

theorem sentCell_eq {r i : Nat} (hi : i < (sent I r).length) : sentCell I r i = fcell I r (ui I r ((sent I r)[i]).2) := by
  unfold sentCell
  have : (sendIndex I r).getD i 0 = ((sent I r)[i]).2 := by
    rw [sendIndex_eq, List.getD_eq_getElem _ _ (by simpa using hi), List.getElem_map]
  rw [this]
  rfl

theorem zipIdx_sent {β γ : Type} {r : Nat} (g : Nat × Nat → β) (k : β → Nat → γ) :
    ((sent I r).map g).zipIdx.map (fun p => k p.1 (sentCell I r p.2)) =
      (sent I r).map fun x => k (g x) (fcell I r (ui I r x.2)) := by
  apply List.ext_getElem
  · simp
  · intro i h1 h2
    simp only [List.length_map, List.length_zipIdx] at h1
    simp only [List.getElem_map, List.getElem_zipIdx, Nat.zero_add]
    rw [sentCell_eq h1]

theorem links_eq (h : Ok I) {r : Nat} (hr : r < I.P) : links I r =
    ((List.range (numCells I r)).flatMap fun c => (localRow I r c).map fun x => (c, x + cellStart I r)) ++
    (sent I r).flatMap fun x => (ansOf I x.1 (r, x.2)).map fun y => (fcell I r (ui I r x.2), y) := by
  unfold links
  congr 1
  rw [recvData_eq h hr, recvCount_eq hr, chunks_flatMap _ _ _ rfl]
  have := zipIdx_sent (I := I) (r := r) (fun x => ansOf I x.1 (r, x.2)) (fun l c => l.map fun y => (c, y))
  rw [List.flatMap_def, List.flatMap_def, ← this]

theorem foldl_modify_get (l : List (Nat × Nat)) (a : List Nat) (c : Nat) (hc : c < a.length) :
    (l.foldl (fun a p => a.modify p.2 (· + p.1)) a).getD c 0 = a.getD c 0 + ((l.filter fun p => p.2 == c).map Prod.fst).sum := by
  induction l generalizing a with
  | nil => simp
  | cons p l ih =>
    rw [List.foldl_cons, ih _ (by simpa using hc)]
    rw [List.getD_eq_getElem _ _ (by simpa using hc), List.getD_eq_getElem _ _ hc, List.getElem_modify]
    by_cases hp : p.2 = c
    · simp [hp]; omega
    · simp [hp]

theorem numEdges_eq (h : Ok I) {r : Nat} (hr : r < I.P) {c : Nat} (hc : c < numCells I r) :
    (numEdges I r).getD c 0 = cnt Prod.fst (links I r) c := by
  unfold numEdges
  have e1 : (recvCount I r).zipIdx.foldl (fun a p => a.modify (sentCell I r p.2) (· + p.1))
      ((List.range (numCells I r)).map fun c => (localRow I r c).length) =
      (((sent I r).map fun x => ((ansOf I x.1 (r, x.2)).length, fcell I r (ui I r x.2)))).foldl
        (fun a p => a.modify p.2 (· + p.1)) ((List.range (numCells I r)).map fun c => (localRow I r c).length) := by
    rw [recvCount_eq hr, ← zipIdx_sent (I := I) (r := r) (fun x => (ansOf I x.1 (r, x.2)).length) (fun l c => (l, c)),
      List.foldl_map]
  rw [e1, foldl_modify_get _ _ _ (by simpa using hc), links_eq h hr]
  rw [List.getD_eq_getElem _ _ (by simpa using hc), List.getElem_map, List.getElem_range]
  unfold cnt
  rw [List.countP_append]
  congr 1
  · rw [List.countP_flatMap]
    have : ∀ n, c < n → ((List.range n).map (List.countP (fun x : Nat × Nat => x.1 == c) ∘ fun c =>
        (localRow I r c).map fun x => (c, x + cellStart I r))).sum = (localRow I r c).length := by
      intro n hn
      induction n with
      | zero => omega
      | succ n ih =>
        rw [List.range_succ, List.map_append, List.sum_append]
        simp only [List.map_cons, List.map_nil, List.sum_cons, List.sum_nil, Nat.add_zero, Function.comp]
        by_cases hcn : c = n
        · subst hcn
          have hz : ∀ m, m ≤ c → ((List.range m).map (List.countP (fun x : Nat × Nat => x.1 == c) ∘ fun c =>
              (localRow I r c).map fun x => (c, x + cellStart I r))).sum = 0 := by
            intro m hm
            induction m with
            | zero => rfl
            | succ m ihm =>
              rw [List.range_succ, List.map_append, List.sum_append, ihm (by omega)]
              simp only [List.map_cons, List.map_nil, List.sum_cons, List.sum_nil, Nat.add_zero, Function.comp, Nat.zero_add]
              rw [List.countP_map, List.countP_eq_zero]
              intro x _
              simp; omega
          have h2 := hz c (le_refl _)
          rw [h2, Nat.zero_add, List.countP_map, List.countP_eq_length.mpr]
          intro x _; simp
        · have h2 := ih (by omega)
          rw [h2, List.countP_map, List.countP_eq_zero.mpr]
          · omega
          · intro x _; simp; omega
    exact (this _ hc).symm
  · rw [List.countP_flatMap, List.filter_map, List.map_map]
    induction sent I r with
    | nil => rfl
    | cons x l ih =>
      simp only [List.filter_cons, List.map_cons, List.sum_cons, Function.comp]
      rw [← ih]
      by_cases hx : fcell I r (ui I r x.2) = c
      · simp only [hx, beq_self_eq_true, if_true, List.map_cons, List.sum_cons, Function.comp]
        rw [List.countP_map, List.countP_eq_length.mpr]
        intro y _; simp
      · have hx' : (fcell I r (ui I r x.2) == c) = false := by simpa using hx
        simp only [hx', Bool.false_eq_true, if_false]
        rw [List.countP_map, List.countP_eq_zero.mpr]
        · simp
        · intro y _; simp [hx]

theorem unmatched_sub (h : Ok I) {r : Nat} (hr : r < I.P) : (unmatched I r).Sublist (I.order r) := by
  rw [← (localRuns_ok h hr).flat]
  unfold unmatched
  exact List.Sublist.flatten List.filter_sublist

theorem ui_lt (h : Ok I) {r : Nat} (hr : r < I.P) {f : Nat} (hf : f < (unmatched I r).length) :
    ui I r f < (table I r).length := (mem_order h hr _).mp ((unmatched_sub h hr).mem (ui_mem hf))

theorem links_lt (h : Ok I) {r : Nat} (hr : r < I.P) : ∀ x ∈ links I r, x.1 < numCells I r := by
  intro x hx
  rw [links_eq h hr] at hx
  rcases List.mem_append.mp hx with hx | hx
  · obtain ⟨c, hc, hx⟩ := List.mem_flatMap.mp hx
    obtain ⟨y, _, rfl⟩ := List.mem_map.mp hx
    exact List.mem_range.mp hc
  · obtain ⟨y, hy, hx⟩ := List.mem_flatMap.mp hx
    obtain ⟨z, _, rfl⟩ := List.mem_map.mp hx
    exact fcell_lt h hr (ui_lt h hr ((mem_sent r y).mp hy).1)

theorem offset_eq (h : Ok I) {r : Nat} (hr : r < I.P) {c : Nat} (hc : c ≤ numCells I r) :
    offset I r c = excl (cnt Prod.fst (links I r)) c := by
  unfold offset
  exact excl_congr fun i hi => numEdges_eq h hr (by omega)

/-- Links of a cell before duplicates are removed. -/
def rawRow (I : Input) (r c : Nat) : List Nat := ((links I r).filter fun x => x.1 == c).map Prod.snd

theorem data_eq (h : Ok I) {r : Nat} (hr : r < I.P) : data I r = (List.range (numCells I r)).flatMap (rawRow I r) := by
  unfold data
  have hk := links_lt h hr
  have hfill : ∀ (cur cur' : Nat → Nat), (∀ c, c < numCells I r → cur c = cur' c) → ∀ (l : List (Nat × Nat)),
      (∀ x ∈ l, x.1 < numCells I r) → ∀ buf : List Nat,
      (fill Prod.fst Prod.snd cur buf l).2 = (fill Prod.fst Prod.snd cur' buf l).2 := by
    intro cur cur' hcc l hl buf
    unfold fill
    induction l generalizing cur cur' buf with
    | nil => rfl
    | cons x l ih =>
      have hx := hl x (by simp)
      simp only [List.foldl_cons, fillStep]
      rw [hcc _ hx]
      apply ih
      · intro c hc; simp only [hcc c hc]
      · intro y hy; exact hl y (by simp [hy])
  rw [hfill _ (excl (cnt Prod.fst (links I r))) (fun c hc => offset_eq h hr (by omega)) _ hk,
    offset_eq h hr (le_refl _), fill_eq_buckets Prod.fst Prod.snd _ _ _ hk (by rw [List.length_replicate, excl_cnt_total _ _ _ hk])]
  rfl

theorem offset_rawRow (h : Ok I) {r : Nat} (hr : r < I.P) {c : Nat} (hc : c ≤ numCells I r) :
    offset I r c = excl (fun c => (rawRow I r c).length) c := by
  rw [offset_eq h hr hc]
  exact excl_congr fun i _ => by unfold rawRow; rw [List.length_map, cnt_eq_length]

theorem mem_rawRow (h : Ok I) {r : Nat} (hr : r < I.P) {c : Nat} (hc : c < numCells I r) (g : Nat) :
    g ∈ rawRow I r c ↔ (∃ b ∈ localRow I r c, g = b + cellStart I r) ∨
      ∃ f, f < (unmatched I r).length ∧ fcell I r (ui I r f) = c ∧ g ∈ ansOf I (po I r f) (r, f) := by
  unfold rawRow
  rw [links_eq h hr]
  simp only [List.mem_map, List.mem_filter, List.mem_append, List.mem_flatMap, List.mem_range, beq_iff_eq]
  constructor
  · rintro ⟨x, ⟨h1 | h1, rfl⟩, rfl⟩
    · obtain ⟨c', _, b, hb, rfl⟩ := h1
      exact Or.inl ⟨b, hb, rfl⟩
    · obtain ⟨y, hy, z, hz, rfl⟩ := h1
      obtain ⟨h3, h4⟩ := (mem_sent r y).mp hy
      rw [h4] at hz
      exact Or.inr ⟨y.2, h3, rfl, hz⟩
  · rintro (⟨b, hb, rfl⟩ | ⟨f, hf, rfl, hg⟩)
    · exact ⟨(c, b + cellStart I r), ⟨Or.inl ⟨c, hc, b, hb, rfl⟩, rfl⟩, rfl⟩
    · exact ⟨(fcell I r (ui I r f), g), ⟨Or.inr ⟨(po I r f, f), (mem_sent r _).mpr ⟨hf, rfl⟩, g, hg, rfl⟩, rfl⟩, rfl⟩

/-- Answers, in terms of the facets of all ranks. -/
theorem mem_ansOf (h : Ok I) {r : Nat} (hr : r < I.P) {f : Nat} (hf : f < (unmatched I r).length) (g : Nat) :
    g ∈ ansOf I (po I r f) (r, f) ↔ ∃ q k, q < I.P ∧ k < (unmatched I q).length ∧ po I q k = po I r f ∧ (q, k) ≠ (r, f) ∧
      gkey I r f = gkey I q k ∧ gcell I q k = g := by
  have hs := po_lt hr hf
  have hlen : (recvBuffer I (po I r f)).length = (tags I (po I r f)).length := by rw [recvBuffer_eq hs]; simp
  have hget : ∀ i t, (tags I (po I r f))[i]? = some t → rkey I (po I r f) i = gkey I t.1 t.2 ∧ rcell I (po I r f) i = gcell I t.1 t.2 := by
    intro i t hi
    unfold rkey rcell
    rw [List.getD_eq_getElem?_getD, recvBuffer_eq hs, List.getElem?_map, hi]
    exact ⟨rfl, rfl⟩
  have hm : (r, f) ∈ tags I (po I r f) := (mem_tags hs _).mpr ⟨hr, hf, rfl⟩
  have hidx := List.getElem?_idxOf hm
  unfold ansOf
  rw [mem_ansRow h hs]
  constructor
  · rintro ⟨_, j, hj, hne, hk, rfl⟩
    rw [hlen] at hj
    have hjt := List.getElem?_eq_getElem hj
    obtain ⟨h1, h2, h3⟩ := (mem_tags hs _).mp (List.getElem_mem hj)
    refine ⟨_, _, h1, h2, h3, ?_, ?_, (hget _ _ hjt).2.symm⟩
    · intro he
      apply hne
      have : (tags I (po I r f))[j] = (r, f) := he
      rw [← this, (tags_nodup hs).idxOf_getElem]
    · rw [(hget _ _ hidx).1, (hget _ _ hjt).1] at hk
      exact hk
  · rintro ⟨q, k, h1, h2, h3, h4, h5, rfl⟩
    have hm' : (q, k) ∈ tags I (po I r f) := (mem_tags hs _).mpr ⟨h1, h2, h3⟩
    have hidx' := List.getElem?_idxOf hm'
    refine ⟨by rw [hlen]; exact List.idxOf_lt_length_of_mem hm, (tags I (po I r f)).idxOf (q, k),
      by rw [hlen]; exact List.idxOf_lt_length_of_mem hm', ?_, ?_, (hget _ _ hidx').2⟩
    · intro he
      exact h4 (((List.idxOf_inj hm).mp he).symm)
    · rw [(hget _ _ hidx).1, (hget _ _ hidx').1]; exact h5

end Verif.DualGraph
