import Verif.Model.EntityIndexing
import Verif.Props.C31_IndexToDestRanks
import Verif.Props.C29_SubMap
import Verif.Lemmas.SubMap
import Verif.Spec.GlobalIndex
/-!
# Which ranks an entity is offered to
-/
namespace Verif.EntityIndexing
open Verif.SubMap Verif.World Verif.Std Verif.Exchange Verif.Group Verif.Shared Verif.Spec Verif.Props

/-- Rank `q` has global vertex `g`. -/
def Has (w : World) (q g : Nat) : Prop := ∃ i, globalOf w q i = some g

theorem has_iff (w : World) (q g : Nat) : Has w q g ↔ g ∈ w.ghosts q ∨ (w.r0 q ≤ g ∧ g < w.r0 q + w.size q) := by
  unfold Has globalOf
  constructor
  · rintro ⟨i, hi⟩
    split at hi
    · right; simp only [Option.some.injEq] at hi; omega
    · left; exact List.mem_of_getElem? hi
  · rintro (h | h)
    · obtain ⟨k, hk⟩ := List.getElem?_of_mem h
      refine ⟨w.size q + k, ?_⟩
      rw [if_neg (by omega)]
      simpa using hk
    · refine ⟨g - w.r0 q, ?_⟩
      rw [if_pos (by omega)]
      simp only [Option.some.injEq]; omega

/-- Global number of a local vertex. -/
def gl (w : World) (r v : Nat) : Nat := (globalOf w r v).getD 0

theorem gl_some (w : World) (r v : Nat) (hv : v < w.size r + (w.ghosts r).length) : globalOf w r v = some (gl w r v) := by
  obtain ⟨g, hg⟩ := globalOf_some w r v hv
  unfold gl; rw [hg]; rfl

theorem mem_sharers (w : World) (r g s : Nat) : s ∈ sharers w r g ↔ s < w.P ∧ s ≠ r ∧ Has w s g := by
  unfold sharers
  rw [List.mem_filter, List.mem_range, decide_eq_true_eq, has_iff]

theorem ghosters_eq (w : World) (hw : w.Valid) (r n : Nat) (hr : r < w.P) (hn : n < w.size r) : ghosters w (w.r0 r + n) = sharers w r (w.r0 r + n) := by
  unfold ghosters sharers
  apply List.filter_congr
  intro s hs
  rw [List.mem_range] at hs
  rw [decide_eq_decide]
  constructor
  · intro h
    refine ⟨?_, Or.inl h⟩
    rintro rfl
    exact not_ghost_own w hw s _ hs h ⟨by omega, by omega⟩
  · rintro ⟨h1, h2 | h2⟩
    · exact h2
    · exact absurd (range_unique w h2 ⟨by omega, by omega⟩) h1

variable (I : Input)

/-- The row of `vertex_ranks` for a local vertex: the other ranks that have it. -/
theorem vertexLinks_eq (hw : I.w.Valid) (r v : Nat) (hr : r < I.w.P) (hv : v < I.w.size r + (I.w.ghosts r).length) :
    vertexLinks I r v = sharers I.w r (gl I.w r v) := by
  obtain ⟨data, offs, h1, _, h3, h4, _⟩ := C31_index_to_dest_ranks I.w hw r hr
  have hrow : vertexLinks I r v = rowOf data offs v := by
    unfold vertexLinks vertexRanks; rw [h1]; rfl
  rw [hrow]
  unfold gl globalOf
  by_cases h : v < I.w.size r
  · rw [if_pos h, h3 v h, ghosters_eq I.w hw r v hr h]; rfl
  · rw [if_neg h]
    have hk : v - I.w.size r < (I.w.ghosts r).length := by omega
    have hg := List.getElem?_eq_getElem hk
    have := h4 _ _ hg
    rw [show I.w.size r + (v - I.w.size r) = v by omega] at this
    rw [this, hg]; rfl

theorem pushSizes_head (o sizes : List Nat) (h : o ≠ []) : (pushSizes o sizes).getD 0 0 = o.getD 0 0 := by
  unfold pushSizes
  induction sizes generalizing o with
  | nil => rfl
  | cons a l ih =>
    rw [List.foldl_cons, ih _ (by simp)]
    cases o with
    | nil => exact absurd rfl h
    | cons x o => rfl

theorem mem_rows_of_data (data offs : List Nat) (n : Nat) (h0 : offs.getD 0 0 = 0) (hn : offs.getD n 0 = data.length) (x : Nat) :
    x ∈ data → ∃ v, v < n ∧ x ∈ rowOf data offs v := by
  intro hx
  obtain ⟨j, hj, rfl⟩ := List.getElem_of_mem hx
  have key : ∀ m, j < offs.getD m 0 → ∃ v, v < m ∧ offs.getD v 0 ≤ j ∧ j < offs.getD (v + 1) 0 := by
    intro m
    induction m with
    | zero => intro h; omega
    | succ m ih =>
      intro h
      by_cases h' : j < offs.getD m 0
      · obtain ⟨v, h1, h2⟩ := ih h'
        exact ⟨v, by omega, h2⟩
      · exact ⟨m, by omega, by omega, h⟩
  obtain ⟨v, h1, h2, h3⟩ := key n (by omega)
  refine ⟨v, h1, ?_⟩
  unfold rowOf
  apply List.mem_of_getElem? (i := j - offs.getD v 0)
  rw [List.getElem?_take, if_pos (by omega), List.getElem?_drop, show offs.getD v 0 + (j - offs.getD v 0) = j by omega]
  exact List.getElem?_eq_getElem hj

theorem rowOf_sub (data offs : List Nat) (v x : Nat) (h : x ∈ rowOf data offs v) : x ∈ data :=
  List.mem_of_mem_drop (List.mem_of_mem_take h)

theorem ranks_strict (r : Nat) : (ranks I r).Pairwise (· < ·) := unique_sortNat_sorted _

/-- Neighbours: the other ranks with a common vertex. -/
theorem mem_ranks (hw : I.w.Valid) (r q : Nat) (hr : r < I.w.P) :
    q ∈ ranks I r ↔ q < I.w.P ∧ q ≠ r ∧ ∃ g, Has I.w r g ∧ Has I.w q g := by
  obtain ⟨data, offs, h1, h2, h3, h4, h5, _⟩ := C31_index_to_dest_ranks I.w hw r hr
  have hrow : ∀ v, vertexLinks I r v = rowOf data offs v := by
    intro v; unfold vertexLinks vertexRanks; rw [h1]; rfl
  have hdata : (vertexRanks I r).1 = data := by unfold vertexRanks; rw [h1]; rfl
  unfold ranks
  rw [mem_unique_sortNat, hdata]
  constructor
  · intro hq
    have h0 : offs.getD 0 0 = 0 := by
      unfold indexToDestRanks at h1
      obtain ⟨l, _, hl⟩ := Option.map_eq_some_iff.mp h1
      simp only [Prod.mk.injEq] at hl
      rw [← hl.2, pushSizes_head]
      · unfold ownedOffsets; rw [pushSizes_head _ _ (by simp)]; rfl
      · unfold ownedOffsets
        intro hnil
        have := congrArg List.length hnil
        rw [pushSizes_length] at this
        simp at this
    obtain ⟨v, hv, hm⟩ := mem_rows_of_data data offs _ h0 h5 q hq
    rw [← hrow, vertexLinks_eq I hw r v hr hv, mem_sharers] at hm
    exact ⟨hm.1, hm.2.1, _, ⟨v, gl_some I.w r v hv⟩, hm.2.2⟩
  · rintro ⟨hq1, hq2, g, ⟨v, hv⟩, hg⟩
    have hlt := globalOf_lt I.w r v g hv
    apply rowOf_sub data offs v
    rw [← hrow, vertexLinks_eq I hw r v hr hlt, mem_sharers]
    unfold gl; rw [hv]
    exact ⟨hq1, hq2, hg⟩

theorem ranks_symm (hw : I.w.Valid) (r q : Nat) (hr : r < I.w.P) (h : q ∈ ranks I r) : q < I.w.P ∧ r ∈ ranks I q := by
  obtain ⟨h1, h2, g, h3, h4⟩ := (mem_ranks I hw r q hr).mp h
  exact ⟨h1, (mem_ranks I hw q r h1).mpr ⟨hr, h2.symm, g, h4, h3⟩⟩

/-! ### Requirements on the input -/

/-- Entities have `nv` distinct vertices of the rank, and different entities have different vertices. -/
structure Core : Prop where
  valid : I.w.Valid
  nv : 0 < I.nv
  len : ∀ r, r < I.w.P → ∀ id, id < count I r → (entity I r id).length = I.nv
  nodup : ∀ r, r < I.w.P → ∀ id, id < count I r → (entity I r id).Nodup
  lt : ∀ r, r < I.w.P → ∀ id, id < count I r → ∀ v ∈ entity I r id, v < I.w.size r + (I.w.ghosts r).length
  distinct : ∀ r, r < I.w.P → ∀ id id', id < count I r → id' < count I r → vglobal I r id = vglobal I r id' → id = id'

variable {I}

theorem vglobal_eq (r id : Nat) : vglobal I r id = sortNat ((entity I r id).map (gl I.w r)) := by
  unfold vglobal gl
  congr 1
  apply List.map_congr_left
  intro v _
  rw [localToGlobal_map]

theorem mem_vglobal (r id g : Nat) : g ∈ vglobal I r id ↔ ∃ v ∈ entity I r id, gl I.w r v = g := by
  rw [vglobal_eq, mem_sortNat, List.mem_map]

theorem vglobal_has (h : Core I) (r id : Nat) (hr : r < I.w.P) (hid : id < count I r) (g : Nat) (hg : g ∈ vglobal I r id) :
    Has I.w r g := by
  obtain ⟨v, hv, rfl⟩ := (mem_vglobal r id g).mp hg
  exact ⟨v, gl_some _ _ _ (h.lt r hr id hid v hv)⟩

theorem vglobal_strict (h : Core I) (r id : Nat) (hr : r < I.w.P) (hid : id < count I r) :
    (vglobal I r id).Pairwise (· < ·) := by
  have hnd : ((entity I r id).map (gl I.w r)).Nodup := by
    apply List.Nodup.map_on _ (h.nodup r hr id hid)
    intro x hx y hy hxy
    have h1 := gl_some I.w r x (h.lt r hr id hid x hx)
    have h2 := gl_some I.w r y (h.lt r hr id hid y hy)
    rw [← hxy] at h2
    exact globalOf_inj I.w h.valid r hr x y _ h1 h2
  rw [vglobal_eq]
  have h2 := (sortNat_perm ((entity I r id).map (gl I.w r))).nodup_iff.mpr hnd
  exact ((sortNat_sorted _).and h2).imp (fun h => lt_of_le_of_ne h.1 h.2)

theorem vglobal_ne_nil (h : Core I) (r id : Nat) (hr : r < I.w.P) (hid : id < count I r) : vglobal I r id ≠ [] := by
  rw [vglobal_eq]
  intro he
  have := congrArg List.length he
  rw [(sortNat_perm _).length_eq, List.length_map, h.len r hr id hid] at this
  have := h.nv
  simp at *; omega

theorem count_flatMap_links (l : List Nat) (f : Nat → List Nat) (hf : ∀ v ∈ l, (f v).Nodup) (q : Nat) :
    (grp (fun x : Nat => x) (l.flatMap f) q).length ≤ l.length ∧
    ((grp (fun x : Nat => x) (l.flatMap f) q).length = l.length ↔ ∀ v ∈ l, q ∈ f v) := by
  induction l with
  | nil => simp [grp]
  | cons a l ih =>
    obtain ⟨ih1, ih2⟩ := ih (fun v hv => hf v (by simp [hv]))
    have hsplit : (grp (fun x : Nat => x) ((a :: l).flatMap f) q).length =
        (grp (fun x : Nat => x) (f a) q).length + (grp (fun x : Nat => x) (l.flatMap f) q).length := by
      unfold grp; rw [List.flatMap_cons, List.filter_append, List.length_append]
    have hone : (grp (fun x : Nat => x) (f a) q).length = if q ∈ f a then 1 else 0 := by
      unfold grp
      have h1 : ((f a).filter fun x => decide (x = q)) = (f a).filter (· == q) := by
        apply List.filter_congr; intro x _; simp [beq_eq_decide]
      rw [h1, ← List.countP_eq_length_filter]
      change (f a).count q = _
      split
      · rename_i hm
        exact List.count_eq_one_of_mem (hf a (by simp)) hm
      · rename_i hm
        exact List.count_eq_zero_of_not_mem hm
    rw [hsplit, hone, List.length_cons]
    constructor
    · split <;> omega
    · constructor
      · intro h
        by_cases hm : q ∈ f a
        · rw [if_pos hm] at h
          have := ih2.mp (by omega)
          intro v hv
          rcases List.mem_cons.mp hv with rfl | hv
          · exact hm
          · exact this v hv
        · rw [if_neg hm] at h; omega
      · intro h
        rw [if_pos (h a (by simp)), ih2.mpr (fun v hv => h v (by simp [hv]))]
        omega

/-- An entity is a candidate for exactly the other ranks that have all its vertices. -/
theorem mem_hits (h : Core I) (r id q : Nat) (hr : r < I.w.P) (hid : id < count I r) :
    q ∈ hits I r id ↔ q < I.w.P ∧ q ≠ r ∧ ∀ g ∈ vglobal I r id, Has I.w q g := by
  have hlinks : ∀ v ∈ entity I r id, vertexLinks I r v = sharers I.w r (gl I.w r v) := fun v hv =>
    vertexLinks_eq I h.valid r v hr (h.lt r hr id hid v hv)
  have hnd : ∀ v ∈ entity I r id, (vertexLinks I r v).Nodup := by
    intro v hv
    rw [hlinks v hv]
    exact List.Nodup.filter _ List.nodup_range
  obtain ⟨_, hc⟩ := count_flatMap_links (entity I r id) (vertexLinks I r) hnd q
  rw [h.len r hr id hid] at hc
  have hne : entity I r id ≠ [] := by
    intro he
    have := h.len r hr id hid
    rw [he] at this
    have := h.nv
    simp at *; omega
  unfold hits
  rw [runs_sortBy]
  have hmem : q ∈ (((keys (fun x : Nat => x) ((entity I r id).flatMap (vertexLinks I r))).map fun k =>
      (k, grp (fun x => x) ((entity I r id).flatMap (vertexLinks I r)) k)).filter fun p => decide (p.2.length = I.nv)).map Prod.fst ↔
      ∀ v ∈ entity I r id, q ∈ vertexLinks I r v := by
    rw [← hc]
    simp only [List.mem_map, List.mem_filter, decide_eq_true_eq]
    constructor
    · rintro ⟨p, ⟨⟨k, hk, rfl⟩, h2⟩, rfl⟩; exact h2
    · intro h2
      refine ⟨_, ⟨⟨q, ?_, rfl⟩, h2⟩, rfl⟩
      rw [mem_keys]
      have : (grp (fun x : Nat => x) ((entity I r id).flatMap (vertexLinks I r)) q) ≠ [] := by
        intro he; rw [he] at h2; have := h.nv; simp at h2; omega
      obtain ⟨x, hx⟩ := List.exists_mem_of_ne_nil _ this
      exact ⟨x, (mem_grp _ _ _ _).mp hx⟩
  rw [hmem]
  constructor
  · intro hv
    obtain ⟨v0, hv0⟩ := List.exists_mem_of_ne_nil _ hne
    have h0 := hv v0 hv0
    rw [hlinks v0 hv0, mem_sharers] at h0
    refine ⟨h0.1, h0.2.1, ?_⟩
    intro g hg
    obtain ⟨v, hv', rfl⟩ := (mem_vglobal r id g).mp hg
    have h1 := hv v hv'
    rw [hlinks v hv', mem_sharers] at h1
    exact h1.2.2
  · rintro ⟨h1, h2, h3⟩ v hv
    rw [hlinks v hv, mem_sharers]
    exact ⟨h1, h2, h3 _ ((mem_vglobal r id _).mpr ⟨v, hv, rfl⟩)⟩

theorem hits_nodup (r n : Nat) : (hits I r n).Nodup := by
  unfold hits
  rw [runs_sortBy]
  have : (((keys (fun x : Nat => x) ((entity I r n).flatMap (vertexLinks I r))).map fun k =>
      (k, grp (fun x => x) ((entity I r n).flatMap (vertexLinks I r)) k)).map Prod.fst).Nodup := by
    rw [List.map_map]
    have hid : (Prod.fst ∘ fun k => (k, grp (fun x : Nat => x) ((entity I r n).flatMap (vertexLinks I r)) k)) = id := rfl
    rw [hid, List.map_id]
    exact keys_nodup (fun x : Nat => x) ((entity I r n).flatMap (vertexLinks I r))
  exact this.sublist (List.filter_sublist.map _)

theorem hits_ranks (h : Core I) (r id q : Nat) (hr : r < I.w.P) (hid : id < count I r) (hq : q ∈ hits I r id) :
    q ∈ ranks I r := by
  obtain ⟨h1, h2, h3⟩ := (mem_hits h r id q hr hid).mp hq
  obtain ⟨g, hg⟩ := List.exists_mem_of_ne_nil _ (vglobal_ne_nil h r id hr hid)
  exact (mem_ranks I h.valid r q hr).mpr ⟨h1, h2, g, vglobal_has h r id hr hid g hg, h3 g hg⟩

/-! ### Send lists -/

theorem pushAt_get {β : Type} (pos : Nat → Nat) (ps : List (Nat × β)) (v : List (List β)) (j : Nat) :
    (ps.foldl (fun v p => v.modify (pos p.1) (· ++ [p.2])) v)[j]? =
      v[j]?.map fun l => l ++ (ps.filter fun p => decide (pos p.1 = j)).map Prod.snd := by
  induction ps generalizing v with
  | nil => simp
  | cons p ps ih =>
    rw [List.foldl_cons, ih, List.getElem?_modify]
    cases v[j]? with
    | none => rfl
    | some l =>
      by_cases h : pos p.1 = j
      · simp [h]
      · simp [h]

theorem lowerBound_idxOf (l : List Nat) (hl : l.Pairwise (· < ·)) (q : Nat) (hq : q ∈ l) :
    lowerBound (fun x => decide (x < q)) l = l.idxOf q := by
  have hlt := List.idxOf_lt_length_of_mem hq
  have hget : l[l.idxOf q] = q := List.getElem_idxOf hlt
  apply lowerBound_eq_of _ _ (partitioned_of_sorted (fun x : Nat => x) l (hl.imp (fun h => le_of_lt h)) q) _ (le_of_lt hlt)
  · intro i hi h
    have := List.pairwise_iff_getElem.mp hl i _ hi hlt h
    rw [hget] at this
    simpa using this
  · intro i hi h
    rcases Nat.lt_or_eq_of_le h with h | h
    · have := List.pairwise_iff_getElem.mp hl _ i hlt hi h
      rw [hget] at this
      simp; omega
    · have : l[i] = q := by rw [← hget]; congr 1; exact h.symm
      simp [this]

variable (I) in
/-- Entities that `r` sends to `q`, in order of their number. -/
def offer (r q : Nat) : List (List Nat × Nat) :=
  ((List.range (count I r)).filter fun id => decide (q ∈ hits I r id) && decide ((I.status r).getD id 1 ≠ 1)).map
    fun id => (vglobal I r id, id)

theorem mem_offer (r q : Nat) (K : List Nat) (id : Nat) : (K, id) ∈ offer I r q ↔
    id < count I r ∧ q ∈ hits I r id ∧ (I.status r).getD id 1 ≠ 1 ∧ K = vglobal I r id := by
  unfold offer
  simp only [List.mem_map, List.mem_filter, List.mem_range, Bool.and_eq_true, decide_eq_true_eq, Prod.mk.injEq]
  constructor
  · rintro ⟨a, ⟨h1, h2, h3⟩, h4, rfl⟩; exact ⟨h1, h2, h3, h4.symm⟩
  · rintro ⟨h1, h2, h3, h4⟩; exact ⟨id, ⟨h1, h2, h3⟩, h4.symm, rfl⟩

theorem sendLists_eq (h : Core I) (r : Nat) (hr : r < I.w.P) :
    sendLists I r = (ranks I r).map fun q => offer I r q := by
  apply List.ext_getElem?
  intro j
  unfold sendLists
  rw [pushAt_get (fun q => lowerBound (fun x => decide (x < q)) (ranks I r)), List.getElem?_map, List.getElem?_replicate]
  by_cases hj : j < (ranks I r).length
  · rw [if_pos hj, List.getElem?_eq_getElem hj]
    simp only [Option.map_some, List.nil_append, Option.some.injEq]
    unfold sends offer
    rw [List.filter_flatMap, List.map_flatMap]
    have hfl : ∀ (l : List Nat) (p : Nat → Bool), ((l.filter p).map fun id => (vglobal I r id, id)) =
        l.flatMap fun id => if p id then [(vglobal I r id, id)] else [] := by
      intro l p
      induction l with
      | nil => rfl
      | cons a l ih =>
        rw [List.filter_cons, List.flatMap_cons]
        split
        · rw [List.map_cons, ih]; rfl
        · rw [ih]; rfl
    rw [hfl]
    apply List.flatMap_congr
    intro id hid
    rw [List.mem_range] at hid
    rw [List.filter_flatMap, List.map_flatMap]
    set q := (ranks I r)[j] with hq
    have hcongr : ((hits I r id).flatMap fun a => List.map Prod.snd (List.filter (fun p : Nat × (List Nat × Nat) =>
        decide (lowerBound (fun x => decide (x < p.1)) (ranks I r) = j))
          (if (I.status r).getD id 1 ≠ 1 then [(a, (vglobal I r id, id))] else []))) =
        (hits I r id).flatMap fun a => if a = q ∧ (I.status r).getD id 1 ≠ 1 then [(vglobal I r id, id)] else [] := by
      apply List.flatMap_congr
      intro a ha
      have har := hits_ranks h r id a hr hid ha
      have hpos : lowerBound (fun x => decide (x < a)) (ranks I r) = j ↔ a = q := by
        rw [lowerBound_idxOf _ (ranks_strict I r) a har]
        constructor
        · intro he
          rw [hq]
          have := List.getElem_idxOf (List.idxOf_lt_length_of_mem har)
          simp only [he] at this
          exact this.symm
        · rintro rfl
          exact (nodup_of_strict (ranks_strict I r)).idxOf_getElem j hj
      by_cases hs : (I.status r).getD id 1 ≠ 1
      · rw [if_pos hs]
        by_cases ha' : a = q
        · rw [if_pos ⟨ha', hs⟩, List.filter_cons, if_pos (by simpa using hpos.mpr ha')]; rfl
        · rw [if_neg (fun h => ha' h.1), List.filter_cons, if_neg (by simpa using fun h => ha' (hpos.mp h))]; rfl
      · rw [if_neg hs, if_neg (fun h => hs h.2)]; rfl
    rw [hcongr, flatMap_mem_single _ (hits_nodup r id) q]
    · by_cases hm : q ∈ hits I r id
      · simp [hm]
      · simp [hm]
    · intro a ha; rw [if_neg (fun h => ha h.1)]
  · rw [if_neg hj, List.getElem?_eq_none (by omega)]; rfl

theorem recv_blocks {β : Type} (h : Core I) (f : Nat → List Nat × Nat → β) (r : Nat) (hr : r < I.w.P) :
    chunks (neighborAlltoall (ranks I) (ranks I) (fun q => (sendLists I q).map List.length) r)
      (neighborAlltoallv (ranks I) (ranks I) (fun q => (sendLists I q).map fun l => l.map (f q)) r) =
    (ranks I r).map fun q => (offer I q r).map (f q) := by
  have h1 : neighborAlltoall (ranks I) (ranks I) (fun q => (sendLists I q).map List.length) r =
      (ranks I r).map fun q => (offer I q r).length := by
    unfold neighborAlltoall
    rw [neighborAlltoallv_eq _ _ _ (fun q r => [(offer I q r).length]), flatMap_singleton]
    · intro q hq
      obtain ⟨hqP, _⟩ := ranks_symm I h.valid r q hr hq
      simp only [sendLists_eq h q hqP, List.map_map]; rfl
    · intro q hq; exact (ranks_symm I h.valid r q hr hq).2
  have h2 : neighborAlltoallv (ranks I) (ranks I) (fun q => (sendLists I q).map fun l => l.map (f q)) r =
      (ranks I r).flatMap fun q => (offer I q r).map (f q) := by
    rw [neighborAlltoallv_eq _ _ _ (fun q r => (offer I q r).map (f q))]
    · intro q hq
      obtain ⟨hqP, _⟩ := ranks_symm I h.valid r q hr hq
      simp only [sendLists_eq h q hqP, List.map_map]; rfl
    · intro q hq; exact (ranks_symm I h.valid r q hr hq).2
  rw [h1, h2]
  apply chunks_flatMap
  simp

theorem recvKeys_eq (h : Core I) (r : Nat) (hr : r < I.w.P) :
    recvKeys I r = (ranks I r).map fun q => (offer I q r).map Prod.fst :=
  recv_blocks h (fun _ => Prod.fst) r hr

end Verif.EntityIndexing
