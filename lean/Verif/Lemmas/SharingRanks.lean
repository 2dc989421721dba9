import Verif.Model.SharingRanks
import Verif.Lemmas.Group
import Verif.Lemmas.LexSend
import Verif.Props.C01_C02_LocalRange
import Verif.Props.C37_EntityNumbering
import Verif.Props.C38_EntityIndexing
/-! Lemmas about `determine_sharing_ranks`. -/
namespace Verif.Sharing
open Verif.Std Verif.Exchange Verif.Group Verif.Shared Verif.LocalRange Verif.Spec Verif.EntityNumbering Verif.Props

/-- Requirements: ascending indices on each rank, no two different ones with the same low bits, numbers drawn within
their range. -/
structure Ok (I : Input) : Prop where
  sorted : ∀ r, r < I.P → (I.ind r).Pairwise (· < ·)
  inj : ∀ q r, q < I.P → r < I.P → ∀ u ∈ I.ind q, ∀ v ∈ I.ind r, trunc u = trunc v → u = v
  pick : ∀ r g n, 1 < n → I.pick r g n < n

variable {I : Input}

/-- Post office of an index. -/
def own (I : Input) (v : Nat) : Nat := indexOwner I.P v (range I)

theorem lt_range {q : Nat} (hq : q < I.P) {v : Nat} (hv : v ∈ I.ind q) : v < range I := by
  have h1 := (foldl_max_ge (I.ind q) 0).2 v hv
  have h2 := (foldl_max_ge ((List.range I.P).map fun q => (I.ind q).foldl max 0) 0).2 _
    (List.mem_map.mpr ⟨q, List.mem_range.mpr hq, rfl⟩)
  unfold range
  omega

theorem own_lt {q : Nat} (hq : q < I.P) {v : Nat} (hv : v ∈ I.ind q) : own I v < I.P :=
  (C02_index_owner_spec I.P v (range I) (by omega) (lt_range hq hv)).1

theorem own_mono {q : Nat} (hq : q < I.P) {u v : Nat} (hu : u ∈ I.ind q) (hv : v ∈ I.ind q) (h : u < v) :
    own I u ≤ own I v := by
  have hP : 0 < I.P := by omega
  obtain ⟨a1, a2, -⟩ := C02_index_owner_spec I.P u (range I) hP (lt_range hq hu)
  obtain ⟨b1, b2, -⟩ := C02_index_owner_spec I.P v (range I) hP (lt_range hq hv)
  by_contra hlt
  have := (C01_local_range_tiles (range I) I.P hP).mono (a := own I v) (b := own I u) (by omega) a1
  have h1 := a2.1
  have h2 := b2.2
  unfold own at this
  omega

/-- Indices of rank `q` handled by rank `r`. -/
def part (I : Input) (q r : Nat) : List Nat := (I.ind q).filter fun v => decide (own I v = r)

theorem mem_part (q r v : Nat) : v ∈ part I q r ↔ v ∈ I.ind q ∧ own I v = r := by simp [part]

theorem items_sorted (h : Ok I) {r : Nat} (hr : r < I.P) :
    (items I r).Pairwise (fun a b => a.1 ≤ b.1 ∧ a.2 < b.2) := by
  rw [List.pairwise_iff_getElem]
  intro i j hi hj hij
  simp only [items, List.length_map, List.length_zipIdx] at hi hj
  simp only [items, List.getElem_map, List.getElem_zipIdx, Nat.zero_add]
  refine ⟨?_, hij⟩
  exact own_mono hr (List.getElem_mem hi) (List.getElem_mem hj) ((List.pairwise_iff_getElem.mp (h.sorted r hr)) i j hi hj hij)

theorem sortBy_items (h : Ok I) {r : Nat} (hr : r < I.P) : sortBy Prod.fst (items I r) = items I r :=
  StableSorted.unique (key := Prod.fst) (fun a b h1 h2 => Nat.le_antisymm h1 h2) (sortBy_stable _ _)
    (StableSorted.refl_of_sorted ((items_sorted h hr).imp fun h => h.1)) (fun _ => rfl)

theorem destToIndex_eq (h : Ok I) {r : Nat} (hr : r < I.P) : destToIndex I r = sortBy Prod.fst (items I r) := by
  unfold destToIndex
  split
  · rw [sortBy_items h hr]
    refine (lexSort_perm (items I r)).eq_of_pairwise (le := fun a b => lexLe a b = true) ?_ (lexSort_sorted _) ?_
    · intro a b _ _ h1 h2
      simp only [lexLe, decide_eq_true_eq] at h1 h2
      exact Prod.ext (by omega) (by omega)
    · refine (items_sorted h hr).imp ?_
      intro a b hab
      simp only [lexLe, decide_eq_true_eq]
      omega
  · rfl

theorem dest_eq (h : Ok I) {r : Nat} (hr : r < I.P) : dest I r = keys Prod.fst (items I r) := by
  unfold dest destRuns
  rw [destToIndex_eq h hr, runs_sortBy, List.map_map]
  simp [Function.comp_def]

theorem items_mem {r : Nat} {x : Nat × Nat} : x ∈ items I r ↔ ∃ v, (I.ind r)[x.2]? = some v ∧ own I v = x.1 := by
  simp only [items, List.mem_map]
  constructor
  · rintro ⟨p, hp, rfl⟩
    exact ⟨p.1, List.mem_zipIdx_iff_getElem?.mp hp, rfl⟩
  · rintro ⟨v, h1, h2⟩
    exact ⟨(v, x.2), List.mem_zipIdx_iff_getElem?.mpr h1, Prod.ext h2 rfl⟩

theorem mem_dest (h : Ok I) {r : Nat} (hr : r < I.P) (s : Nat) : s ∈ dest I r ↔ ∃ v ∈ I.ind r, own I v = s := by
  rw [dest_eq h hr, mem_keys]
  constructor
  · rintro ⟨x, hx, rfl⟩
    obtain ⟨v, h1, h2⟩ := items_mem.mp hx
    exact ⟨v, List.mem_of_getElem? h1, h2⟩
  · rintro ⟨v, h1, rfl⟩
    obtain ⟨i, hi⟩ := List.getElem?_of_mem h1
    exact ⟨(own I v, i), items_mem.mpr ⟨v, hi, rfl⟩, rfl⟩

theorem inEdges : InEdges I.P (dest I) (src I) := by
  refine ⟨fun r _ => List.nodup_range.filter _, ?_⟩
  intro r _ q
  simp [src]

theorem mem_src (h : Ok I) {r q : Nat} : q ∈ src I r ↔ q < I.P ∧ ∃ v ∈ I.ind q, own I v = r := by
  simp only [src, List.mem_filter, List.mem_range, decide_eq_true_eq]
  constructor
  · rintro ⟨h1, h2⟩; exact ⟨h1, (mem_dest h h1 r).mp h2⟩
  · rintro ⟨h1, h2⟩; exact ⟨h1, (mem_dest h h1 r).mpr h2⟩

/-- The records for rank `r` name the indices handled by `r`. -/
theorem grp_items (q r : Nat) {β : Type} (f : Nat → β) :
    (grp Prod.fst (items I q) r).map (fun x => f ((I.ind q).getD x.2 0)) = (part I q r).map f := by
  unfold grp items part
  rw [List.filter_map, List.map_map]
  have key : ∀ (l : List Nat) (k : Nat), (∀ i, i < l.length → (I.ind q)[k + i]? = l[i]?) →
      ((l.zipIdx k).filter ((fun x : Nat × Nat => decide (x.1 = r)) ∘ fun p => (indexOwner I.P p.1 (range I), p.2))).map
        ((fun x => f ((I.ind q).getD x.2 0)) ∘ fun p : Nat × Nat => (indexOwner I.P p.1 (range I), p.2)) =
      (l.filter fun v => decide (own I v = r)).map f := by
    intro l
    induction l with
    | nil => intros; rfl
    | cons v l ih =>
      intro k hk
      have ih := ih (k + 1) (by
        intro i hi
        have := hk (i + 1) (by simpa using hi)
        rw [show k + (i + 1) = k + 1 + i by omega] at this
        simpa using this)
      have h0 := hk 0 (by simp)
      simp only [Nat.add_zero, List.getElem?_cons_zero] at h0
      rw [List.zipIdx_cons, List.filter_cons, List.filter_cons]
      have hc : ((fun x : Nat × Nat => decide (x.1 = r)) ∘ fun p : Nat × Nat => (indexOwner I.P p.1 (range I), p.2)) (v, k) =
          decide (own I v = r) := rfl
      rw [hc]
      split
      · rw [List.map_cons, List.map_cons, ih]
        simp [h0]
      · exact ih
  exact key (I.ind q) 0 (by intro i _; simp)

theorem numPerDest_eq (h : Ok I) {r : Nat} (hr : r < I.P) :
    numPerDest I r = (dest I r).map fun s => (part I r s).length := by
  rw [dest_eq h hr]
  unfold numPerDest destRuns
  rw [destToIndex_eq h hr, runs_sortBy, List.map_map]
  apply List.map_congr_left
  intro s _
  have := congrArg List.length (grp_items (I := I) r s (fun x => x))
  simpa using this

theorem numRecv_eq (h : Ok I) {r : Nat} (hr : r < I.P) : numRecv I r = (src I r).map fun q => (part I q r).length := by
  unfold numRecv neighborAlltoall
  rw [neighborAlltoallv_eq _ _ _ (fun q r => [(part I q r).length]) r, flatMap_singleton]
  · intro q hq
    obtain ⟨hqP, hrq⟩ := (inEdges.mem r hr q).mp hq
    rw [numPerDest_eq h hqP]; simp
  · intro q hq; exact ((inEdges.mem r hr q).mp hq).2

theorem recvBuffer_eq (h : Ok I) {r : Nat} (hr : r < I.P) :
    recvBuffer I r = (src I r).flatMap fun q => (part I q r).map trunc := by
  unfold recvBuffer
  rw [neighborAlltoallv_eq _ _ _ (fun q r => (part I q r).map trunc) r]
  · intro q hq
    obtain ⟨hqP, hrq⟩ := (inEdges.mem r hr q).mp hq
    have hs : sendBuffer I q = (dest I q).flatMap fun s => (part I q s).map trunc := by
      unfold sendBuffer
      rw [destToIndex_eq h hqP, sortBy_eq, List.map_flatMap, dest_eq h hqP]
      apply List.flatMap_congr
      intro s _
      exact grp_items q s trunc
    rw [hs, numPerDest_eq h hqP, chunks_flatMap]
    simp
  · intro q hq; exact ((inEdges.mem r hr q).mp hq).2

/-- Received indices with the position of their source. -/
def recvd (I : Input) (r : Nat) : List (Nat × Nat) :=
  (src I r).zipIdx.flatMap fun b => (part I b.1 r).map fun v => (v, b.2)

theorem received_eq (h : Ok I) {r : Nat} (hr : r < I.P) :
    received I r = (recvd I r).zipIdx.map fun x => ⟨trunc x.1.1, x.2, x.1.2⟩ := by
  unfold received
  have hc : chunks (numRecv I r) (recvBuffer I r) = (src I r).map fun q => (part I q r).map trunc := by
    rw [numRecv_eq h hr, recvBuffer_eq h hr, chunks_flatMap]; simp
  have h2 : ((chunks (numRecv I r) (recvBuffer I r)).zipIdx.flatMap fun b => b.1.map fun k => (k, b.2)) =
      (recvd I r).map fun x => (trunc x.1, x.2) := by
    rw [hc, List.zipIdx_map, List.flatMap_map]
    unfold recvd
    rw [List.map_flatMap]
    apply List.flatMap_congr
    intro b _
    simp [Function.comp_def]
  rw [h2, List.zipIdx_map, List.map_map]
  rfl

theorem length_received (h : Ok I) {r : Nat} (hr : r < I.P) : (recvBuffer I r).length = (recvd I r).length := by
  rw [recvBuffer_eq h hr]
  unfold recvd
  have : ∀ (l : List Nat) k, (l.flatMap fun q => (part I q r).map trunc).length =
      ((l.zipIdx k).flatMap fun b => (part I b.1 r).map fun v => (v, b.2)).length := by
    intro l
    induction l with
    | nil => intro k; rfl
    | cons a l ih => intro k; simp [List.zipIdx_cons, List.flatMap_cons, ih (k + 1)]
  exact this _ 0

theorem mem_recvd (h : Ok I) {r v p : Nat} : (v, p) ∈ recvd I r ↔ ∃ q, (src I r)[p]? = some q ∧ v ∈ I.ind q ∧ own I v = r := by
  simp only [recvd, List.mem_flatMap, List.mem_map, Prod.mk.injEq]
  constructor
  · rintro ⟨b, hb, u, hu, rfl, rfl⟩
    exact ⟨b.1, List.mem_zipIdx_iff_getElem?.mp hb, (mem_part _ _ _).mp hu⟩
  · rintro ⟨q, hq, hv⟩
    exact ⟨(q, p), List.mem_zipIdx_iff_getElem?.mpr hq, v, (mem_part _ _ _).mpr hv, rfl, rfl⟩

theorem mem_src_of_recvd (h : Ok I) {r v p : Nat} (hm : (v, p) ∈ recvd I r) : ∃ q, q < I.P ∧ v ∈ I.ind q ∧ own I v = r := by
  obtain ⟨q, hq, hv, ho⟩ := (mem_recvd h).mp hm
  exact ⟨q, ((mem_src h).mp (List.mem_of_getElem? hq)).1, hv, ho⟩

/-- The group of a received index: its records, in order. -/
def recs (I : Input) (r v : Nat) : List Rec := grp Rec.key (received I r) (trunc v)

/-- Sources of a group. -/
theorem recs_p (h : Ok I) {r v : Nat} (hr : r < I.P) {q0 : Nat} (hq0 : q0 < I.P) (hv : v ∈ I.ind q0) (ho : own I v = r) :
    (recs I r v).map Rec.p = ((src I r).zipIdx.filter fun b => decide (v ∈ I.ind b.1)).map Prod.snd := by
  unfold recs grp
  rw [received_eq h hr, List.filter_map, List.map_map]
  have hz : ∀ (l : List (Nat × Nat)) (k : Nat), ((l.zipIdx k).filter ((fun x : Rec => decide (x.key = trunc v)) ∘
      fun x => ⟨trunc x.1.1, x.2, x.1.2⟩)).map (Rec.p ∘ fun x => ⟨trunc x.1.1, x.2, x.1.2⟩) =
      (l.filter fun x => decide (trunc x.1 = trunc v)).map Prod.snd := by
    intro l
    induction l with
    | nil => intros; rfl
    | cons a l ih =>
      intro k
      rw [List.zipIdx_cons, List.filter_cons, List.filter_cons]
      have hc : ((fun x : Rec => decide (x.key = trunc v)) ∘ fun x : (Nat × Nat) × Nat => (⟨trunc x.1.1, x.2, x.1.2⟩ : Rec)) (a, k) =
          decide (trunc a.1 = trunc v) := rfl
      rw [hc]
      split
      · rw [List.map_cons, List.map_cons, ih]; rfl
      · exact ih _
  rw [hz]
  unfold recvd
  rw [List.filter_flatMap, List.map_flatMap, ← flatMap_singleton, flatMap_filter]
  apply List.flatMap_congr
  intro b hb
  have hbP : b.1 < I.P := ((mem_src h).mp (List.mem_of_getElem? (List.mem_zipIdx_iff_getElem?.mp hb))).1
  have hf : (((part I b.1 r).map fun v => (v, b.2)).filter fun x => decide (trunc x.1 = trunc v)) =
      if v ∈ I.ind b.1 then [(v, b.2)] else [] := by
    rw [List.filter_map]
    have h1 : (part I b.1 r).filter ((fun x : Nat × Nat => decide (trunc x.1 = trunc v)) ∘ fun v => (v, b.2)) =
        (part I b.1 r).filter (fun x => decide (x = v)) := by
      apply List.filter_congr
      intro u hu
      have hu := ((mem_part _ _ _).mp hu).1
      simp only [Function.comp, decide_eq_decide]
      exact ⟨fun he => h.inj _ _ hbP hq0 u hu v hv he, fun he => by rw [he]⟩
    rw [h1]
    have hnd : (part I b.1 r).Nodup := (nodup_of_strict (h.sorted b.1 hbP)).filter _
    split
    · rename_i hm
      have hm2 : v ∈ part I b.1 r := (mem_part _ _ _).mpr ⟨hm, ho⟩
      have : (part I b.1 r).filter (fun x => decide (x = v)) = [v] := by
        have h3 := List.count_eq_one_of_mem hnd hm2
        have h4 : (part I b.1 r).filter (fun x => decide (x = v)) = List.replicate ((part I b.1 r).count v) v := by
          rw [← List.filter_beq]; congr 1
        rw [h4, h3]; rfl
      rw [this]; rfl
    · rename_i hm
      have : (part I b.1 r).filter (fun x => decide (x = v)) = [] := by
        rw [List.filter_eq_nil_iff]
        intro u hu
        simp only [decide_eq_true_eq]
        rintro rfl
        exact hm ((mem_part _ _ _).mp hu).1
      rw [this]; rfl
  rw [hf]
  by_cases hm : v ∈ I.ind b.1 <;> simp [hm]

/-- Ranks that have an index, ascending. -/
def having (I : Input) (v : Nat) : List Nat := (List.range I.P).filter fun q => decide (v ∈ I.ind q)

theorem recs_ranks (h : Ok I) {r v : Nat} (hr : r < I.P) {q0 : Nat} (hq0 : q0 < I.P) (hv : v ∈ I.ind q0) (ho : own I v = r) :
    (recs I r v).map (fun x => (src I r).getD x.p 0) = having I v := by
  have h1 : (recs I r v).map (fun x => (src I r).getD x.p 0) = ((recs I r v).map Rec.p).map fun p => (src I r).getD p 0 := by
    rw [List.map_map]; rfl
  rw [h1, recs_p h hr hq0 hv ho, List.map_map]
  have h2 : ((src I r).zipIdx.filter fun b => decide (v ∈ I.ind b.1)).map ((fun p => (src I r).getD p 0) ∘ Prod.snd) =
      ((src I r).zipIdx.filter fun b => decide (v ∈ I.ind b.1)).map Prod.fst := by
    apply List.map_congr_left
    intro b hb
    have := List.mem_zipIdx_iff_getElem?.mp (List.mem_of_mem_filter hb)
    simp only [Function.comp, List.getD_eq_getElem?_getD, this]; rfl
  rw [h2]
  have h3 : ((src I r).zipIdx.filter fun b => decide (v ∈ I.ind b.1)).map Prod.fst =
      (src I r).filter fun q => decide (v ∈ I.ind q) := by
    have := List.filter_map (f := (Prod.fst : Nat × Nat → Nat)) (p := fun q => decide (v ∈ I.ind q)) (l := (src I r).zipIdx)
    rw [List.zipIdx_map_fst] at this
    rw [this]; rfl
  rw [h3]
  unfold having src
  rw [List.filter_filter]
  apply List.filter_congr
  intro q hq
  rw [List.mem_range] at hq
  by_cases hm : v ∈ I.ind q
  · have : r ∈ dest I q := (mem_dest h hq r).mpr ⟨v, hm, ho⟩
    simp [hm, this]
  · simp [hm]

theorem groups_eq (I : Input) (r : Nat) :
    groups I r = (keys Rec.key (received I r)).map fun k => (k, grp Rec.key (received I r) k) := runs_sortBy _ _

/-- The answer for index `v` on its post office. -/
def ans (I : Input) (r v : Nat) : List Nat :=
  answer I r ((keys Rec.key (received I r)).idxOf (trunc v)) (recs I r v)

theorem received_get (h : Ok I) {r : Nat} (hr : r < I.P) (x : Rec) :
    x ∈ received I r ↔ ∃ v, (recvd I r)[x.pos]? = some (v, x.p) ∧ x.key = trunc v := by
  rw [received_eq h hr, List.mem_map]
  constructor
  · rintro ⟨y, hy, rfl⟩
    exact ⟨y.1.1, List.mem_zipIdx_iff_getElem?.mp hy, rfl⟩
  · rintro ⟨v, h1, h2⟩
    refine ⟨((v, x.p), x.pos), List.mem_zipIdx_iff_getElem?.mpr h1, ?_⟩
    simp only [← h2]

theorem answers_eq (h : Ok I) {r : Nat} (hr : r < I.P) : answers I r = (recvd I r).map fun x => ans I r x.1 := by
  have hw : answers I r = runWrites (List.replicate (recvd I r).length [])
      ((groups I r).zipIdx.flatMap fun g => g.1.2.map fun x => (x.pos, answer I r g.2 g.1.2)) := by
    unfold answers runWrites
    rw [length_received h hr, List.foldl_flatMap]
    simp only [List.foldl_map]
  rw [hw]
  apply List.ext_getElem?
  intro i
  by_cases hi : i < (recvd I r).length
  · have hg : (recvd I r)[i]? = some ((recvd I r)[i].1, (recvd I r)[i].2) := by rw [List.getElem?_eq_getElem hi]
    have hx : (⟨trunc (recvd I r)[i].1, i, (recvd I r)[i].2⟩ : Rec) ∈ received I r := (received_get h hr _).mpr ⟨_, hg, rfl⟩
    have hk : trunc (recvd I r)[i].1 ∈ keys Rec.key (received I r) := (mem_keys _ _ _).mpr ⟨_, hx, rfl⟩
    rw [List.getElem?_map, List.getElem?_eq_getElem hi, Option.map_some]
    apply runWrites_written
    · simpa using hi
    · rw [List.mem_flatMap]
      refine ⟨((trunc (recvd I r)[i].1, recs I r (recvd I r)[i].1),
        (keys Rec.key (received I r)).idxOf (trunc (recvd I r)[i].1)), ?_, ?_⟩
      · rw [List.mem_zipIdx_iff_getElem?, groups_eq, List.getElem?_map]
        have := List.idxOf_lt_length_of_mem hk
        rw [List.getElem?_eq_getElem this, List.getElem_idxOf this]; rfl
      · rw [List.mem_map]
        exact ⟨_, (mem_grp _ _ _ _).mpr ⟨hx, rfl⟩, rfl⟩
    · intro b hb
      rw [List.mem_flatMap] at hb
      obtain ⟨g, hg1, hg2⟩ := hb
      rw [List.mem_map] at hg2
      obtain ⟨x, hx1, hx2⟩ := hg2
      rw [List.mem_zipIdx_iff_getElem?, groups_eq, List.getElem?_map] at hg1
      obtain ⟨k, hk1, hk2⟩ := Option.map_eq_some_iff.mp hg1
      rw [← hk2] at hx1
      obtain ⟨hx3, hx4⟩ := (mem_grp _ _ _ _).mp hx1
      obtain ⟨v, hv1, hv2⟩ := (received_get h hr _).mp hx3
      simp only [Prod.mk.injEq] at hx2
      rw [hx2.1, hg, Option.some.injEq, Prod.mk.injEq] at hv1
      have hkv : k = trunc (recvd I r)[i].1 := by rw [← hx4, hv2, hv1.1]
      have hgi : g.2 = (keys Rec.key (received I r)).idxOf k := by
        have hl := (List.getElem?_eq_some_iff.mp hk1).1
        have he := (List.getElem?_eq_some_iff.mp hk1).2
        have := (keys_nodup Rec.key (received I r)).idxOf_getElem g.2 hl
        rw [he] at this; exact this.symm
      rw [← hx2.2, ← hk2, hgi, hkv]
      rfl
  · rw [List.getElem?_eq_none (by rw [runWrites_length]; simp; omega), List.getElem?_eq_none (by simp; omega)]

theorem foldl_modify_get (L : List (Nat × Nat)) (c : List Nat) (j : Nat) :
    (L.foldl (fun c x => c.modify x.1 (· + x.2)) c)[j]? =
      c[j]?.map (· + ((L.filter fun x => decide (x.1 = j)).map Prod.snd).sum) := by
  induction L generalizing c with
  | nil => simp
  | cons x L ih =>
    rw [List.foldl_cons, ih, List.getElem?_modify, List.filter_cons]
    by_cases hx : x.1 = j
    · cases c[j]? with
      | none => rfl
      | some a => simp [hx]; omega
    · cases c[j]? with
      | none => rfl
      | some a => simp [hx]

theorem ans_length (I : Input) (r v : Nat) : (ans I r v).length = (recs I r v).length + 1 := by
  unfold ans answer
  rw [List.length_cons]
  congr 1
  unfold swapFirst
  split <;> simp

theorem answerSizes_eq (h : Ok I) {r : Nat} (hr : r < I.P) :
    answerSizes I r = (src I r).map fun q => ((part I q r).map fun v => (ans I r v).length).sum := by
  have hw : answerSizes I r = ((groups I r).flatMap fun g => g.2.map fun x => (x.p, g.2.length + 1)).foldl
      (fun c x => c.modify x.1 (· + x.2)) (List.replicate (src I r).length 0) := by
    unfold answerSizes
    rw [List.foldl_flatMap]
    simp only [List.foldl_map]
  have hL : ((groups I r).flatMap fun g => g.2.map fun x => (x.p, g.2.length + 1)) =
      (sortBy Rec.key (received I r)).map fun x => (x.p, (grp Rec.key (received I r) x.key).length + 1) := by
    rw [groups_eq, List.flatMap_map, sortBy_eq, List.map_flatMap]
    apply List.flatMap_congr
    intro k _
    apply List.map_congr_left
    intro x hx
    rw [((mem_grp _ _ _ _).mp hx).2]
  have hp : ((groups I r).flatMap fun g => g.2.map fun x => (x.p, g.2.length + 1)).Perm
      ((recvd I r).map fun x => (x.2, (ans I r x.1).length)) := by
    rw [hL]
    refine ((sort_perm _ (received I r)).map _).trans ?_
    rw [received_eq h hr, List.map_map]
    have : ∀ (l : List (Nat × Nat)) k, (l.zipIdx k).map ((fun x : Rec => (x.p, (grp Rec.key ((recvd I r).zipIdx.map fun x => (⟨trunc x.1.1, x.2, x.1.2⟩ : Rec)) x.key).length + 1)) ∘
        fun x => ⟨trunc x.1.1, x.2, x.1.2⟩) = l.map fun x => (x.2, (ans I r x.1).length) := by
      intro l
      induction l with
      | nil => intro k; rfl
      | cons a l ih =>
        intro k
        rw [List.zipIdx_cons, List.map_cons, List.map_cons, ih]
        simp only [Function.comp, ans_length, recs, received_eq h hr]
    rw [this]
  apply List.ext_getElem?
  intro j
  rw [hw, foldl_modify_get, ((hp.filter _).map _).sum_eq, List.getElem?_map]
  by_cases hj : j < (src I r).length
  · rw [List.getElem?_eq_getElem (by simpa using hj), List.getElem?_eq_getElem hj]
    simp only [List.getElem_replicate, Option.map_some, Nat.zero_add, Option.some.injEq]
    congr 1
    rw [List.filter_map, List.map_map]
    unfold recvd
    rw [List.filter_flatMap, List.map_flatMap]
    have hgen : ∀ (l : List Nat) (k i : Nat) (hi : i < l.length), ((l.zipIdx k).flatMap fun b =>
        (((part I b.1 r).map fun v => (v, b.2)).filter ((fun x : Nat × Nat => decide (x.1 = k + i)) ∘ fun x => (x.2, (ans I r x.1).length))).map
        (Prod.snd ∘ fun x => (x.2, (ans I r x.1).length))) = (part I l[i] r).map fun v => (ans I r v).length := by
      intro l
      induction l with
      | nil => intro k i hi; simp at hi
      | cons a l ih =>
        intro k i hi
        rw [List.zipIdx_cons, List.flatMap_cons]
        cases i with
        | zero =>
          have h0 : ((l.zipIdx (k + 1)).flatMap fun b =>
            (((part I b.1 r).map fun v => (v, b.2)).filter ((fun x : Nat × Nat => decide (x.1 = k + 0)) ∘ fun x => (x.2, (ans I r x.1).length))).map
            (Prod.snd ∘ fun x => (x.2, (ans I r x.1).length))) = [] := by
            rw [List.flatMap_eq_nil_iff]
            intro b hb
            rw [List.map_eq_nil_iff, List.filter_eq_nil_iff]
            intro x hx
            obtain ⟨v, _, rfl⟩ := List.mem_map.mp hx
            have := List.le_snd_of_mem_zipIdx hb
            simp; omega
          rw [h0, List.append_nil, List.filter_eq_self.mpr, List.map_map]
          · rfl
          · intro x hx
            obtain ⟨v, _, rfl⟩ := List.mem_map.mp hx
            simp
        | succ i =>
          have h0 : (((part I a r).map fun v => (v, k)).filter ((fun x : Nat × Nat => decide (x.1 = k + (i + 1))) ∘ fun x => (x.2, (ans I r x.1).length))) = [] := by
            rw [List.filter_eq_nil_iff]
            intro x hx
            obtain ⟨v, _, rfl⟩ := List.mem_map.mp hx
            simp
          simp only [h0]
          have := ih (k + 1) i (by simpa using hi)
          rw [show k + 1 + i = k + (i + 1) by omega] at this
          simpa using this
    have := hgen (src I r) 0 j hj
    simp only [Nat.zero_add] at this
    exact this
  · rw [List.getElem?_eq_none (by simpa using hj), List.getElem?_eq_none (by omega)]; rfl

theorem ind_parts (h : Ok I) {r : Nat} (hr : r < I.P) : I.ind r = (dest I r).flatMap (part I r) := by
  have h1 : ((items I r).map fun x => (I.ind r).getD x.2 0) = I.ind r := by
    unfold items
    rw [List.map_map]
    apply List.ext_getElem?
    intro i
    rw [List.getElem?_map, List.getElem?_zipIdx, Option.map_map]
    cases hi : (I.ind r)[i]? with
    | none => rfl
    | some v => simp [hi]
  have h2 := sortBy_items h hr
  rw [sortBy_eq] at h2
  calc I.ind r = (items I r).map fun x => (I.ind r).getD x.2 0 := h1.symm
    _ = ((keys Prod.fst (items I r)).flatMap (grp Prod.fst (items I r))).map fun x => (I.ind r).getD x.2 0 := by rw [h2]
    _ = (dest I r).flatMap (part I r) := by
      rw [List.map_flatMap, dest_eq h hr]
      apply List.flatMap_congr
      intro s _
      have := grp_items (I := I) r s (fun x => x)
      simpa using this

theorem recvAnswers_eq (h : Ok I) {r : Nat} (hr : r < I.P) :
    recvAnswers I r = (I.ind r).flatMap fun v => ans I (own I v) v := by
  have hlt : ∀ s ∈ dest I r, s < I.P := by
    intro s hs
    obtain ⟨v, hv, rfl⟩ := (mem_dest h hr s).mp hs
    exact own_lt hr hv
  unfold recvAnswers
  rw [neighborAlltoallv_eq _ _ _ (fun s q => (part I q s).flatMap fun v => ans I s v) r]
  · conv => rhs; rw [ind_parts h hr, List.flatMap_assoc]
    apply List.flatMap_congr
    intro s _
    apply List.flatMap_congr
    intro v hv
    rw [((mem_part _ _ _).mp hv).2]
  · intro s hs
    have hsP := hlt s hs
    have hf : (answers I s).flatten = (src I s).flatMap fun q => (part I q s).flatMap fun v => ans I s v := by
      rw [answers_eq h hsP, ← List.flatMap_def]
      unfold recvd
      rw [List.flatMap_assoc]
      have : ∀ (l : List Nat) k, ((l.zipIdx k).flatMap fun b => ((part I b.1 s).map fun v => (v, b.2)).flatMap fun x => ans I s x.1) =
          l.flatMap fun q => (part I q s).flatMap fun v => ans I s v := by
        intro l
        induction l with
        | nil => intro k; rfl
        | cons a l ih =>
          intro k
          rw [List.zipIdx_cons, List.flatMap_cons, List.flatMap_cons, ih, List.flatMap_map]
      exact this _ 0
    rw [hf, answerSizes_eq h hsP, chunks_flatMap]
    apply List.map_congr_left
    intro q _
    rw [List.length_flatMap]
  · intro s hs
    exact (inEdges.mem s (hlt s hs) r).mpr ⟨hr, hs⟩

theorem unpack_eq (L : List Nat) (f : Nat → List Nat) (fuel : Nat)
    (hf : (L.flatMap fun v => (f v).length :: f v).length ≤ fuel) :
    unpack fuel (L.flatMap fun v => (f v).length :: f v) = L.map f := by
  induction L generalizing fuel with
  | nil => cases fuel <;> rfl
  | cons a L ih =>
    rw [List.flatMap_cons] at hf ⊢
    cases fuel with
    | zero => simp at hf
    | succ fuel =>
      rw [List.cons_append, unpack]
      rw [List.cons_append, List.length_cons, List.length_append] at hf
      rw [List.take_left', List.drop_left', ih _ (by omega), List.map_cons] <;> rfl

/-- **The result**: for each index the ranks that have it, with the owner moved to the front. -/
theorem sharingRanks_eq (h : Ok I) {r : Nat} (hr : r < I.P) :
    sharingRanks I r = (I.ind r).map fun v => (ans I (own I v) v).tail := by
  have h1 : recvAnswers I r = (I.ind r).flatMap fun v => ((ans I (own I v) v).tail).length :: (ans I (own I v) v).tail := by
    rw [recvAnswers_eq h hr]
    apply List.flatMap_congr
    intro v _
    have hl := ans_length I (own I v) v
    have ht : (ans I (own I v) v) = (recs I (own I v) v).length :: (ans I (own I v) v).tail := rfl
    rw [ht] at hl ⊢
    simp only [List.length_cons, List.tail_cons] at hl ⊢
    congr 1
    omega
  unfold sharingRanks
  rw [h1]
  exact unpack_eq _ _ _ (le_refl _)

/-- Position of the owner within the ranks that have an index. -/
def ownerIdx (I : Input) (v : Nat) : Nat :=
  if (having I v).length > 1 then
    I.pick (own I v) ((keys Rec.key (received I (own I v))).idxOf (trunc v)) (having I v).length
  else 0

theorem mem_having {v q : Nat} : q ∈ having I v ↔ q < I.P ∧ v ∈ I.ind q := by simp [having]

/-- The chosen owner. -/
def chosen (I : Input) (v : Nat) : Nat := (having I v).getD (ownerIdx I v) 0

theorem ownerIdx_lt (h : Ok I) {q v : Nat} (hq : q < I.P) (hv : v ∈ I.ind q) : ownerIdx I v < (having I v).length := by
  unfold ownerIdx
  split
  · apply h.pick; assumption
  · exact List.length_pos_of_mem (mem_having.mpr ⟨hq, hv⟩)

theorem chosen_mem (h : Ok I) {q v : Nat} (hq : q < I.P) (hv : v ∈ I.ind q) : chosen I v ∈ having I v := by
  have := ownerIdx_lt h hq hv
  unfold chosen
  rw [List.getD_eq_getElem?_getD, List.getElem?_eq_getElem this]
  exact List.getElem_mem _

theorem ans_tail (h : Ok I) {q v : Nat} (hq : q < I.P) (hv : v ∈ I.ind q) :
    (ans I (own I v) v).tail = swapFirst (having I v) (chosen I v) := by
  have hr := own_lt hq hv
  have hrk := recs_ranks h hr hq hv rfl
  unfold ans answer
  rw [List.tail_cons, hrk]
  congr 1
  have hlen : (recs I (own I v) v).length = (having I v).length := by rw [← hrk, List.length_map]
  have hlt := ownerIdx_lt h hq hv
  unfold ownerPos chosen
  have hi : (if (recs I (own I v) v).length > 1 then I.pick (own I v) ((keys Rec.key (received I (own I v))).idxOf (trunc v))
      (recs I (own I v) v).length else 0) = ownerIdx I v := by
    rw [hlen]; rfl
  have hlt' : ownerIdx I v < (recs I (own I v) v).length := by omega
  have e1 : (having I v).getD (ownerIdx I v) 0 = (src I (own I v)).getD ((recs I (own I v) v)[ownerIdx I v].p) 0 := by
    rw [← hrk, List.getD_eq_getElem?_getD, List.getElem?_map, List.getElem?_eq_getElem hlt']; rfl
  rw [hi, e1, List.getElem?_eq_getElem hlt']
  rfl

theorem swapFirst_perm (l : List Nat) (x : Nat) (hx : x ∈ l) : (swapFirst l x).Perm l ∧ (swapFirst l x).head? = some x := by
  cases l with
  | nil => simp at hx
  | cons a l =>
    have hlt := List.idxOf_lt_length_of_mem hx
    have hget : (a :: l)[(a :: l).idxOf x] = x := List.getElem_idxOf hlt
    unfold swapFirst
    rw [List.getElem?_eq_getElem hlt]
    simp only
    by_cases ha : a = x
    · subst ha
      have h0 : (a :: l).idxOf a = 0 := by simp
      rw [h0]; simp
    · have h0 : (a :: l).idxOf x = l.idxOf x + 1 := by
        exact List.idxOf_cons_ne _ ha
      rw [h0]
      simp only [List.set_cons_succ, List.set_cons_zero, List.head?_cons, and_true]
      have hm : x ∈ l := by
        rcases List.mem_cons.mp hx with h | h
        · exact absurd h.symm ha
        · exact h
      have hlt2 := List.idxOf_lt_length_of_mem hm
      have hp := List.set_perm_cons_eraseIdx hlt2 a
      have hq : l.Perm (x :: l.eraseIdx (l.idxOf x)) := by
        have := List.getElem_cons_eraseIdx_perm hlt2
        rw [List.getElem_idxOf hlt2] at this
        exact this.symm
      exact ((hp.cons x).trans (List.Perm.swap _ _ _)).trans (hq.symm.cons a)

end Verif.Sharing
