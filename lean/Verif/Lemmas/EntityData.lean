import Verif.Spec.EntityData
import Verif.Lemmas.LexSend
import Verif.Props.C01_C02_LocalRange
import Verif.Props.C09_DistributeData
/-!
# Lemmas for the distribution of data on entities
-/
namespace Verif.EntityData
open Verif.Std Verif.Exchange Verif.Group Verif.Shared Verif.LocalRange Verif.Spec Verif.Spec.EntityData Verif.Props

variable {V : Type} {I : Input V} {M : Nat}

/-! ### Vertex nodes -/

theorem entityVertexDofs_eq : entityVertexDofs I = (I.vertexDofs.filter fun d => decide (d ∈ I.layout)).map I.layout.idxOf := by
  unfold entityVertexDofs
  induction I.vertexDofs with
  | nil => rfl
  | cons a l ih =>
    rw [List.filterMap_cons, List.filter_cons]
    by_cases ha : a ∈ I.layout <;> simp [ha, ih]

theorem common_perm (h : OkNodes I M) :
    (I.vertexDofs.filter fun d => decide (d ∈ I.layout)).Perm (I.layout.filter fun d => decide (d ∈ I.vertexDofs)) := by
  rw [List.perm_ext_iff_of_nodup (h.vertexDofs.filter _) (h.layout.filter _)]
  intro a
  simp [and_comm]

theorem vertexRow_eq (h : OkNodes I M) (row : List Nat) (hr : row.length = I.layout.length) :
    vertexRow I row = some (sortNat (vertexNodes I row)) := by
  have hlen : (entityVertexDofs I).length = I.numVert := by
    rw [entityVertexDofs_eq, List.length_map, h.numVert, (common_perm h).length_eq]
  have hlt : ∀ k ∈ entityVertexDofs I, k < row.length := by
    intro k hk
    rw [entityVertexDofs_eq, List.mem_map] at hk
    obtain ⟨d, hd, rfl⟩ := hk
    rw [hr]
    exact List.idxOf_lt_length_of_mem (by simpa using (List.mem_filter.mp hd).2)
  have h1 : ((List.range I.numVert).mapM fun i => (entityVertexDofs I)[i]?.bind fun k => row[k]?) =
      some ((entityVertexDofs I).map fun k => row.getD k 0) := by
    rw [mapM_some _ _ (fun i => row.getD ((entityVertexDofs I).getD i 0) 0)]
    · congr 1
      apply List.ext_getElem
      · simp [hlen]
      · intro i h1 h2
        simp only [List.length_map] at h2
        simp [List.getElem?_eq_getElem h2]
    · intro i hi
      rw [List.mem_range, ← hlen] at hi
      have hk := hlt _ (List.getElem_mem hi)
      simp [List.getElem?_eq_getElem hi, List.getElem?_eq_getElem hk]
  unfold vertexRow
  rw [h1, Option.map_some]
  congr 1
  have hp : ((entityVertexDofs I).map fun k => row.getD k 0).Perm (vertexNodes I row) := by
    rw [entityVertexDofs_eq, List.map_map]
    have e1 : (I.vertexDofs.filter fun d => decide (d ∈ I.layout)).map ((fun k => row.getD k 0) ∘ I.layout.idxOf) =
        ((I.vertexDofs.filter fun d => decide (d ∈ I.layout)).map fun d => (row.getD (I.layout.idxOf d) 0, d)).map Prod.fst := by
      rw [List.map_map]; rfl
    rw [e1]
    unfold vertexNodes
    refine List.Perm.map _ ?_
    rw [List.perm_ext_iff_of_nodup]
    · rintro ⟨n, d⟩
      simp only [List.mem_map, List.mem_filter, decide_eq_true_eq, Prod.mk.injEq]
      constructor
      · rintro ⟨a, ⟨ha1, ha2⟩, rfl, rfl⟩
        refine ⟨?_, ha1⟩
        have hi := List.idxOf_lt_length_of_mem ha2
        rw [List.mem_iff_getElem?]
        refine ⟨I.layout.idxOf a, ?_⟩
        rw [List.getElem?_zip_eq_some]
        refine ⟨?_, ?_⟩
        · rw [List.getElem?_eq_getElem (by omega)]
          simp [List.getElem?_eq_getElem (show I.layout.idxOf a < row.length by omega)]
        · rw [List.getElem?_eq_getElem hi, List.getElem_idxOf]
      · rintro ⟨hz, hd⟩
        obtain ⟨k, hk⟩ := List.mem_iff_getElem?.mp hz
        rw [List.getElem?_zip_eq_some] at hk
        have hdl := List.mem_of_getElem? hk.2
        refine ⟨d, ⟨hd, hdl⟩, ?_, rfl⟩
        have hkl := (List.getElem?_eq_some_iff.mp hk.2)
        have : I.layout.idxOf d = k := by
          have h3 : I.layout[k]'hkl.1 = d := hkl.2
          rw [← h3]; exact h.layout.idxOf_getElem k hkl.1
        rw [this, List.getD_eq_getElem?_getD, hk.1]; rfl
    · refine List.Nodup.of_map Prod.snd ?_
      rw [List.map_map]
      have : (Prod.snd ∘ fun d => (row.getD (I.layout.idxOf d) 0, d)) = id := rfl
      rw [this, List.map_id]
      exact h.vertexDofs.filter _
    · refine List.Nodup.filter _ (List.Nodup.of_map Prod.snd ?_)
      rw [List.map_snd_zip (by omega)]
      exact h.layout
  exact ((sortNat_perm _).trans (hp.trans (sortNat_perm _).symm)).eq_of_pairwise
    (fun x y _ _ h1 h2 => Nat.le_antisymm h1 h2) (sortNat_sorted _) (sortNat_sorted _)

theorem length_vertexNodes (h : OkNodes I M) (row : List Nat) (hr : row.length = I.layout.length) : (vertexNodes I row).length = I.numVert := by
  unfold vertexNodes
  rw [List.length_map, h.numVert]
  have : I.layout = (row.zip I.layout).map Prod.snd := (List.map_snd_zip (by omega)).symm
  conv_rhs => rw [this, List.filter_map, List.length_map]
  rfl

theorem mem_vertexNodes (row : List Nat) (n : Nat) (hn : n ∈ vertexNodes I row) : n ∈ row := by
  unfold vertexNodes at hn
  obtain ⟨x, hx, rfl⟩ := List.mem_map.mp hn
  exact (List.of_mem_zip (List.mem_filter.mp hx).1).1

/-! ### Post offices -/

section
variable {α : Type} {sorted : Nat → List (Nat × α)} {P : Nat}

theorem sortBy_self {l : List (Nat × α)} (h : l.Pairwise fun a b => a.1 ≤ b.1) : sortBy Prod.fst l = l :=
  StableSorted.unique (key := Prod.fst) (fun _ _ h1 h2 => Nat.le_antisymm h1 h2) (sortBy_stable _ _)
    (StableSorted.refl_of_sorted h) (fun _ => rfl)

theorem sortBy_sorted (l : List (Nat × α)) : (sortBy Prod.fst l).Pairwise fun a b => a.1 ≤ b.1 := (sortBy_stable Prod.fst l).sorted

theorem dest_eq (hs : ∀ q, (sorted q).Pairwise fun a b => a.1 ≤ b.1) (q : Nat) : dest sorted q = keys Prod.fst (sorted q) := by
  unfold dest
  conv_lhs => rw [← sortBy_self (hs q), runs_sortBy, List.map_map]
  simp [Function.comp_def]

theorem mem_dest (hs : ∀ q, (sorted q).Pairwise fun a b => a.1 ≤ b.1) (q r : Nat) : r ∈ dest sorted q ↔ ∃ x ∈ sorted q, x.1 = r := by
  rw [dest_eq hs, mem_keys]

theorem inEdges (P : Nat) : InEdges P (dest sorted) (src sorted P) := by
  refine ⟨fun r _ => List.nodup_range.filter _, ?_⟩
  intro r _ q
  simp [src]

/-- What process `q` sends to process `r`. -/
def part (sorted : Nat → List (Nat × α)) (q r : Nat) : List α := (grp Prod.fst (sorted q) r).map Prod.snd

theorem mem_part (q r : Nat) (a : α) : a ∈ part sorted q r ↔ (r, a) ∈ sorted q := by
  unfold part
  rw [List.mem_map]
  constructor
  · rintro ⟨x, hx, rfl⟩
    obtain ⟨h1, h2⟩ := (mem_grp _ _ _ _).mp hx
    rw [← h2]; exact h1
  · intro h
    exact ⟨(r, a), (mem_grp _ _ _ _).mpr ⟨h, rfl⟩, rfl⟩

theorem recv_src (hs : ∀ q, (sorted q).Pairwise fun a b => a.1 ≤ b.1) (r : Nat) (hr : r < P) :
    recv sorted P r = (src sorted P r).flatMap fun q => part sorted q r := by
  have := recv_groups (inEdges (sorted := sorted) P) Prod.fst sorted (fun q _ => dest_eq hs q) Prod.snd r hr
  unfold recv numSend
  simp only [fun q => sortBy_self (hs q)] at this
  exact this

theorem numRecv_eq (hs : ∀ q, (sorted q).Pairwise fun a b => a.1 ≤ b.1) (r : Nat) (hr : r < P) :
    numRecv sorted P r = (src sorted P r).map fun q => (part sorted q r).length := by
  have := recv_counts (inEdges (sorted := sorted) P) Prod.fst sorted (fun q _ => dest_eq hs q) r hr
  unfold numRecv numSend part
  simp only [fun q => sortBy_self (hs q), List.length_map] at this ⊢
  exact this

theorem recv_range (hs : ∀ q, (sorted q).Pairwise fun a b => a.1 ≤ b.1) (r : Nat) (hr : r < P) :
    recv sorted P r = (List.range P).flatMap fun q => part sorted q r := by
  rw [recv_src hs r hr]
  unfold src
  rw [flatMap_filter]
  apply List.flatMap_congr
  intro q _
  by_cases h : r ∈ dest sorted q
  · simp [h]
  · simp only [h, decide_false, Bool.false_eq_true, if_false]
    symm
    rw [List.eq_nil_iff_forall_not_mem]
    intro a ha
    exact h ((mem_dest hs q r).mpr ⟨_, (mem_part q r a).mp ha, rfl⟩)
end

/-! ### Candidate ranks -/

theorem nodeToRank_eq {sorted : Nat → List (Nat × Nat)} {P : Nat} (hs : ∀ q, (sorted q).Pairwise fun a b => a.1 ≤ b.1) (r : Nat) (hr : r < P) :
    nodeToRank (numRecv sorted P r) (recv sorted P r) =
      (src sorted P r).zipIdx.flatMap fun b => (part sorted b.1 r).map fun n => (n, b.2) := by
  unfold nodeToRank
  rw [recv_src hs r hr, numRecv_eq hs r hr, chunks_flatMap _ _ _ rfl, List.zipIdx_map, List.flatMap_map]
  rfl

theorem inner_fold (e : List Nat × V) (ps : List Nat) (sd : List (List (List Nat × V))) (p : Nat) :
    (ps.foldl (fun sd p => sd.modify p (· ++ [e])) sd)[p]? = (sd[p]?).map (· ++ List.replicate (ps.count p) e) := by
  induction ps generalizing sd with
  | nil => simp
  | cons a ps ih =>
    rw [List.foldl_cons, ih, List.getElem?_modify, List.count_cons]
    cases sd[p]? with
    | none => simp
    | some l =>
      by_cases h : a = p
      · subst h
        simp [List.replicate_succ]
      · simp [h]

/-- The positions an entity is sent to. -/
def positions (toRank : List (Nat × Nat)) (e : List Nat × V) : List Nat :=
  (toRank.filter fun x => decide (e.1[0]? = some x.1)).map Prod.snd

theorem outer_fold (toRank : List (Nat × Nat)) (l : List (List Nat × V)) (sd : List (List (List Nat × V))) (p : Nat) :
    (l.foldl (fun sd e => (positions toRank e).foldl (fun sd p => sd.modify p (· ++ [e])) sd) sd)[p]? =
      (sd[p]?).map (· ++ l.flatMap fun e => List.replicate ((positions toRank e).count p) e) := by
  induction l generalizing sd with
  | nil => simp
  | cons e l ih =>
    rw [List.foldl_cons, ih, inner_fold, Option.map_map]
    congr 1
    funext x
    simp

theorem positions_nodup (srcs : List Nat) (G : Nat → List Nat) (hG : ∀ q, (G q).Nodup) (e : List Nat × V) :
    (positions (srcs.zipIdx.flatMap fun b => (G b.1).map fun n => (n, b.2)) e).Nodup := by
  unfold positions
  have hn : (srcs.zipIdx.flatMap fun b => (G b.1).map fun n => (n, b.2)).Nodup := by
    rw [List.nodup_flatMap]
    constructor
    · intro b _
      exact (hG b.1).map (fun x y h => (Prod.mk.inj h).1)
    · have hz : srcs.zipIdx.Pairwise fun a b => a.2 ≠ b.2 := by
        rw [← List.pairwise_map (f := Prod.snd) (R := (· ≠ ·))]
        rw [List.zipIdx_map_snd]
        exact List.nodup_range'
      refine hz.imp ?_
      intro a b hab x hx hy
      obtain ⟨_, _, rfl⟩ := List.mem_map.mp hx
      obtain ⟨_, _, he⟩ := List.mem_map.mp hy
      exact hab (Prod.mk.inj he).2.symm
  refine List.Nodup.map_on ?_ (hn.filter _)
  intro x hx y hy hxy
  have h1 := (List.mem_filter.mp hx).2
  have h2 := (List.mem_filter.mp hy).2
  simp only [decide_eq_true_eq] at h1 h2
  rw [h1] at h2
  exact Prod.ext (Option.some.inj h2) hxy

theorem mem_positions (srcs : List Nat) (G : Nat → List Nat) (e : List Nat × V) (p : Nat) :
    p ∈ positions (srcs.zipIdx.flatMap fun b => (G b.1).map fun n => (n, b.2)) e ↔
      ∃ q n, srcs[p]? = some q ∧ e.1[0]? = some n ∧ n ∈ G q := by
  unfold positions
  simp only [List.mem_map, List.mem_filter, List.mem_flatMap, decide_eq_true_eq]
  constructor
  · rintro ⟨x, ⟨⟨b, hb, n, hn, rfl⟩, h2⟩, rfl⟩
    exact ⟨b.1, n, List.mem_zipIdx_iff_getElem?.mp hb, h2, hn⟩
  · rintro ⟨q, n, h1, h2, h3⟩
    exact ⟨(n, p), ⟨⟨(q, p), List.mem_zipIdx_iff_getElem?.mpr h1, n, h3, rfl⟩, h2⟩, rfl⟩

theorem flatMap_replicate_ite (l : List α) (p : α → Prop) [DecidablePred p] :
    (l.flatMap fun e => List.replicate (if p e then 1 else 0) e) = l.filter fun e => decide (p e) := by
  induction l with
  | nil => rfl
  | cons a l ih =>
    rw [List.flatMap_cons, List.filter_cons, ih]
    by_cases h : p a <;> simp [h]

/-- The first node of the entity is in the list. -/
def firstIn (l : List Nat) (e : List Nat × V) : Bool :=
  match e.1[0]? with
  | some n => decide (n ∈ l)
  | none => false

theorem sendData_eq (srcs : List Nat) (G : Nat → List Nat) (hG : ∀ q, (G q).Nodup) (l : List (List Nat × V)) :
    sendData srcs.length (srcs.zipIdx.flatMap fun b => (G b.1).map fun n => (n, b.2)) l = srcs.map fun q => l.filter (firstIn (G q)) := by
  apply List.ext_getElem?
  intro p
  have := outer_fold (srcs.zipIdx.flatMap fun b => (G b.1).map fun n => (n, b.2)) l (List.replicate srcs.length []) p
  unfold sendData
  unfold positions at this
  rw [this, List.getElem?_map]
  by_cases hp : p < srcs.length
  · rw [List.getElem?_replicate, if_pos hp, List.getElem?_eq_getElem hp, Option.map_some, Option.map_some, List.nil_append]
    congr 1
    have h2 : ∀ e : List Nat × V, ((List.map Prod.snd ((srcs.zipIdx.flatMap fun b => (G b.1).map fun n => (n, b.2)).filter
        fun x => decide (e.1[0]? = some x.1))).count p) = if firstIn (G srcs[p]) e = true then 1 else 0 := by
      intro e
      have h3 := positions_nodup srcs G hG e
      have h4 := mem_positions srcs G e p
      unfold positions at h3 h4
      have h5 : firstIn (G srcs[p]) e = true ↔ ∃ q n, srcs[p]? = some q ∧ e.1[0]? = some n ∧ n ∈ G q := by
        unfold firstIn
        rw [List.getElem?_eq_getElem hp]
        cases e.1[0]? with
        | none => simp
        | some n => simp
      rw [← h4] at h5
      split
      · rename_i hc
        exact List.count_eq_one_of_mem h3 (h5.mp hc)
      · rename_i hc
        exact List.count_eq_zero_of_not_mem fun hm => hc (h5.mpr hm)
    simp only [h2]
    rw [flatMap_replicate_ite]
    simp
  · rw [List.getElem?_replicate, if_neg hp, List.getElem?_eq_none (by omega)]
    rfl

theorem candidates_eq {P : Nat} {sE : Nat → List (Nat × (List Nat × V))} {sN : Nat → List (Nat × Nat)}
    (hN : ∀ q, (sN q).Pairwise fun a b => a.1 ≤ b.1) (hlt : ∀ q, ∀ x ∈ sN q, x.1 < P)
    (hnd : ∀ q, (sN q).Nodup) (q : Nat) (hq : q < P) :
    candidates P sE sN q = (List.range P).flatMap fun r => (recv sE P r).filter (firstIn (part sN q r)) := by
  have hnp : ∀ r q, (part sN q r).Nodup := by
    intro r q
    unfold part
    refine List.Nodup.map_on ?_ ((hnd q).filter _)
    intro x hx y hy h
    exact Prod.ext (((mem_grp _ _ _ _).mp hx).2.trans ((mem_grp _ _ _ _).mp hy).2.symm) h
  have hlt' : ∀ r ∈ dest sN q, r < P := by
    intro r hr
    obtain ⟨x, hx, rfl⟩ := (mem_dest hN q r).mp hr
    exact hlt q x hx
  unfold candidates
  rw [neighborAlltoallv_eq (src sN P) (dest sN) _ (fun r q => (recv sE P r).filter (firstIn (part sN q r))) q]
  · have hd : dest sN q = (List.range P).filter fun r => decide (r ∈ dest sN q) := by
      apply strict_ext
      · rw [dest_eq hN]; exact keys_sorted _ _
      · exact List.pairwise_lt_range.sublist List.filter_sublist
      · intro r
        simp only [List.mem_filter, List.mem_range, decide_eq_true_eq]
        exact ⟨fun h => ⟨hlt' r h, h⟩, fun h => h.2⟩
    conv_lhs => rw [hd]
    rw [flatMap_filter]
    apply List.flatMap_congr
    intro r _
    by_cases h : r ∈ dest sN q
    · simp [h]
    · simp only [h, decide_false, Bool.false_eq_true, if_false]
      symm
      rw [List.filter_eq_nil_iff]
      intro e _ he
      unfold firstIn at he
      split at he
      · rename_i n _
        rw [decide_eq_true_eq] at he
        exact h ((mem_dest hN q r).mpr ⟨_, (mem_part q r n).mp he, rfl⟩)
      · cases he
  · intro r hr
    rw [nodeToRank_eq hN r (hlt' r hr)]
    exact sendData_eq (src sN P r) (fun q => part sN q r) (hnp r) _
  · intro r hr
    simp [src, hq, hr]

end Verif.EntityData
