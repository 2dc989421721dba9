import Verif.Lemmas.DofmapBasic
import Verif.Props.C31_IndexToDestRanks
/-!
# Reordering and global numbers of the dofs
-/
namespace Verif.Dofmap
open Verif.World Verif.Offsets Verif.Std Verif.Exchange Verif.Shared Verif.CreateTopology

variable {I : Input}

theorem Renum.congr {N M : Nat} {own : Nat → Bool} {v w : Nat → Nat} (h : Renum N M own v) (hw : ∀ o, o < N → w o = v o) :
    Renum N M own w := by
  refine ⟨?_, ?_, ?_, ?_⟩
  · intro o ho; rw [hw o ho]; exact h.lt o ho
  · intro a b ha hb hab
    rw [hw a ha, hw b hb] at hab
    exact h.inj a b ha hb hab
  · intro o ho; rw [hw o ho]; exact h.own_iff o ho
  · intro x hx
    obtain ⟨o, ho, hox⟩ := h.surj x hx
    exact ⟨o, ho, by rw [hw o ho, hox]⟩

/-- Number of dofs on a rank. -/
def nDofs (I : Input) (r : Nat) : Nat := loff I (reqs I) r (reqs I).length

/-- The dof with old number `o` is owned. -/
def ownB (I : Input) (r o : Nat) : Bool := isOwned I (reqs I) r ((dofEntity I (reqs I) r).getD o (0, 0))

theorem dofEntity_length (r : Nat) : (dofEntity I (reqs I) r).length = nDofs I r := by
  rw [dofEntity_eq, table_length]; rfl

theorem ownB_pos (r : Nat) {k e j : Nat} (hk : k < (reqs I).length) (he : e < nloc I (reqs I) r k)
    (hj : j < nk (reqs I) k) : ownB I r (pos I r k e j) = decide (e < (wk I (reqs I) k).size r) := by
  unfold ownB isOwned
  rw [dofEntity_eq, List.getD_eq_getElem?_getD, table_get _ r hk he hj]
  simp [World.map, IndexMap.build, IndexMap.Map.sizeLocal]

theorem foldl_count {α : Type} (p : α → Bool) (l : List α) (n : Nat) :
    l.foldl (fun a b => if p b then a + 1 else a) n = n + l.countP p := by
  induction l generalizing n with
  | nil => rfl
  | cons x l ih =>
    rw [List.foldl_cons, ih, List.countP_cons]
    split <;> omega

theorem ownedSize_count (r : Nat) : ownedSize I (reqs I) r = (List.range (nDofs I r)).countP (ownB I r) := by
  unfold ownedSize
  rw [foldl_count, Nat.zero_add]
  have : dofEntity I (reqs I) r = (List.range (nDofs I r)).map fun o => (dofEntity I (reqs I) r).getD o (0, 0) := by
    apply List.ext_getElem?
    intro o
    by_cases ho : o < nDofs I r
    · rw [List.getElem?_map, List.getElem?_range ho, List.getElem?_eq_getElem (by rw [dofEntity_length]; exact ho)]
      simp only [Option.map_some]
      rw [List.getD_eq_getElem?_getD, List.getElem?_eq_getElem (by rw [dofEntity_length]; exact ho)]; rfl
    · rw [List.getElem?_eq_none (by rw [dofEntity_length]; omega), List.getElem?_eq_none (by simpa using ho)]
  conv_lhs => rw [this]
  rw [List.countP_map]
  rfl

theorem cellDofs_lt (h : Ok I) {r i c : Nat} (hr : r < I.P) (hi : i < I.nct) (hc : c < numCells I r i) :
    ∀ o ∈ cellDofs I (reqs I) r i c, o < nDofs I r := by
  intro o ho
  obtain ⟨l, hl⟩ := List.getElem?_of_mem ho
  have hlt : l < I.ndofs i := by
    have := (List.getElem?_eq_some_iff.mp hl).1
    rwa [cellDofs_length] at this
  obtain ⟨d, et, e, j, ha⟩ := attached_exists h hr hi hc hlt
  obtain ⟨k, hk, rfl, rfl, he, hj⟩ := attached_req h hr hi hc ha
  rw [cellDofs_get h hr hi hc hlt hk ha] at hl
  rw [← Option.some.inj hl]
  exact pos_lt r hk he hj

/-- New number of the dof with old number `o`. -/
def nw (I : Input) (r o : Nat) : Nat := (oldToNew I (reqs I) r).getD o 0

theorem contiguous_spec (h : Ok I) {r : Nat} (hr : r < I.P) :
    ∃ v, Renum (nDofs I r) (ownedSize I (reqs I) r) (ownB I r) v ∧
      contiguous I (reqs I) r = (List.range (nDofs I r)).map fun o => some (v o) := by
  have hV : ∀ o ∈ (List.range I.nct).flatMap (dofArray I (reqs I) r), o < nDofs I r := by
    intro o ho
    obtain ⟨i, hi, ho⟩ := List.mem_flatMap.mp ho
    unfold dofArray at ho
    obtain ⟨c, hc, ho⟩ := List.mem_flatMap.mp ho
    exact cellDofs_lt h hr (List.mem_range.mp hi) (List.mem_range.mp hc) o ho
  obtain ⟨v, h1, h2⟩ := numbering (nDofs I r) (ownB I r) _ hV
  rw [← ownedSize_count] at h1 h2
  refine ⟨v, h1, ?_⟩
  rw [← h2]
  unfold contiguous
  rw [dofEntity_length]
  simp only
  have hlen : (((List.range I.nct).flatMap (dofArray I (reqs I) r)).foldl (numStep fun o =>
      isOwned I (reqs I) r ((dofEntity I (reqs I) r).getD o (0, 0)))
      (List.replicate (nDofs I r) none, 0, ownedSize I (reqs I) r)).1.length = nDofs I r := by
    have key : ∀ (l : List Nat) (own : Nat → Bool) (s : List (Option Nat) × Nat × Nat),
        (l.foldl (numStep own) s).1.length = s.1.length := by
      intro l own
      induction l with
      | nil => intro s; rfl
      | cons a l ih =>
        intro s
        rw [List.foldl_cons, ih]
        unfold numStep
        split
        · split <;> simp
        · rfl
    rw [key]; simp
  rw [hlen]
  rfl

theorem ownedSize_le (r : Nat) : ownedSize I (reqs I) r ≤ nDofs I r := by
  rw [ownedSize_count]
  exact List.countP_le_length.trans (by simp)

theorem nodeTemp_lt (R : List Req) (r : Nat) : ∀ l ∈ cellNodes I R r, ∀ v ∈ l, v < ownedSize I R r := by
  intro l hl v hv
  unfold cellNodes at hl
  obtain ⟨i, _, hl⟩ := List.mem_flatMap.mp hl
  obtain ⟨c, _, rfl⟩ := List.mem_map.mp hl
  unfold nodeTemp at hv
  simpa using (List.mem_filter.mp hv).2

theorem oldToNew_spec (h : Ok I) {r : Nat} (hr : r < I.P) :
    Renum (nDofs I r) (ownedSize I (reqs I) r) (ownB I r) (nw I r) ∧ (oldToNew I (reqs I) r).length = nDofs I r := by
  obtain ⟨v, h1, h2⟩ := contiguous_spec h hr
  have hmap : (contiguous I (reqs I) r).map (fun x => x.getD 0) = (List.range (nDofs I r)).map v := by
    rw [h2, List.map_map]; rfl
  cases hf : I.reorder r with
  | none =>
    have heq : oldToNew I (reqs I) r = (List.range (nDofs I r)).map v := by
      unfold oldToNew; rw [hf]; exact hmap
    refine ⟨h1.congr ?_, by rw [heq]; simp⟩
    intro o ho
    unfold nw
    rw [heq, List.getD_eq_getElem?_getD, List.getElem?_map, List.getElem?_range ho]; rfl
  | some f =>
    have hg := dofGraph_symm (ownedSize I (reqs I) r) (cellNodes I (reqs I) r) (nodeTemp_lt _ r)
    have hp := h.reorder r hr f hf (dofGraph (ownedSize I (reqs I) r) (cellNodes I (reqs I) r))
      (by rw [dofGraph_length]; exact hg.1) hg.2
    rw [dofGraph_length] at hp
    have heq : oldToNew I (reqs I) r = (List.range (nDofs I r)).map fun o => if v o < ownedSize I (reqs I) r then
        (f (dofGraph (ownedSize I (reqs I) r) (cellNodes I (reqs I) r))).getD (v o) 0 else v o := by
      unfold oldToNew; rw [hf]; simp only; rw [hmap, List.map_map]; rfl
    refine ⟨(renum_remap h1 _ hp (ownedSize_le r)).congr ?_, by rw [heq]; simp⟩
    intro o ho
    unfold nw
    rw [heq, List.getD_eq_getElem?_getD, List.getElem?_map, List.getElem?_range ho]; rfl

/-! ## Owned sizes and offsets -/

theorem excl_add (a b : Nat → Nat) (n : Nat) : excl (fun k => a k + b k) n = excl a n + excl b n := by
  induction n with
  | zero => rfl
  | succ n ih => rw [excl_succ, excl_succ, excl_succ, ih]; omega

theorem countP_flatMap_range {α : Type} (p : α → Bool) (f : Nat → List α) (n : Nat) :
    ((List.range n).flatMap f).countP p = excl (fun k => (f k).countP p) n := by
  induction n with
  | zero => rfl
  | succ n ih => rw [List.range_succ, List.flatMap_append, List.countP_append, ih, excl_succ]; simp

theorem ownedSize_eq (r : Nat) : ownedSize I (reqs I) r = excl (fun k => nk (reqs I) k * (wk I (reqs I) k).size r) (reqs I).length := by
  unfold ownedSize
  rw [foldl_count, Nat.zero_add, dofEntity_eq]
  unfold table
  rw [countP_flatMap_range]
  apply excl_congr
  intro k _
  rw [countP_flatMap_range]
  have h1 : ∀ e, ((List.range (nk (reqs I) k)).map fun _ => (k, e)).countP (isOwned I (reqs I) r) =
      if e < (wk I (reqs I) k).size r then nk (reqs I) k else 0 := by
    intro e
    rw [List.countP_map]
    have : (isOwned I (reqs I) r ∘ fun (_ : Nat) => (k, e)) = fun _ => decide (e < (wk I (reqs I) k).size r) := by
      funext x
      simp [isOwned, World.map, IndexMap.build, IndexMap.Map.sizeLocal]
    rw [this]
    split
    · rename_i he; simp [he]
    · rename_i he; simp [he]
  simp only [h1]
  unfold nloc
  generalize ((wk I (reqs I) k).ghosts r).length = m
  have h2 : ∀ m, excl (fun e => if e < (wk I (reqs I) k).size r then nk (reqs I) k else 0) ((wk I (reqs I) k).size r + m) =
      nk (reqs I) k * (wk I (reqs I) k).size r := by
    intro m
    induction m with
    | zero =>
      rw [Nat.add_zero, ← excl_const]
      apply excl_congr
      intro e he
      rw [if_pos he]
    | succ m ih => rw [← Nat.add_assoc, excl_succ, ih, if_neg (by omega), Nat.add_zero]
  exact h2 m

/-- The process offset is the start of the owned range of the dof index map. -/
theorem procOffset_eq (r : Nat) : procOffset I (reqs I) r = (dofWorld I (reqs I)).r0 r := by
  unfold procOffset World.r0 dofWorld
  simp only
  induction r with
  | zero =>
    have : ∀ n, excl (fun k => nk (reqs I) k * ((wk I (reqs I) k).map 0).r0) n = 0 := by
      intro n
      induction n with
      | zero => rfl
      | succ n ih => rw [excl_succ, ih]; simp [World.map, IndexMap.build]
    rw [this]; rfl
  | succ r ih =>
    rw [excl_succ, ← ih, ownedSize_eq, ← excl_add]
    apply excl_congr
    intro k _
    show nk (reqs I) k * excl (wk I (reqs I) k).size (r + 1) = _
    rw [excl_succ, Nat.mul_add]; rfl

/-! ## Tables -/

theorem mem_table {β : Type} (f : Nat → Nat → Nat → β) (r : Nat) (x : β) :
    x ∈ table f I r ↔ ∃ k e j, k < (reqs I).length ∧ e < nloc I (reqs I) r k ∧ j < nk (reqs I) k ∧ x = f k e j := by
  unfold table
  simp only [List.mem_flatMap, List.mem_range, List.mem_map]
  constructor
  · rintro ⟨k, hk, e, he, j, hj, rfl⟩; exact ⟨k, e, j, hk, he, hj, rfl⟩
  · rintro ⟨k, e, j, hk, he, hj, rfl⟩; exact ⟨k, hk, e, he, j, hj, rfl⟩

/-- New number of a dof. -/
def nv (I : Input) (r k e j : Nat) : Nat := nw I r (pos I r k e j)

/-- Old global number of a dof. -/
def gold (I : Input) (r k e j : Nat) : Nat := goff I (reqs I) r k + nk (reqs I) k * ge I r k e + j

theorem zip_table (h : Ok I) {r : Nat} (hr : r < I.P) :
    (dofEntity I (reqs I) r).zip ((l2g I (reqs I) r).zip (oldToNew I (reqs I) r)) =
      table (fun k e j => ((k, e), (gold I r k e j, nv I r k e j))) I r := by
  have hlen := (oldToNew_spec h hr).2
  apply List.ext_getElem?
  intro o
  by_cases ho : o < nDofs I r
  · obtain ⟨k, e, j, hk, he, hj, rfl⟩ := pos_split r ho
    rw [table_get _ r hk he hj, List.getElem?_zip_eq_some]
    refine ⟨?_, ?_⟩
    · rw [dofEntity_eq, table_get _ r hk he hj]
    · rw [List.getElem?_zip_eq_some]
      refine ⟨?_, ?_⟩
      · rw [l2g_eq, table_get _ r hk he hj]; rfl
      · unfold nv nw
        rw [List.getD_eq_getElem?_getD, List.getElem?_eq_getElem (by rw [hlen]; exact ho)]; rfl
  · rw [List.getElem?_eq_none, List.getElem?_eq_none]
    · rw [table_length]; exact Nat.le_of_not_lt ho
    · rw [List.length_zip, dofEntity_length]; omega

theorem sizeLocal_eq (w : World) (r : Nat) : (w.map r).sizeLocal = w.size r := by
  simp [World.map, IndexMap.build, IndexMap.Map.sizeLocal]

theorem mem_shared (h : Ok I) {r k : Nat} (hr : r < I.P) (hk : k < (reqs I).length) (e : Nat) :
    e ∈ sharedEntity I (reqs I) r k ↔ e < (wk I (reqs I) k).size r ∧
      ∃ q, q < I.P ∧ q ≠ r ∧ (wk I (reqs I) k).r0 r + e ∈ (wk I (reqs I) k).ghosts q := by
  obtain ⟨hP, hv⟩ := wk_valid h (by omega) hk
  obtain ⟨out, h1, _, h3⟩ := Props.C31_shared_indices _ hv r (by omega)
  unfold sharedEntity
  rw [h1, Option.getD_some, h3, hP]

theorem mem_sendPairs (h : Ok I) {r k : Nat} (hr : r < I.P) (hk : k < (reqs I).length) (a b : Nat) :
    (a, b) ∈ sendPairs I (reqs I) r k ↔ ∃ e j, e ∈ sharedEntity I (reqs I) r k ∧ j < nk (reqs I) k ∧
      a = gold I r k e j ∧ b = nv I r k e j + (dofWorld I (reqs I)).r0 r := by
  unfold sendPairs
  rw [zip_table h hr, List.mem_filterMap]
  constructor
  · rintro ⟨x, hx, hc⟩
    obtain ⟨k', e, j, hk', he, hj, rfl⟩ := (mem_table _ _ _).mp hx
    simp only at hc
    split at hc
    · rename_i hcond
      obtain ⟨rfl, h1, h2⟩ := hcond
      simp only [Option.some.injEq, Prod.mk.injEq] at hc
      exact ⟨e, j, h2, hj, hc.1.symm, by rw [← procOffset_eq]; exact hc.2.symm⟩
    · simp at hc
  · rintro ⟨e, j, he, hj, rfl, rfl⟩
    have hlt := ((mem_shared h hr hk e).mp he).1
    refine ⟨((k, e), (gold I r k e j, nv I r k e j)), (mem_table _ _ _).mpr
      ⟨k, e, j, hk, by unfold nloc; omega, hj, rfl⟩, ?_⟩
    simp only
    rw [if_pos ⟨trivial, by rw [sizeLocal_eq]; exact hlt, he⟩, procOffset_eq]

/-! ## The received table -/

theorem recvPairs_eq (h : Ok I) {r k : Nat} (hr : r < I.P) (hk : k < (reqs I).length) :
    recvPairs I (reqs I) r k = ((wk I (reqs I) k).src r).flatMap fun q => sendPairs I (reqs I) q k := by
  obtain ⟨hP, hv⟩ := wk_valid h (by omega) hk
  unfold recvPairs
  rw [neighborAlltoallv_eq _ _ _ (fun q _ => sendPairs I (reqs I) q k)]
  · intro q _; rfl
  · intro q hq
    exact (Scatterer.mem_dest _ q r).mpr ⟨by omega, hq⟩

theorem dispRecv_eq (h : Ok I) {r k : Nat} (hr : r < I.P) (hk : k < (reqs I).length) :
    dispRecv I (reqs I) r k = pushSizes [0] (((wk I (reqs I) k).src r).map fun q => 2 * (sendPairs I (reqs I) q k).length) := by
  obtain ⟨hP, hv⟩ := wk_valid h (by omega) hk
  unfold dispRecv neighborAlltoall
  rw [neighborAlltoallv_eq _ _ _ (fun q _ => [2 * (sendPairs I (reqs I) q k).length]), Group.flatMap_singleton]
  · intro q _; rw [List.map_map]; rfl
  · intro q hq
    exact (Scatterer.mem_dest _ q r).mpr ⟨by omega, hq⟩

/-- `upper_bound` in the displacements names the sender of a received pair. -/
theorem sender_eq {α : Type} (S : List Nat) (f : Nat → List α) :
    ((S.flatMap f).zipIdx.map fun p => (p.1, S.getD (lowerBound (fun d => decide (d ≤ 2 * p.2))
      (pushSizes [0] (S.map fun q => 2 * (f q).length)) - 1) 0)) = S.flatMap fun q => (f q).map fun x => (x, q) := by
  have hS : S = (List.range S.length).map fun b => S.getD b 0 := by
    apply List.ext_getElem?
    intro b
    by_cases hb : b < S.length
    · rw [List.getElem?_map, List.getElem?_range hb, List.getElem?_eq_getElem hb]
      simp [List.getD_eq_getElem?_getD, List.getElem?_eq_getElem hb]
    · rw [List.getElem?_eq_none (by omega), List.getElem?_eq_none (by simpa using hb)]
  have hflat : ∀ {β : Type} (g : Nat → List β), S.flatMap g = (List.range S.length).flatMap fun b => g (S.getD b 0) := by
    intro β g
    conv_lhs => rw [hS]
    rw [List.flatMap_map]
  have hdisp : ∀ i, i ≤ S.length → (pushSizes [0] (S.map fun q => 2 * (f q).length))[i]? =
      some (2 * excl (fun b => (f (S.getD b 0)).length) i) := by
    intro i hi
    have h1 : (S.map fun q => 2 * (f q).length) = (List.range S.length).map fun b =>
        (List.replicate (2 * (f (S.getD b 0)).length) 0).length := by
      conv_lhs => rw [hS]
      rw [List.map_map]
      apply List.map_congr_left
      intro b _
      simp only [Function.comp_apply, List.length_replicate]
    have h2 := Props.pushSizes_rows (fun b => List.replicate (2 * (f (S.getD b 0)).length) 0) S.length i hi
    have h3 : i < (pushSizes [0] (S.map fun q => 2 * (f q).length)).length := by
      rw [Props.pushSizes_length]; simp; omega
    rw [List.getElem?_eq_getElem h3]
    rw [← h1, List.getD_eq_getElem?_getD, List.getElem?_eq_getElem h3, Option.getD_some] at h2
    rw [h2]
    congr 1
    have h4 : (fun b => (List.replicate (2 * (f (S.getD b 0)).length) 0).length) =
        fun b => (f (S.getD b 0)).length + (f (S.getD b 0)).length := by
      funext b; rw [List.length_replicate]; omega
    rw [h4, excl_add]; omega
  have hlb : ∀ b t, b < S.length → t < (f (S.getD b 0)).length →
      lowerBound (fun d => decide (d ≤ 2 * (excl (fun b => (f (S.getD b 0)).length) b + t)))
        (pushSizes [0] (S.map fun q => 2 * (f q).length)) = b + 1 := by
    intro b t hb ht
    have hlen : (pushSizes [0] (S.map fun q => 2 * (f q).length)).length = S.length + 1 := by
      rw [Props.pushSizes_length]; simp; omega
    have hval : ∀ i (hi : i < (pushSizes [0] (S.map fun q => 2 * (f q).length)).length),
        (pushSizes [0] (S.map fun q => 2 * (f q).length))[i] = 2 * excl (fun b => (f (S.getD b 0)).length) i := by
      intro i hi
      have := hdisp i (by omega)
      rw [List.getElem?_eq_getElem hi] at this
      exact Option.some.inj this
    apply lowerBound_eq_of
    · intro i j hi hj hij hp
      simp only [decide_eq_true_eq] at hp ⊢
      rw [hval] at hp ⊢
      have := excl_mono (fun b => (f (S.getD b 0)).length) hij
      omega
    · omega
    · intro i hi hib
      rw [hval, decide_eq_true_eq]
      have := excl_mono (fun b => (f (S.getD b 0)).length) (show i ≤ b by omega)
      omega
    · intro i hi hib
      rw [hval, decide_eq_false_iff_not]
      have := excl_lt (fun b => (f (S.getD b 0)).length) (show b < i by omega)
      omega
  apply List.ext_getElem?
  intro p
  rw [List.getElem?_map, List.getElem?_zipIdx]
  by_cases hp : p < excl (fun b => (f (S.getD b 0)).length) S.length
  · obtain ⟨b, t, hb, ht, rfl⟩ := excl_split _ hp
    rw [hflat f, getElem?_flatMap_range (fun b => f (S.getD b 0)) hb ht, hflat]
    have h2 := getElem?_flatMap_range (fun b => (f (S.getD b 0)).map fun x => (x, S.getD b 0)) hb (k := t) (by simpa using ht)
    simp only [List.length_map] at h2
    rw [h2, List.getElem?_map, List.getElem?_eq_getElem ht]
    simp only [Option.map_some, Nat.zero_add]
    rw [hlb b t hb ht, Nat.add_sub_cancel]
  · rw [List.getElem?_eq_none, List.getElem?_eq_none]
    · rfl
    · rw [hflat, length_flatMap_range]; simp only [List.length_map]; omega
    · rw [hflat, length_flatMap_range]; omega

theorem mem_globalOldNew (h : Ok I) {r k : Nat} (hr : r < I.P) (hk : k < (reqs I).length) (x : Nat × Nat × Nat) :
    x ∈ globalOldNew I (reqs I) r k ↔ x.2.2 ∈ (wk I (reqs I) k).src r ∧ (x.1, x.2.1) ∈ sendPairs I (reqs I) x.2.2 k := by
  unfold globalOldNew
  rw [mem_sort, recvPairs_eq h hr hk, dispRecv_eq h hr hk]
  have h1 := sender_eq ((wk I (reqs I) k).src r) (fun q => sendPairs I (reqs I) q k)
  have h2 : ∀ (l : List ((Nat × Nat) × Nat)) (g : (Nat × Nat) × Nat → Nat), (l.map fun p => (p.1.1, p.1.2, g p)) =
      (l.map fun p => (p.1, g p)).map fun y => (y.1.1, y.1.2, y.2) := by
    intro l g; rw [List.map_map]; rfl
  rw [h2, h1, List.mem_map]
  constructor
  · rintro ⟨⟨p, q⟩, hm, rfl⟩
    obtain ⟨q', hq', hm⟩ := List.mem_flatMap.mp hm
    obtain ⟨p', hp', heq⟩ := List.mem_map.mp hm
    simp only [Prod.mk.injEq] at heq
    obtain ⟨rfl, rfl⟩ := heq
    exact ⟨hq', hp'⟩
  · rintro ⟨h3, h4⟩
    exact ⟨((x.1, x.2.1), x.2.2), List.mem_flatMap.mpr ⟨x.2.2, h3, List.mem_map.mpr ⟨_, h4, rfl⟩⟩, rfl⟩

theorem tripleLe_sorted (l : List (Nat × Nat × Nat)) : (sort tripleLe l).Pairwise fun a b => a.1 ≤ b.1 := by
  have := sort_sorted tripleLe
    (fun a b c h1 h2 => by unfold tripleLe at *; simp only [decide_eq_true_eq] at *; omega)
    (fun a b => by unfold tripleLe; simp only [Bool.or_eq_true, decide_eq_true_eq]; omega) l
  refine this.imp ?_
  intro a b hab
  unfold tripleLe at hab
  simp only [decide_eq_true_eq] at hab
  omega

theorem globalOf_lt {w : World} {r e g : Nat} (h : Spec.globalOf w r e = some g) : e < w.size r + (w.ghosts r).length := by
  unfold Spec.globalOf at h
  split at h
  · omega
  · have := (List.getElem?_eq_some_iff.mp h).1; omega

theorem globalOf_inj {w : World} (hv : w.Valid) {r a b : Nat} (hr : r < w.P) (ha : a < w.size r + (w.ghosts r).length)
    (hb : b < w.size r + (w.ghosts r).length) (h : Spec.globalOf w r a = Spec.globalOf w r b) : a = b := by
  unfold Spec.globalOf at h
  by_cases h1 : a < w.size r <;> by_cases h2 : b < w.size r
  · rw [if_pos h1, if_pos h2] at h
    have := Option.some.inj h; omega
  · rw [if_pos h1, if_neg h2] at h
    exact absurd ⟨by omega, by omega⟩ (Props.not_ghost_own w hv r _ hr (List.mem_of_getElem? h.symm))
  · rw [if_neg h1, if_pos h2] at h
    exact absurd ⟨by omega, by omega⟩ (Props.not_ghost_own w hv r _ hr (List.mem_of_getElem? h))
  · rw [if_neg h1, if_neg h2] at h
    have := (List.getElem?_inj (by omega) (hv.nodup r hr)).mp h
    omega

theorem ge_eq (r k : Nat) {e : Nat} (he : e < nloc I (reqs I) r k) :
    Spec.globalOf (wk I (reqs I) k) r e = some (ge I r k e) := by
  unfold ge
  have : ∃ g, Spec.globalOf (wk I (reqs I) k) r e = some g := by
    rw [← globalIndices_get]
    exact ⟨_, List.getElem?_eq_getElem (by rw [globalIndices_length]; exact he)⟩
  obtain ⟨g, hg⟩ := this
  rw [hg]; rfl

theorem ge_owned (r k : Nat) {e : Nat} (he : e < (wk I (reqs I) k).size r) : ge I r k e = (wk I (reqs I) k).r0 r + e := by
  unfold ge Spec.globalOf
  rw [if_pos he]; rfl

/-- A local entity, its owner, and its number there. -/
theorem entity_owner (h : Ok I) {r k e : Nat} (hr : r < I.P) (hk : k < (reqs I).length) (he : e < nloc I (reqs I) r k) :
    ∃ q, q < I.P ∧ (wk I (reqs I) k).r0 q ≤ ge I r k e ∧ ge I r k e < (wk I (reqs I) k).r0 q + (wk I (reqs I) k).size q ∧
      (e < (wk I (reqs I) k).size r → q = r) ∧
      (¬ e < (wk I (reqs I) k).size r → q ≠ r ∧ q ∈ (wk I (reqs I) k).src r ∧ ge I r k e ∈ (wk I (reqs I) k).ghosts r) := by
  obtain ⟨hP, hv⟩ := wk_valid h (by omega) hk
  by_cases ho : e < (wk I (reqs I) k).size r
  · refine ⟨r, hr, ?_, ?_, fun _ => rfl, fun hn => absurd ho hn⟩
    · rw [ge_owned r k ho]; omega
    · rw [ge_owned r k ho]; omega
  · have hg := ge_eq r k he
    unfold Spec.globalOf at hg
    rw [if_neg ho] at hg
    have hlt := (List.getElem?_eq_some_iff.mp hg).1
    have hlt' : e - (wk I (reqs I) k).size r < ((wk I (reqs I) k).owners r).length := by
      rw [hv.len r (by omega)]; exact hlt
    have hq := List.getElem?_eq_getElem hlt'
    obtain ⟨h1, h2, h3, h4⟩ := hv.owner r (by omega) _ _ _ hq hg
    refine ⟨_, by omega, h3, h4, fun hn => absurd hn ho, fun _ => ⟨h2, ?_, List.mem_of_getElem? hg⟩⟩
    exact (Scatterer.mem_src _ r _).mpr (List.getElem_mem hlt')

theorem goff_rank (r q k : Nat) : goff I (reqs I) r k = goff I (reqs I) q k := rfl

/-- Old global numbers of one entity type tell entities and dofs apart. -/
theorem gold_inj {r q k e j e' j' : Nat} (hj : j < nk (reqs I) k) (hj' : j' < nk (reqs I) k)
    (h : gold I r k e j = gold I q k e' j') : ge I r k e = ge I q k e' ∧ j = j' := by
  unfold gold at h
  rw [goff_rank r q] at h
  have h1 : nk (reqs I) k * ge I r k e + j = nk (reqs I) k * ge I q k e' + j' := by omega
  have hn : 0 < nk (reqs I) k := by omega
  have h2 : (nk (reqs I) k * ge I r k e + j) / nk (reqs I) k = ge I r k e := by
    rw [Nat.mul_add_div hn, Nat.div_eq_of_lt hj, Nat.add_zero]
  have h3 : (nk (reqs I) k * ge I q k e' + j') / nk (reqs I) k = ge I q k e' := by
    rw [Nat.mul_add_div hn, Nat.div_eq_of_lt hj', Nat.add_zero]
  have h4 : ge I r k e = ge I q k e' := by rw [← h2, h1, h3]
  rw [h4] at h1
  exact ⟨h4, by omega⟩

/-- The lookup of a ghost dof finds the number given by the owner of the entity. -/
theorem lookupNew_eq (h : Ok I) {r k e j q : Nat} (hr : r < I.P) (hk : k < (reqs I).length) (hj : j < nk (reqs I) k)
    (hq : q < I.P) (hqr : q ≠ r) (hsrc : q ∈ (wk I (reqs I) k).src r)
    (h1 : (wk I (reqs I) k).r0 q ≤ ge I r k e) (h2 : ge I r k e < (wk I (reqs I) k).r0 q + (wk I (reqs I) k).size q)
    (hg : ge I r k e ∈ (wk I (reqs I) k).ghosts r) :
    lookupNew I (reqs I) r k (gold I r k e j) =
      (nv I q k (ge I r k e - (wk I (reqs I) k).r0 q) j + (dofWorld I (reqs I)).r0 q, q) := by
  obtain ⟨hP, hv⟩ := wk_valid h (by omega) hk
  set e' := ge I r k e - (wk I (reqs I) k).r0 q with he'
  have he's : e' < (wk I (reqs I) k).size q := by omega
  have hge : ge I q k e' = ge I r k e := by rw [ge_owned q k he's]; omega
  have hgold : gold I q k e' j = gold I r k e j := by
    unfold gold; rw [hge, goff_rank q r]
  have hsh : e' ∈ sharedEntity I (reqs I) q k := by
    rw [mem_shared h hq hk]
    refine ⟨he's, r, hr, fun hc => hqr hc.symm, ?_⟩
    rw [← ge_owned q k he's, hge]; exact hg
  have hmem : (gold I r k e j, nv I q k e' j + (dofWorld I (reqs I)).r0 q, q) ∈ globalOldNew I (reqs I) r k := by
    rw [mem_globalOldNew h hr hk]
    exact ⟨hsrc, (mem_sendPairs h hq hk _ _).mpr ⟨e', j, hsh, hj, hgold.symm, rfl⟩⟩
  have hsorted : (globalOldNew I (reqs I) r k).Pairwise fun a b => a.1 ≤ b.1 := tripleLe_sorted _
  obtain ⟨x, hx1, hx2, hx3⟩ := lowerBound_find (fun x : Nat × Nat × Nat => x.1) _ hsorted (gold I r k e j) ⟨_, hmem, rfl⟩
  unfold lookupNew
  rw [List.getD_eq_getElem?_getD, hx1, Option.getD_some]
  obtain ⟨hs1, hs2⟩ := (mem_globalOldNew h hr hk x).mp hx3
  have hq' : x.2.2 < I.P := by
    have hm := (Scatterer.mem_src _ r _).mp hs1
    obtain ⟨t, ht⟩ := List.getElem?_of_mem hm
    have htl : t < ((wk I (reqs I) k).ghosts r).length := by
      rw [← hv.len r (by omega)]; exact (List.getElem?_eq_some_iff.mp ht).1
    have := (hv.owner r (by omega) _ _ _ ht (List.getElem?_eq_getElem htl)).1
    omega
  obtain ⟨e2, j2, hsh2, hj2, ha, hb⟩ := (mem_sendPairs h hq' hk _ _).mp hs2
  rw [hx2] at ha
  obtain ⟨hg2, rfl⟩ := gold_inj hj hj2 ha
  have he2 := ((mem_shared h hq' hk e2).mp hsh2).1
  rw [ge_owned _ k he2] at hg2
  have hqq : q = x.2.2 := Props.range_unique (wk I (reqs I) k) ⟨h1, h2⟩ ⟨by omega, by omega⟩
  have : e2 = e' := by rw [he', hqq]; omega
  subst this
  refine Prod.ext ?_ hqq.symm
  simp only
  rw [hb, hqq]

/-! ## Ghost dofs -/

theorem mem_ghostWrites (h : Ok I) {r k : Nat} (hr : r < I.P) (p : Nat × (Nat × Nat)) :
    p ∈ ghostWrites I (reqs I) r k ↔ ∃ e j, k < (reqs I).length ∧ e < nloc I (reqs I) r k ∧ j < nk (reqs I) k ∧
      ¬ e < (wk I (reqs I) k).size r ∧
      p = (nv I r k e j - ownedSize I (reqs I) r, lookupNew I (reqs I) r k (gold I r k e j)) := by
  have hren := (oldToNew_spec h hr).1
  unfold ghostWrites
  rw [zip_table h hr, List.mem_filterMap]
  have hown : ∀ k e j, k < (reqs I).length → e < nloc I (reqs I) r k → j < nk (reqs I) k →
      (ownedSize I (reqs I) r ≤ nv I r k e j ↔ ¬ e < (wk I (reqs I) k).size r) := by
    intro k e j hk he hj
    have := hren.own_iff _ (pos_lt r hk he hj)
    rw [ownB_pos r hk he hj, decide_eq_true_eq] at this
    rw [← this]
    unfold nv
    omega
  constructor
  · rintro ⟨x, hx, hc⟩
    obtain ⟨k', e, j, hk', he, hj, rfl⟩ := (mem_table _ _ _).mp hx
    simp only at hc
    split at hc
    · rename_i hcond
      obtain ⟨rfl, h1⟩ := hcond
      exact ⟨e, j, hk', he, hj, (hown _ e j hk' he hj).mp h1, (Option.some.inj hc).symm⟩
    · simp at hc
  · rintro ⟨e, j, hk, he, hj, hn, rfl⟩
    refine ⟨_, (mem_table _ _ _).mpr ⟨k, e, j, hk, he, hj, rfl⟩, ?_⟩
    simp only
    rw [if_pos ⟨trivial, (hown k e j hk he hj).mpr hn⟩]

theorem unownedDofs_length (h : Ok I) {r : Nat} (hr : r < I.P) :
    (unownedDofs I (reqs I) r).length = nDofs I r - ownedSize I (reqs I) r := by
  show (EntityNumbering.runWrites _ _).length = _
  rw [Props.runWrites_length, List.length_replicate, (oldToNew_spec h hr).2]

theorem nv_ghost (h : Ok I) {r k e j : Nat} (hr : r < I.P) (hk : k < (reqs I).length) (he : e < nloc I (reqs I) r k)
    (hj : j < nk (reqs I) k) : (nv I r k e j < ownedSize I (reqs I) r ↔ e < (wk I (reqs I) k).size r) ∧
      nv I r k e j < nDofs I r := by
  have hren := (oldToNew_spec h hr).1
  refine ⟨?_, hren.lt _ (pos_lt r hk he hj)⟩
  unfold nv
  rw [hren.own_iff _ (pos_lt r hk he hj), ownB_pos r hk he hj, decide_eq_true_eq]

theorem nv_inj (h : Ok I) {r k e j k' e' j' : Nat} (hr : r < I.P) (hk : k < (reqs I).length)
    (he : e < nloc I (reqs I) r k) (hj : j < nk (reqs I) k) (hk' : k' < (reqs I).length)
    (he' : e' < nloc I (reqs I) r k') (hj' : j' < nk (reqs I) k') (heq : nv I r k e j = nv I r k' e' j') :
    k = k' ∧ e = e' ∧ j = j' :=
  pos_inj r hk he hj hk' he' hj' ((oldToNew_spec h hr).1.inj _ _ (pos_lt r hk he hj) (pos_lt r hk' he' hj') heq)

theorem nv_surj (h : Ok I) {r x : Nat} (hr : r < I.P) (hx : x < nDofs I r) : ∃ k e j, k < (reqs I).length ∧
    e < nloc I (reqs I) r k ∧ j < nk (reqs I) k ∧ nv I r k e j = x := by
  obtain ⟨o, ho, hox⟩ := (oldToNew_spec h hr).1.surj x hx
  obtain ⟨k, e, j, hk, he, hj, rfl⟩ := pos_split r ho
  exact ⟨k, e, j, hk, he, hj, hox⟩

theorem unowned_get (h : Ok I) {r k e j : Nat} (hr : r < I.P) (hk : k < (reqs I).length) (he : e < nloc I (reqs I) r k)
    (hj : j < nk (reqs I) k) (hn : ¬ e < (wk I (reqs I) k).size r) :
    (unownedDofs I (reqs I) r)[nv I r k e j - ownedSize I (reqs I) r]? =
      some (lookupNew I (reqs I) r k (gold I r k e j)) := by
  have h1 := nv_ghost h hr hk he hj
  show (EntityNumbering.runWrites _ _)[_]? = _
  apply Props.runWrites_written
  · rw [List.length_replicate, (oldToNew_spec h hr).2]
    have := h1.1; omega
  · rw [List.mem_flatMap]
    exact ⟨k, ((h.wait r hr _ (required_eq h hr)).mem_iff).mpr (List.mem_range.mpr hk),
      (mem_ghostWrites h hr _).mpr ⟨e, j, hk, he, hj, hn, rfl⟩⟩
  · intro b hb
    obtain ⟨k', _, hb⟩ := List.mem_flatMap.mp hb
    obtain ⟨e', j', hk', he', hj', hn', heq⟩ := (mem_ghostWrites h hr _).mp hb
    simp only [Prod.mk.injEq] at heq
    have h2 := nv_ghost h hr hk' he' hj'
    have : nv I r k e j = nv I r k' e' j' := by have := h1.1; have := h2.1; omega
    obtain ⟨rfl, rfl, rfl⟩ := nv_inj h hr hk he hj hk' he' hj' this
    exact heq.2

/-- The global number of a dof: its owner's offset plus its number there. -/
theorem globalOf_nv (h : Ok I) {r k e j q : Nat} (hr : r < I.P) (hk : k < (reqs I).length) (he : e < nloc I (reqs I) r k)
    (hj : j < nk (reqs I) k) (hq : q < I.P) (h1 : (wk I (reqs I) k).r0 q ≤ ge I r k e)
    (h2 : ge I r k e < (wk I (reqs I) k).r0 q + (wk I (reqs I) k).size q) :
    Spec.globalOf (dofWorld I (reqs I)) r (nv I r k e j) =
      some ((dofWorld I (reqs I)).r0 q + nv I q k (ge I r k e - (wk I (reqs I) k).r0 q) j) := by
  obtain ⟨q', hq', a1, a2, a3, a4⟩ := entity_owner h hr hk he
  obtain rfl : q = q' := Props.range_unique (wk I (reqs I) k) ⟨h1, h2⟩ ⟨a1, a2⟩
  have hv := nv_ghost h hr hk he hj
  unfold Spec.globalOf
  by_cases ho : e < (wk I (reqs I) k).size r
  · obtain rfl := a3 ho
    have hlt : nv I q k e j < (dofWorld I (reqs I)).size q := hv.1.mpr ho
    rw [if_pos hlt, ge_owned q k ho, Nat.add_sub_cancel_left]
  · obtain ⟨b1, b2, b3⟩ := a4 ho
    have hge : ¬ nv I r k e j < (dofWorld I (reqs I)).size r := fun hc => ho (hv.1.mp hc)
    rw [if_neg hge]
    show ((unownedDofs I (reqs I) r).map Prod.fst)[nv I r k e j - ownedSize I (reqs I) r]? = _
    rw [List.getElem?_map, unowned_get h hr hk he hj ho, lookupNew_eq h hr hk hj hq b1 b2 a1 a2 b3]
    simp only [Option.map_some]
    rw [Nat.add_comm]

/-- The index map of the dofs is valid. -/
theorem dofWorld_valid (h : Ok I) : (dofWorld I (reqs I)).Valid := by
  refine ⟨?_, ?_, ?_⟩
  · intro r _; simp [dofWorld]
  · intro r hr
    rw [List.nodup_iff_injective_get]
    intro a b hab
    have hla : (a : Nat) < (unownedDofs I (reqs I) r).length := by have := a.2; simpa [dofWorld] using this
    have hlb : (b : Nat) < (unownedDofs I (reqs I) r).length := by have := b.2; simpa [dofWorld] using this
    rw [unownedDofs_length h hr] at hla hlb
    have key : ∀ t, t < nDofs I r - ownedSize I (reqs I) r → ∃ k e j q, k < (reqs I).length ∧ e < nloc I (reqs I) r k ∧
        j < nk (reqs I) k ∧ q < I.P ∧ (wk I (reqs I) k).r0 q ≤ ge I r k e ∧
        ge I r k e < (wk I (reqs I) k).r0 q + (wk I (reqs I) k).size q ∧ nv I r k e j = t + ownedSize I (reqs I) r ∧
        ((dofWorld I (reqs I)).ghosts r)[t]? =
          some ((dofWorld I (reqs I)).r0 q + nv I q k (ge I r k e - (wk I (reqs I) k).r0 q) j) := by
      intro t ht
      obtain ⟨k, e, j, hk, he, hj, heq⟩ := nv_surj h hr (x := t + ownedSize I (reqs I) r) (by omega)
      obtain ⟨q, hq, a1, a2, _, _⟩ := entity_owner h hr hk he
      refine ⟨k, e, j, q, hk, he, hj, hq, a1, a2, heq, ?_⟩
      have := globalOf_nv h hr hk he hj hq a1 a2
      unfold Spec.globalOf at this
      have hge : ¬ nv I r k e j < (dofWorld I (reqs I)).size r := by rw [heq]; simp [dofWorld]
      rw [if_neg hge, heq] at this
      have h3 : t + ownedSize I (reqs I) r - (dofWorld I (reqs I)).size r = t := by simp [dofWorld]
      rwa [h3] at this
    obtain ⟨k, e, j, q, hk, he, hj, hq, a1, a2, a3, a4⟩ := key a hla
    obtain ⟨k', e', j', q', hk', he', hj', hq', b1, b2, b3, b4⟩ := key b hlb
    have hga := List.getElem?_eq_getElem a.2
    have hgb := List.getElem?_eq_getElem b.2
    rw [List.get_eq_getElem, List.get_eq_getElem] at hab
    rw [a4] at hga
    rw [b4, ← hab] at hgb
    have heq := Option.some.inj (hga.trans hgb.symm)
    have hs1 : ge I r k e - (wk I (reqs I) k).r0 q < (wk I (reqs I) k).size q := by omega
    have hs2 : ge I r k' e' - (wk I (reqs I) k').r0 q' < (wk I (reqs I) k').size q' := by omega
    have n1 := (nv_ghost h hq hk (e := ge I r k e - (wk I (reqs I) k).r0 q) (by unfold nloc; omega) hj).1.mpr hs1
    have n2 := (nv_ghost h hq' hk' (e := ge I r k' e' - (wk I (reqs I) k').r0 q') (by unfold nloc; omega) hj').1.mpr hs2
    obtain ⟨rfl, hnv⟩ := excl_inj (ownedSize I (reqs I)) n1 n2 heq
    obtain ⟨rfl, hee, rfl⟩ := nv_inj h hq hk (by unfold nloc; omega) hj hk' (by unfold nloc; omega) hj' hnv
    have hgg : ge I r k e = ge I r k e' := by omega
    have hee' : e = e' := by
      have c1 := ge_eq r k he
      have c2 := ge_eq r k he'
      rw [hgg, ← c2] at c1
      exact globalOf_inj (wk_valid h (by omega) hk).2 (by rw [(wk_valid h (by omega) hk).1]; exact hr) he he' c1
    subst hee'
    apply Fin.ext
    omega
  · intro r hr t q g hq hg
    have htl : t < nDofs I r - ownedSize I (reqs I) r := by
      have := (List.getElem?_eq_some_iff.mp hg).1
      simp only [dofWorld, List.length_map] at this
      rwa [unownedDofs_length h hr] at this
    obtain ⟨k, e, j, hk, he, hj, heq⟩ := nv_surj h hr (x := t + ownedSize I (reqs I) r) (by omega)
    have hn : ¬ e < (wk I (reqs I) k).size r := by
      intro hc
      have := (nv_ghost h hr hk he hj).1.mpr hc
      omega
    obtain ⟨q', hq', a1, a2, _, a4⟩ := entity_owner h hr hk he
    obtain ⟨b1, b2, b3⟩ := a4 hn
    have hget := unowned_get h hr hk he hj hn
    rw [lookupNew_eq h hr hk hj hq' b1 b2 a1 a2 b3, heq, Nat.add_sub_cancel] at hget
    change ((unownedDofs I (reqs I) r).map Prod.snd)[t]? = some q at hq
    change ((unownedDofs I (reqs I) r).map Prod.fst)[t]? = some g at hg
    rw [List.getElem?_map, hget] at hq hg
    obtain rfl : q' = q := Option.some.inj hq
    obtain rfl := Option.some.inj hg
    have hs1 : ge I r k e - (wk I (reqs I) k).r0 q' < (wk I (reqs I) k).size q' := by omega
    have n1 := (nv_ghost h hq' hk (e := ge I r k e - (wk I (reqs I) k).r0 q') (by unfold nloc; omega) hj).1.mpr hs1
    refine ⟨hq', b1, by omega, ?_⟩
    have : (dofWorld I (reqs I)).size q' = ownedSize I (reqs I) q' := rfl
    omega

end Verif.Dofmap
