import Verif.Model.CreateTopology
import Verif.Props.C26_GhostIndices
import Verif.Props.C31_IndexToDestRanks
import Verif.Props.C40_SharingRanks
import Verif.Lemmas.EntitySharing
/-!
# Which vertices a rank owns, and their numbers
-/
namespace Verif.CreateTopology
open Verif.World Verif.Std Verif.Exchange Verif.Group Verif.Shared Verif.LocalRange Verif.GhostIdx Verif.Props

/-- Vertices of cell `c` of type `t` on rank `r`. -/
def cell (I : Input) (r t c : Nat) : List Nat := ((I.cells r t).drop (c * I.nv t)).take (I.nv t)

/-- Number of owned cells; the remaining ones are ghosts. -/
def nOwn (I : Input) (r t : Nat) : Nat := (I.orig r t).length - (I.gown r t).length

/-- `v` belongs to a cell that `r` owns. -/
def InOwned (I : Input) (r v : Nat) : Prop := ∃ t, t < I.nt ∧ ∃ c, c < nOwn I r t ∧ v ∈ cell I r t c

/-- `v` belongs to a ghost cell of `r`. -/
def InGhost (I : Input) (r v : Nat) : Prop :=
  ∃ t, t < I.nt ∧ ∃ k, k < (I.gown r t).length ∧ v ∈ cell I r t (nOwn I r t + k)

/-- Requirements of `create_topology`.  The boundary vertices of a rank ascend, belong to its owned cells, and include
those that belong to owned cells of another rank.  Ghost cells are copies of cells owned by the stated rank.  No two
different boundary vertices have the same low 32 bits (see C40). -/
structure Ok (I : Input) : Prop where
  threads : 0 < I.threads
  nv : ∀ t, t < I.nt → 0 < I.nv t
  size : ∀ r, r < I.P → ∀ t, t < I.nt →
    (I.cells r t).length = (I.orig r t).length * I.nv t ∧ (I.gown r t).length ≤ (I.orig r t).length
  orig : ∀ t, t < I.nt → (allOwned I.P fun r => (I.orig r t).take (nOwn I r t)).Nodup
  ghostNodup : ∀ r, r < I.P → ∀ t, t < I.nt → ((I.orig r t).drop (nOwn I r t)).Nodup
  ghost : ∀ r, r < I.P → ∀ t, t < I.nt → ∀ (k o : Nat), (I.gown r t)[k]? = some o → o < I.P ∧ o ≠ r ∧
    ∃ c, c < nOwn I o t ∧ (I.orig o t)[c]? = (I.orig r t)[nOwn I r t + k]? ∧
      ∀ v ∈ cell I r t (nOwn I r t + k), v ∈ cell I o t c
  sorted : ∀ r, r < I.P → (I.boundary r).Pairwise (· < ·)
  subset : ∀ r, r < I.P → ∀ v ∈ I.boundary r, InOwned I r v
  complete : ∀ r, r < I.P → ∀ q, q < I.P → r ≠ q → ∀ v, InOwned I r v → InOwned I q v → v ∈ I.boundary r
  inj : ∀ q r, q < I.P → r < I.P → ∀ u ∈ I.boundary q, ∀ v ∈ I.boundary r, u % 2 ^ 32 = v % 2 ^ 32 → u = v
  pick : ∀ r g n, 1 < n → I.pick r g n < n
  inEdges : ∀ t, t < I.nt → InEdges I.P (ghostInput I t).outs (I.inEdges t)

variable {I : Input}

/-! ## Cells -/

theorem numLocal_eq (h : Ok I) {r t : Nat} (hr : r < I.P) (ht : t < I.nt) : numLocal I r t = nOwn I r t := by
  unfold numLocal nOwn
  rw [(h.size r hr t ht).1, Nat.mul_div_cancel _ (h.nv t ht)]

theorem cell_mem {r t c v : Nat} : v ∈ cell I r t c ↔ ∃ j, j < I.nv t ∧ (I.cells r t)[c * I.nv t + j]? = some v := by
  unfold cell
  rw [List.mem_iff_getElem?]
  constructor
  · rintro ⟨j, hj⟩
    rw [List.getElem?_take] at hj
    split at hj
    · rw [List.getElem?_drop] at hj; exact ⟨j, by assumption, hj⟩
    · cases hj
  · rintro ⟨j, h1, h2⟩
    refine ⟨j, ?_⟩
    rw [List.getElem?_take, if_pos h1, List.getElem?_drop]; exact h2

theorem split_pos {n i : Nat} (hn : 0 < n) : i / n * n + i % n = i ∧ i % n < n :=
  ⟨by rw [Nat.mul_comm]; exact Nat.div_add_mod i n, Nat.mod_lt _ hn⟩

theorem mem_ownedCells (h : Ok I) {r t v : Nat} (hr : r < I.P) (ht : t < I.nt) :
    v ∈ ownedCells I r t ↔ ∃ c, c < nOwn I r t ∧ v ∈ cell I r t c := by
  have hn := h.nv t ht
  unfold ownedCells
  rw [numLocal_eq h hr ht, List.mem_iff_getElem?]
  constructor
  · rintro ⟨i, hi⟩
    rw [List.getElem?_take] at hi
    split at hi
    · rename_i hlt
      obtain ⟨h1, h2⟩ := split_pos (i := i) hn
      refine ⟨i / I.nv t, (Nat.div_lt_iff_lt_mul hn).mpr hlt, cell_mem.mpr ⟨i % I.nv t, h2, ?_⟩⟩
      rw [h1]; exact hi
    · cases hi
  · rintro ⟨c, hc, hv⟩
    obtain ⟨j, hj, hget⟩ := cell_mem.mp hv
    refine ⟨c * I.nv t + j, ?_⟩
    rw [List.getElem?_take, if_pos, hget]
    calc c * I.nv t + j < c * I.nv t + I.nv t := by omega
      _ = (c + 1) * I.nv t := by ring
      _ ≤ nOwn I r t * I.nv t := Nat.mul_le_mul_right _ hc

theorem ghost_start (h : Ok I) {r t : Nat} (hr : r < I.P) (ht : t < I.nt) :
    (I.cells r t).length - (I.gown r t).length * I.nv t = nOwn I r t * I.nv t := by
  obtain ⟨h1, h2⟩ := h.size r hr t ht
  unfold nOwn
  rw [h1, Nat.sub_mul]

theorem mem_ghostCells (h : Ok I) {r t v : Nat} (hr : r < I.P) (ht : t < I.nt) :
    v ∈ ghostCells I r t ↔ ∃ k, k < (I.gown r t).length ∧ v ∈ cell I r t (nOwn I r t + k) := by
  have hn := h.nv t ht
  obtain ⟨hs1, hs2⟩ := h.size r hr t ht
  unfold ghostCells
  rw [ghost_start h hr ht, List.mem_iff_getElem?]
  constructor
  · rintro ⟨i, hi⟩
    rw [List.getElem?_drop] at hi
    obtain ⟨h1, h2⟩ := split_pos (i := i) hn
    have hlt := (List.getElem?_eq_some_iff.mp hi).1
    have hlen : (I.cells r t).length = nOwn I r t * I.nv t + (I.gown r t).length * I.nv t := by
      rw [hs1, ← Nat.add_mul]; congr 1; unfold nOwn; omega
    refine ⟨i / I.nv t, (Nat.div_lt_iff_lt_mul hn).mpr (by omega), cell_mem.mpr ⟨i % I.nv t, h2, ?_⟩⟩
    rw [Nat.add_mul, Nat.add_assoc, h1]; exact hi
  · rintro ⟨k, hk, hv⟩
    obtain ⟨j, hj, hget⟩ := cell_mem.mp hv
    refine ⟨k * I.nv t + j, ?_⟩
    rw [List.getElem?_drop, ← hget]
    congr 1; ring

theorem mem_localSet (h : Ok I) {r v : Nat} (hr : r < I.P) : v ∈ localSet I r ↔ InOwned I r v := by
  unfold localSet InOwned
  rw [mem_unique_sortNat, List.mem_flatMap]
  constructor
  · rintro ⟨t, ht, hv⟩
    rw [List.mem_range] at ht
    exact ⟨t, ht, (mem_ownedCells h hr ht).mp hv⟩
  · rintro ⟨t, ht, hv⟩
    exact ⟨t, List.mem_range.mpr ht, (mem_ownedCells h hr ht).mpr hv⟩

theorem mem_ghostSet (h : Ok I) {r v : Nat} (hr : r < I.P) : v ∈ ghostSet I r ↔ InGhost I r v := by
  unfold ghostSet InGhost
  rw [mem_unique_sortNat, List.mem_flatMap]
  constructor
  · rintro ⟨t, ht, hv⟩
    rw [List.mem_range] at ht
    exact ⟨t, ht, (mem_ghostCells h hr ht).mp hv⟩
  · rintro ⟨t, ht, hv⟩
    exact ⟨t, List.mem_range.mpr ht, (mem_ghostCells h hr ht).mpr hv⟩

theorem mem_cells (h : Ok I) {r t v : Nat} (hr : r < I.P) (ht : t < I.nt) :
    v ∈ I.cells r t ↔ v ∈ ownedCells I r t ∨ v ∈ ghostCells I r t := by
  have : I.cells r t = ownedCells I r t ++ ghostCells I r t := by
    unfold ownedCells ghostCells
    rw [ghost_start h hr ht, numLocal_eq h hr ht, List.take_append_drop]
  conv_lhs => rw [this]
  exact List.mem_append

theorem mem_allCells (h : Ok I) {r v : Nat} (hr : r < I.P) : v ∈ allCells I r ↔ InOwned I r v ∨ InGhost I r v := by
  unfold allCells
  rw [List.mem_flatMap]
  constructor
  · rintro ⟨t, ht, hv⟩
    rw [List.mem_range] at ht
    rcases (mem_cells h hr ht).mp hv with hv | hv
    · left; exact ⟨t, ht, (mem_ownedCells h hr ht).mp hv⟩
    · right; exact ⟨t, ht, (mem_ghostCells h hr ht).mp hv⟩
  · rintro (⟨t, ht, hv⟩ | ⟨t, ht, hv⟩)
    · exact ⟨t, List.mem_range.mpr ht, (mem_cells h hr ht).mpr (Or.inl ((mem_ownedCells h hr ht).mpr hv))⟩
    · exact ⟨t, List.mem_range.mpr ht, (mem_cells h hr ht).mpr (Or.inr ((mem_ghostCells h hr ht).mpr hv))⟩

/-! ## Set difference -/

theorem setDifference_nil (l : List Nat) : setDifference l [] = l := by
  induction l with
  | nil => rfl
  | cons a l ih => simp [setDifference, ih]

theorem setDifference_eq (l m : List Nat) (hl : l.Pairwise (· < ·)) (hm : m.Pairwise (· < ·)) :
    setDifference l m = l.filter fun v => decide (v ∉ m) := by
  induction l generalizing m with
  | nil => rfl
  | cons a l ih =>
    obtain ⟨hl1, hl2⟩ := List.pairwise_cons.mp hl
    have hdrop : ∀ v, a ≤ v → (v ∈ m ↔ v ∈ m.dropWhile fun b => decide (b < a)) := by
      intro v hv
      constructor
      · intro hvm
        rw [← List.takeWhile_append_dropWhile (p := fun b => decide (b < a)) (l := m)] at hvm
        rcases List.mem_append.mp hvm with h1 | h1
        · have := List.mem_takeWhile_imp h1
          simp only [decide_eq_true_eq] at this; omega
        · exact h1
      · intro h1; exact (List.dropWhile_sublist _).subset h1
    have hs : (m.dropWhile fun b => decide (b < a)).Pairwise (· < ·) := hm.sublist (List.dropWhile_sublist _)
    have hhead : ∀ b, (m.dropWhile fun b => decide (b < a)).head? = some b → a ≤ b := by
      intro b hb
      have := List.head?_dropWhile_not (fun b => decide (b < a)) m
      rw [hb] at this
      simp at this; exact this
    unfold setDifference
    rw [List.filter_cons]
    have hcongr : ∀ m' : List Nat, (∀ v, a < v → (v ∈ m' ↔ v ∈ m)) → (l.filter fun v => decide (v ∉ m')) = l.filter fun v => decide (v ∉ m) := by
      intro m' hm'
      apply List.filter_congr
      intro v hv
      rw [decide_eq_decide, hm' v (hl1 v hv)]
    generalize hd : m.dropWhile (fun b => decide (b < a)) = d at *
    cases d with
    | nil =>
      have hna : a ∉ m := fun hc => by simpa using (hdrop a (le_refl a)).mp hc
      simp only [hna, not_false_iff, decide_true, if_true]
      rw [setDifference_nil]
      congr 1
      have := hcongr [] (fun v hv => by rw [hdrop v hv.le])
      simpa using this
    | cons b m' =>
      have hab := hhead b rfl
      obtain ⟨hs1, hs2⟩ := List.pairwise_cons.mp hs
      simp only
      by_cases hba : b = a
      · subst hba
        have : b ∈ m := (hdrop b (le_refl b)).mpr (by simp)
        simp only [this, not_true_eq_false, decide_false, if_true]
        rw [ih m' hl2 hs2]
        apply hcongr
        intro v hv
        rw [hdrop v hv.le, List.mem_cons]
        constructor
        · exact Or.inr
        · rintro (rfl | h1)
          · omega
          · exact h1
      · have hna : a ∉ m := by
          intro hc
          rcases List.mem_cons.mp ((hdrop a (le_refl a)).mp hc) with rfl | h1
          · exact hba rfl
          · have := hs1 a h1; omega
        simp only [hna, not_false_iff, decide_true, if_true, if_neg hba]
        rw [ih (b :: m') hl2 hs]
        congr 1
        apply hcongr
        intro v hv
        rw [hdrop v hv.le]

/-! ## Sharing ranks -/

theorem sharing_ok (h : Ok I) : Sharing.Ok (sharing I) := ⟨h.sorted, h.inj, h.pick⟩

/-- The rank that owns a boundary vertex. -/
def own (I : Input) (v : Nat) : Nat := Sharing.chosen (sharing I) v

/-- The ranks of a boundary vertex, the owner first. -/
def row (I : Input) (v : Nat) : List Nat := Sharing.swapFirst (Sharing.having (sharing I) v) (own I v)

theorem vertexRanks_eq (h : Ok I) {r : Nat} (hr : r < I.P) :
    vertexRanks I r = (I.boundary r).map fun v => (v, row I v) := by
  unfold vertexRanks
  rw [Sharing.sharingRanks_eq (sharing_ok h) hr]
  have : (sharing I).ind r = I.boundary r := rfl
  rw [this]
  have h2 : ((I.boundary r).map fun v => (Sharing.ans (sharing I) (Sharing.own (sharing I) v) v).tail) = (I.boundary r).map (row I) := by
    apply List.map_congr_left
    intro v hv
    exact Sharing.ans_tail (sharing_ok h) (q := r) hr hv
  rw [h2]
  have h3 := zip_map_same (I.boundary r) (fun v => v) (row I)
  simpa using h3

theorem own_mem (h : Ok I) {r v : Nat} (hr : r < I.P) (hv : v ∈ I.boundary r) : own I v < I.P ∧ v ∈ I.boundary (own I v) :=
  Sharing.mem_having.mp (Sharing.chosen_mem (sharing_ok h) (q := r) hr hv)

theorem row_spec (h : Ok I) {r v : Nat} (hr : r < I.P) (hv : v ∈ I.boundary r) :
    (row I v).head? = some (own I v) ∧ (row I v).tail.Nodup ∧
      ∀ q, q ∈ (row I v).tail ↔ q < I.P ∧ v ∈ I.boundary q ∧ q ≠ own I v := by
  obtain ⟨h1, h2⟩ := Sharing.swapFirst_perm (Sharing.having (sharing I) v) (own I v)
    (Sharing.chosen_mem (sharing_ok h) (q := r) hr hv)
  have hn : (row I v).Nodup := h1.nodup_iff.mpr (List.nodup_range.filter _)
  have hm : ∀ q, q ∈ row I v ↔ q < I.P ∧ v ∈ I.boundary q := fun q => by
    unfold row; rw [h1.mem_iff]; exact Sharing.mem_having
  change (row I v).head? = _ at h2
  refine ⟨h2, ?_⟩
  cases hrow : row I v with
  | nil => rw [hrow] at h2; cases h2
  | cons a l =>
    rw [hrow] at h2 hn hm
    simp only [List.head?_cons, Option.some.injEq] at h2
    obtain ⟨hn1, hn2⟩ := List.nodup_cons.mp hn
    refine ⟨hn2, ?_⟩
    intro q
    rw [List.tail_cons, ← and_assoc, ← hm q, List.mem_cons, ← h2]
    constructor
    · intro hq; exact ⟨Or.inr hq, fun he => hn1 (he ▸ hq)⟩
    · rintro ⟨h3 | h3, h4⟩
      · exact absurd h3 h4
      · exact h3

theorem filter_ranks (h : Ok I) {r : Nat} (hr : r < I.P) (p : Nat × List Nat → Bool) (q : Nat → Bool)
    (hpq : ∀ v ∈ I.boundary r, p (v, row I v) = q v) :
    ((vertexRanks I r).filter p).map Prod.fst = (I.boundary r).filter q := by
  rw [vertexRanks_eq h hr, List.filter_map, List.map_map]
  have : (Prod.fst ∘ fun v => (v, row I v)) = (id : Nat → Nat) := rfl
  rw [this, List.map_id]
  exact List.filter_congr hpq

/-! ## Owned and unowned vertices -/

theorem owned_perm (h : Ok I) {r : Nat} (hr : r < I.P) : (owned I r).Perm
    ((localSet I r).filter (fun v => decide (v ∉ I.boundary r)) ++ (I.boundary r).filter fun v => decide (own I v = r)) := by
  unfold owned owned0
  refine (sortNat_perm _).trans ?_
  rw [setDifference_eq (localSet I r) _ (unique_sortNat_sorted _) (h.sorted r hr),
    filter_ranks h hr _ (fun v => decide (own I v = r))]
  intro v hv
  rw [decide_eq_decide, (row_spec h hr hv).1]; simp

theorem unowned_perm (h : Ok I) {r : Nat} (hr : r < I.P) : (unowned I r).Perm
    ((ghostSet I r).filter (fun v => decide (v ∉ localSet I r)) ++ (I.boundary r).filter fun v => decide (own I v ≠ r)) := by
  unfold unowned unowned0
  refine (sortNat_perm _).trans ?_
  rw [setDifference_eq (ghostSet I r) (localSet I r) (unique_sortNat_sorted _) (unique_sortNat_sorted _),
    filter_ranks h hr _ (fun v => decide (own I v ≠ r))]
  intro v hv
  rw [decide_eq_decide, (row_spec h hr hv).1]; simp

theorem mem_owned (h : Ok I) {r v : Nat} (hr : r < I.P) :
    v ∈ owned I r ↔ InOwned I r v ∧ (v ∈ I.boundary r → own I v = r) := by
  rw [(owned_perm h hr).mem_iff, List.mem_append, List.mem_filter, List.mem_filter, decide_eq_true_eq, decide_eq_true_eq,
    mem_localSet h hr]
  constructor
  · rintro (⟨h1, h2⟩ | ⟨h1, h2⟩)
    · exact ⟨h1, fun hc => absurd hc h2⟩
    · exact ⟨h.subset r hr v h1, fun _ => h2⟩
  · rintro ⟨h1, h2⟩
    by_cases hb : v ∈ I.boundary r
    · exact Or.inr ⟨hb, h2 hb⟩
    · exact Or.inl ⟨h1, hb⟩

theorem mem_unowned (h : Ok I) {r v : Nat} (hr : r < I.P) :
    v ∈ unowned I r ↔ (InGhost I r v ∧ ¬ InOwned I r v) ∨ (v ∈ I.boundary r ∧ own I v ≠ r) := by
  rw [(unowned_perm h hr).mem_iff, List.mem_append, List.mem_filter, List.mem_filter, decide_eq_true_eq, decide_eq_true_eq,
    mem_localSet h hr, mem_ghostSet h hr]

theorem strict_of_sorted_nodup {l : List Nat} (h1 : l.Pairwise (· ≤ ·)) (h2 : l.Nodup) : l.Pairwise (· < ·) :=
  (h1.and h2).imp fun h => lt_of_le_of_ne h.1 h.2

theorem owned_strict (h : Ok I) {r : Nat} (hr : r < I.P) : (owned I r).Pairwise (· < ·) := by
  refine strict_of_sorted_nodup (sortNat_sorted _) ?_
  rw [(owned_perm h hr).nodup_iff, List.nodup_append]
  refine ⟨(nodup_of_strict (unique_sortNat_sorted _)).filter _, (nodup_of_strict (h.sorted r hr)).filter _, ?_⟩
  rintro a ha b hb rfl
  simp only [List.mem_filter, decide_eq_true_eq] at ha hb
  exact ha.2 hb.1

theorem unowned_strict (h : Ok I) {r : Nat} (hr : r < I.P) : (unowned I r).Pairwise (· < ·) := by
  refine strict_of_sorted_nodup (sortNat_sorted _) ?_
  rw [(unowned_perm h hr).nodup_iff, List.nodup_append]
  refine ⟨(nodup_of_strict (unique_sortNat_sorted _)).filter _, (nodup_of_strict (h.sorted r hr)).filter _, ?_⟩
  rintro a ha b hb rfl
  simp only [List.mem_filter, decide_eq_true_eq] at ha hb
  exact ha.2 ((mem_localSet h hr).mpr (h.subset r hr a hb.1))

theorem not_both (h : Ok I) {r v : Nat} (hr : r < I.P) (h1 : v ∈ owned I r) (h2 : v ∈ unowned I r) : False := by
  obtain ⟨h3, h4⟩ := (mem_owned h hr).mp h1
  rcases (mem_unowned h hr).mp h2 with ⟨_, h5⟩ | ⟨h5, h6⟩
  · exact h5 h3
  · exact h6 (h4 h5)

theorem local_iff (h : Ok I) {r v : Nat} (hr : r < I.P) : v ∈ allCells I r ↔ v ∈ owned I r ∨ v ∈ unowned I r := by
  rw [mem_allCells h hr, mem_owned h hr, mem_unowned h hr]
  constructor
  · intro hv
    by_cases ho : InOwned I r v
    · by_cases hb : v ∈ I.boundary r
      · by_cases hown : own I v = r
        · exact Or.inl ⟨ho, fun _ => hown⟩
        · exact Or.inr (Or.inr ⟨hb, hown⟩)
      · exact Or.inl ⟨ho, fun hc => absurd hc hb⟩
    · rcases hv with hv | hv
      · exact absurd hv ho
      · exact Or.inr (Or.inl ⟨hv, ho⟩)
  · rintro (⟨h1, _⟩ | ⟨h1, _⟩ | ⟨h1, _⟩)
    · exact Or.inl h1
    · exact Or.inr h1
    · exact Or.inl (h.subset r hr v h1)

theorem owned_unique (h : Ok I) {r q v : Nat} (hr : r < I.P) (hq : q < I.P) (h1 : v ∈ owned I r) (h2 : v ∈ owned I q) :
    r = q := by
  by_contra hne
  obtain ⟨h3, h4⟩ := (mem_owned h hr).mp h1
  obtain ⟨h5, h6⟩ := (mem_owned h hq).mp h2
  exact hne ((h4 (h.complete r hr q hq hne v h3 h5)).symm.trans (h6 (h.complete q hq r hr (Ne.symm hne) v h5 h3)))

theorem owned_exists (h : Ok I) {r v : Nat} (hr : r < I.P) (hv : InOwned I r v) : ∃ q, q < I.P ∧ v ∈ owned I q := by
  by_cases hb : v ∈ I.boundary r
  · obtain ⟨h1, h2⟩ := own_mem h hr hb
    exact ⟨own I v, h1, (mem_owned h h1).mpr ⟨h.subset _ h1 v h2, fun _ => rfl⟩⟩
  · exact ⟨r, hr, (mem_owned h hr).mpr ⟨hv, fun hc => absurd hc hb⟩⟩

/-! ## The numbers of owned vertices -/

/-- Entries of a list in order of first appearance. -/
def firsts (l : List Nat) : List Nat := l.foldl (fun acc v => if v ∈ acc then acc else acc ++ [v]) []

theorem firsts_aux (l acc : List Nat) (hn : acc.Nodup) :
    (l.foldl (fun acc v => if v ∈ acc then acc else acc ++ [v]) acc).Nodup ∧
      ∀ v, v ∈ l.foldl (fun acc v => if v ∈ acc then acc else acc ++ [v]) acc ↔ v ∈ acc ∨ v ∈ l := by
  induction l generalizing acc with
  | nil => simp [hn]
  | cons a l ih =>
    rw [List.foldl_cons]
    by_cases ha : a ∈ acc
    · rw [if_pos ha]
      obtain ⟨h1, h2⟩ := ih acc hn
      refine ⟨h1, fun v => ?_⟩
      rw [h2 v, List.mem_cons]
      constructor
      · tauto
      · rintro (h | rfl | h)
        · exact Or.inl h
        · exact Or.inl ha
        · exact Or.inr h
    · rw [if_neg ha]
      obtain ⟨h1, h2⟩ := ih (acc ++ [a]) (by
        rw [List.nodup_append]
        refine ⟨hn, by simp, ?_⟩
        rintro x hx y hy rfl
        simp at hy; subst hy; exact ha hx)
      refine ⟨h1, fun v => ?_⟩
      rw [h2 v, List.mem_append, List.mem_singleton, List.mem_cons]
      tauto

/-- Owned vertices of a rank in the order of their new numbers. -/
def order (I : Input) (r : Nat) : List Nat := firsts ((allCells I r).filter fun v => decide (v ∈ owned I r))

theorem order_nodup (r : Nat) : (order I r).Nodup := (firsts_aux _ [] (by simp)).1

theorem mem_order (h : Ok I) {r v : Nat} (hr : r < I.P) : v ∈ order I r ↔ v ∈ owned I r := by
  unfold order firsts
  rw [(firsts_aux _ [] (by simp)).2 v]
  simp only [List.not_mem_nil, false_or, List.mem_filter, decide_eq_true_eq]
  exact ⟨fun h => h.2, fun hv => ⟨(local_iff h hr).mpr (Or.inl hv), hv⟩⟩

theorem order_length (h : Ok I) {r : Nat} (hr : r < I.P) : (order I r).length = (owned I r).length :=
  ((List.perm_ext_iff_of_nodup (order_nodup r) (nodup_of_strict (owned_strict h hr))).mpr fun _ => mem_order h hr).length_eq

theorem strict_ge {l : List Nat} (hl : l.Pairwise (· < ·)) (i : Nat) (hi : i < l.length) : i + l.head (by rintro rfl; simp at hi) ≤ l[i] := by
  induction l generalizing i with
  | nil => simp at hi
  | cons a l ih =>
    obtain ⟨h1, h2⟩ := List.pairwise_cons.mp hl
    cases i with
    | zero => simp
    | succ i =>
      cases l with
      | nil => simp at hi
      | cons b l =>
        have := ih h2 i (by simpa using hi)
        have := h1 b (by simp)
        simp only [List.head_cons, List.getElem_cons_succ] at *
        omega

/-- A strictly ascending list from `0` to its length minus one is the list of positions. -/
theorem identity_eq {l : List Nat} (hl : l.Pairwise (· < ·)) (hi : isIdentity l = true) : l = List.range l.length := by
  simp only [isIdentity, Bool.and_eq_true, decide_eq_true_eq] at hi
  obtain ⟨⟨hne, hh⟩, hlast⟩ := hi
  apply List.ext_getElem (by simp)
  intro i h1 h2
  rw [List.getElem_range]
  have hpos : 0 < l.length := by omega
  have h0 : l.head hne = 0 := by rw [List.head?_eq_some_head hne] at hh; simpa using hh
  have hge := strict_ge hl i h1
  have hlast' : l[l.length - 1] = l.length - 1 := by
    rw [List.getLast?_eq_getElem?, List.getElem?_eq_getElem (by omega)] at hlast
    simpa using hlast
  rcases Nat.eq_or_lt_of_le (show i ≤ l.length - 1 by omega) with he | hlt
  · simp only [he, hlast']
  · have hgap : ∀ k, i + k < l.length → ∀ (hk : i + k < l.length), l[i] + k ≤ l[i + k] := by
      intro k
      induction k with
      | zero => intro _ _; simp
      | succ k ih =>
        intro hk hk'
        have h3 := ih (by omega) (by omega)
        have h4 : l[i + k] < l[i + (k + 1)] := List.pairwise_iff_getElem.mp hl _ _ (by omega) hk' (by omega)
        omega
    have h5 := hgap (l.length - 1 - i) (by omega) (by omega)
    have h6 : l[i + (l.length - 1 - i)]'(by omega) = l.length - 1 := by
      refine Eq.trans ?_ hlast'
      congr 1; omega
    omega

theorem emplace_zipIdx (l : List Nat) (hl : l.Nodup) (v : Nat) :
    emplaceAll l.zipIdx v = if v ∈ l then some (l.idxOf v) else none := by
  have hm : ∀ a, (v, a) ∈ l.zipIdx ↔ v ∈ l ∧ a = l.idxOf v := by
    intro a
    have := mem_numbered l hl 0 v a
    simpa using this
  rcases emplace_spec l.zipIdx v with ⟨a, h1, h2⟩ | ⟨h1, h2⟩
  · obtain ⟨h3, rfl⟩ := (hm a).mp h2
    rw [h1, if_pos h3]
  · rw [h1, if_neg]
    intro hv
    exact h2 _ ((hm _).mpr ⟨hv, rfl⟩)

theorem ownedPos_eq (h : Ok I) {r v : Nat} (hr : r < I.P) :
    ownedPos I r v = if v ∈ owned I r then some ((owned I r).idxOf v) else none := by
  have hs := owned_strict h hr
  unfold ownedPos
  split
  · rename_i hid
    have he := identity_eq hs hid
    by_cases hv : v < (owned I r).length
    · have hm : v ∈ owned I r := by rw [he]; simpa using hv
      rw [if_pos hv, if_pos hm]
      congr 1
      have := (nodup_of_strict hs).idxOf_getElem v hv
      have hget : (owned I r)[v] = v := by
        have h2 : (owned I r)[v]? = some v := by rw [he]; simp [hv]
        rw [List.getElem?_eq_getElem hv] at h2; simpa using h2
      rw [hget] at this; exact this.symm
    · have hm : v ∉ owned I r := by rw [he]; simpa using hv
      rw [if_neg hv, if_neg hm]
  · exact emplace_zipIdx _ (nodup_of_strict hs) v

/-- Number of a vertex in a list of numbered vertices. -/
def num (A : List Nat) (v : Nat) : Option Nat := if v ∈ A then some (A.idxOf v) else none

theorem num_append_self {A : List Nat} {a : Nat} (ha : a ∉ A) (v : Nat) :
    num (A ++ [a]) v = if v = a then some A.length else num A v := by
  unfold num
  by_cases hv : v = a
  · subst hv; simp [ha, List.idxOf_append]
  · by_cases hm : v ∈ A
    · simp [hv, hm, List.idxOf_append]
    · simp [hv, hm]

/-- Entering one more number into a table of numbers. -/
theorem table_set {L A : List Nat} (hL : L.Nodup) {a : Nat} (haL : a ∈ L) (ha : a ∉ A) :
    (L.map (num A)).set (L.idxOf a) (some A.length) = L.map (num (A ++ [a])) := by
  apply List.ext_getElem?
  intro i
  rw [List.getElem?_set, List.getElem?_map, List.getElem?_map, List.length_map]
  cases hi : L[i]? with
  | none =>
    have := List.getElem?_eq_none_iff.mp hi
    split
    · rename_i he
      have := List.idxOf_lt_length_of_mem haL
      omega
    · rfl
  | some x =>
    obtain ⟨hlt, rfl⟩ := List.getElem?_eq_some_iff.mp hi
    rw [Option.map_some, Option.map_some, num_append_self ha]
    by_cases he : L.idxOf a = i
    · subst he
      rw [if_pos rfl, if_pos (List.idxOf_lt_length_of_mem haL), if_pos (List.getElem_idxOf _)]
    · rw [if_neg he, if_neg]
      rintro rfl
      exact he (hL.idxOf_getElem i hlt)

theorem number_fold (L : List Nat) (hL : L.Nodup) (pos : Nat → Option Nat)
    (hpos : ∀ v, pos v = if v ∈ L then some (L.idxOf v) else none) (l acc : List Nat) (hacc : ∀ v ∈ acc, v ∈ L) :
    l.foldl (numberStep pos) (L.map (num acc), acc.length) =
      (L.map (num ((l.filter fun v => decide (v ∈ L)).foldl (fun acc v => if v ∈ acc then acc else acc ++ [v]) acc)),
       ((l.filter fun v => decide (v ∈ L)).foldl (fun acc v => if v ∈ acc then acc else acc ++ [v]) acc).length) := by
  induction l generalizing acc with
  | nil => rfl
  | cons a l ih =>
    rw [List.foldl_cons, List.filter_cons]
    by_cases ha : a ∈ L
    · simp only [ha, decide_true, if_true, List.foldl_cons]
      have hstep : numberStep pos (L.map (num acc), acc.length) a =
          (L.map (num (if a ∈ acc then acc else acc ++ [a])), (if a ∈ acc then acc else acc ++ [a]).length) := by
        unfold numberStep
        rw [hpos, if_pos ha]
        have hget : (L.map (num acc)).getD (L.idxOf a) none = num acc a := by
          rw [List.getD_eq_getElem?_getD, List.getElem?_map, List.getElem?_idxOf ha]; rfl
        simp only [hget]
        by_cases hc : a ∈ acc
        · have : num acc a ≠ none := by simp [num, hc]
          rw [if_neg this, if_pos hc]
        · have : num acc a = none := by simp [num, hc]
          rw [if_pos this, if_neg hc, table_set hL ha hc]
          simp
      rw [hstep]
      apply ih
      intro v hv
      split at hv
      · exact hacc v hv
      · rcases List.mem_append.mp hv with hv | hv
        · exact hacc v hv
        · simp at hv; subst hv; exact ha
    · simp only [ha, decide_false, if_false, Bool.false_eq_true]
      have hstep : numberStep pos (L.map (num acc), acc.length) a = (L.map (num acc), acc.length) := by
        unfold numberStep
        rw [hpos, if_neg ha]
      rw [hstep]
      exact ih acc hacc

theorem localIndices_eq (h : Ok I) {r : Nat} (hr : r < I.P) : localIndices I r = (owned I r).map (num (order I r)) := by
  unfold localIndices
  have h0 : (List.replicate (owned I r).length (none : Option Nat), 0) = ((owned I r).map (num []), ([] : List Nat).length) := by
    congr 1
    rw [List.eq_replicate_iff.mpr ⟨List.length_map _, ?_⟩]
    intro b hb
    obtain ⟨x, _, rfl⟩ := List.mem_map.mp hb
    simp [num]
  rw [h0, number_fold (owned I r) (nodup_of_strict (owned_strict h hr)) _ (fun v => ownedPos_eq h hr) _ [] (by simp)]
  rfl

/-! ## Global numbers -/

/-- New global number of a vertex. -/
def gid (I : Input) (v : Nat) : Nat := (allOwned I.P (order I)).idxOf v

theorem allOrder_nodup (h : Ok I) : (allOwned I.P (order I)).Nodup := by
  unfold allOwned
  rw [List.nodup_flatMap]
  refine ⟨fun r _ => order_nodup r, ?_⟩
  refine List.Pairwise.imp_of_mem ?_ (List.nodup_range (n := I.P))
  intro a b ha hb hne x hx hx'
  rw [List.mem_range] at ha hb
  exact hne (owned_unique h ha hb ((mem_order h ha).mp hx) ((mem_order h hb).mp hx'))

theorem offset_eq (h : Ok I) {r : Nat} (hr : r ≤ I.P) : offset I r = Offsets.excl (fun q => (order I q).length) r := by
  unfold offset
  induction r with
  | zero => rfl
  | succ r ih => rw [Offsets.excl_succ, Offsets.excl_succ, ih (by omega), order_length h (by omega)]

theorem gid_eq (h : Ok I) {r v : Nat} (hr : r < I.P) (hv : v ∈ owned I r) : gid I v = offset I r + (order I r).idxOf v := by
  unfold gid
  rw [idxOf_allOwned I.P (order I) (allOrder_nodup h) r v hr ((mem_order h hr).mpr hv), offset_eq h hr.le]

theorem mem_allOrder (h : Ok I) {v : Nat} : v ∈ allOwned I.P (order I) ↔ ∃ r, r < I.P ∧ v ∈ owned I r := by
  unfold allOwned
  rw [List.mem_flatMap]
  constructor
  · rintro ⟨r, hr, hv⟩; rw [List.mem_range] at hr; exact ⟨r, hr, (mem_order h hr).mp hv⟩
  · rintro ⟨r, hr, hv⟩; exact ⟨r, List.mem_range.mpr hr, (mem_order h hr).mpr hv⟩

theorem gid_inj (h : Ok I) {u v : Nat} (hu : ∃ r, r < I.P ∧ u ∈ owned I r) (he : gid I u = gid I v) : u = v := by
  have hu' := (mem_allOrder h).mpr hu
  exact (List.idxOf_inj hu').mp he

end Verif.CreateTopology
