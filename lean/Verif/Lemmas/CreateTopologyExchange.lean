import Verif.Lemmas.CreateTopology
/-!
# Messages about vertices, and the numbering of vertices owned by other ranks
-/
namespace Verif.CreateTopology
open Verif.World Verif.Std Verif.Exchange Verif.Group Verif.Shared Verif.LocalRange Verif.GhostIdx Verif.Props

variable {I : Input}

/-! ## Boundary vertices -/

theorem mem_vsrc (h : Ok I) {r q : Nat} (hr : r < I.P) : q ∈ src I r ↔ ∃ v ∈ I.boundary r, own I v = q ∧ q ≠ r := by
  unfold src
  rw [mem_unique_sortNat, vertexRanks_eq h hr, List.mem_filterMap]
  constructor
  · rintro ⟨p, hp, he⟩
    obtain ⟨v, hv, rfl⟩ := List.mem_map.mp hp
    simp only [(row_spec h hr hv).1, Option.some.injEq] at he
    split at he
    · cases he
    · rename_i hne
      simp only [Option.some.injEq] at he
      exact ⟨v, hv, he, by rw [← he]; exact hne⟩
  · rintro ⟨v, hv, rfl, hne⟩
    refine ⟨_, List.mem_map.mpr ⟨v, hv, rfl⟩, ?_⟩
    simp only [(row_spec h hr hv).1, Option.some.injEq]
    rw [if_neg hne]

theorem mem_vdest (h : Ok I) {r q : Nat} (hr : r < I.P) :
    q ∈ dest I r ↔ ∃ v ∈ I.boundary r, own I v = r ∧ q < I.P ∧ v ∈ I.boundary q ∧ q ≠ r := by
  unfold dest
  rw [mem_unique_sortNat, vertexRanks_eq h hr, List.mem_flatMap]
  constructor
  · rintro ⟨p, hp, he⟩
    obtain ⟨v, hv, rfl⟩ := List.mem_map.mp hp
    obtain ⟨h1, _, h3⟩ := row_spec h hr hv
    simp only [h1, Option.some.injEq] at he
    split at he
    · rename_i ho
      obtain ⟨h4, h5, h6⟩ := (h3 q).mp he
      exact ⟨v, hv, ho, h4, h5, by rw [← ho]; exact h6⟩
    · cases he
  · rintro ⟨v, hv, ho, h4, h5, h6⟩
    obtain ⟨h1, _, h3⟩ := row_spec h hr hv
    refine ⟨_, List.mem_map.mpr ⟨v, hv, rfl⟩, ?_⟩
    simp only [h1, Option.some.injEq]
    rw [if_pos ho]
    exact (h3 q).mpr ⟨h4, h5, by rw [ho]; exact h6⟩

theorem newIndex_eq (h : Ok I) {r v : Nat} (hr : r < I.P) (hv : v ∈ owned I r) : newIndex I r v = gid I v := by
  unfold newIndex
  rw [lowerBound_idxOf _ (owned_strict h hr) v hv, localIndices_eq h hr, List.getD_eq_getElem?_getD, List.getElem?_map,
    List.getElem?_idxOf hv, gid_eq h hr hv]
  have hm := (mem_order h hr).mpr hv
  simp only [Option.map_some, Option.getD_some, num, if_pos hm]
  omega

/-- What rank `q` tells rank `r` about boundary vertices. -/
def block (I : Input) (q r : Nat) : List (Nat × Nat × Nat) :=
  ((I.boundary q).filter fun v => decide (own I v = q ∧ v ∈ I.boundary r)).map fun v => (v, gid I v, q)

theorem sendLists_blocks (h : Ok I) {r : Nat} (hr : r < I.P) : sendLists I r = (dest I r).map (block I r) := by
  have hstrict : (dest I r).Pairwise (· < ·) := unique_sortNat_sorted _
  apply List.ext_getElem?
  intro j
  unfold sendLists
  rw [EntityIndexing.pushAt_get (fun q => lowerBound (fun x => decide (x < q)) (dest I r)), List.getElem?_map,
    List.getElem?_replicate]
  by_cases hj : j < (dest I r).length
  · rw [if_pos hj, List.getElem?_eq_getElem hj]
    simp only [Option.map_some, List.nil_append, Option.some.injEq]
    set q := (dest I r)[j] with hq
    have hqd : q ∈ dest I r := List.getElem_mem hj
    obtain ⟨_, _, _, hqP, _, hqr⟩ := (mem_vdest h hr).mp hqd
    unfold sends block
    rw [vertexRanks_eq h hr, List.flatMap_map, List.filter_flatMap, List.map_flatMap]
    have hfl : ∀ (l : List Nat) (p : Nat → Bool), ((l.filter p).map fun v => (v, gid I v, r)) =
        l.flatMap fun v => if p v then [(v, gid I v, r)] else [] := by
      intro l p
      induction l with
      | nil => rfl
      | cons a l ih =>
        rw [List.filter_cons, List.flatMap_cons]
        split
        · rw [List.map_cons, ih]; rfl
        · rw [ih]; rfl
    rw [hfl]
    apply List.flatMap_congr
    intro v hv
    obtain ⟨h1, h2, h3⟩ := row_spec h hr hv
    simp only [h1, Option.some.injEq]
    by_cases ho : own I v = r
    · have hvo : v ∈ owned I r := (mem_owned h hr).mpr ⟨h.subset r hr v hv, fun _ => ho⟩
      simp only [ho, if_true, true_and]
      rw [newIndex_eq h hr hvo, List.filter_map, List.map_map]
      have hf : ((row I v).tail.filter ((fun p : Nat × Nat × Nat × Nat =>
          decide (lowerBound (fun x => decide (x < p.1)) (dest I r) = j)) ∘ fun q => (q, v, gid I v, r))) =
          (row I v).tail.filter fun a => decide (a = q) := by
        apply List.filter_congr
        intro a ha
        obtain ⟨a1, a2, a3⟩ := (h3 a).mp ha
        have had : a ∈ dest I r := (mem_vdest h hr).mpr ⟨v, hv, ho, a1, a2, by rw [← ho]; exact a3⟩
        simp only [Function.comp]
        rw [decide_eq_decide, lowerBound_idxOf _ hstrict a had]
        constructor
        · intro he
          have := List.getElem_idxOf (List.idxOf_lt_length_of_mem had)
          simp only [he] at this
          exact this.symm
        · rintro rfl
          exact (nodup_of_strict hstrict).idxOf_getElem j hj
      rw [hf]
      by_cases hqb : v ∈ I.boundary q
      · have hmem : q ∈ (row I v).tail := (h3 q).mpr ⟨hqP, hqb, by rw [ho]; exact hqr⟩
        have : (row I v).tail.filter (fun a => decide (a = q)) = [q] := by
          have h4 := List.filter_eq (l := (row I v).tail) q
          have h5 : (row I v).tail.count q = 1 := List.count_eq_one_of_mem h2 hmem
          rw [h5] at h4
          rw [← List.replicate_one, ← h4]
        rw [this]
        simp [hqb]
      · have : (row I v).tail.filter (fun a => decide (a = q)) = [] := by
          rw [List.filter_eq_nil_iff]
          intro a ha hc
          simp only [decide_eq_true_eq] at hc
          subst hc
          exact hqb ((h3 _).mp ha).2.1
        rw [this]
        simp [hqb]
    · simp [ho]
  · rw [if_neg hj, List.getElem?_eq_none (by omega)]; rfl

theorem recvBoundary_eq (h : Ok I) {r : Nat} (hr : r < I.P) : recvBoundary I r = (src I r).flatMap fun q => block I q r := by
  have hin : ∀ q ∈ src I r, q < I.P ∧ r ∈ dest I q := by
    intro q hq
    obtain ⟨v, hv, ho, hne⟩ := (mem_vsrc h hr).mp hq
    obtain ⟨h1, h2⟩ := own_mem h hr hv
    rw [ho] at h1 h2
    exact ⟨h1, (mem_vdest h h1).mpr ⟨v, h2, ho, hr, hv, Ne.symm hne⟩⟩
  unfold recvBoundary
  apply neighborAlltoallv_eq
  · intro q hq; exact sendLists_blocks h (hin q hq).1
  · intro q hq; exact (hin q hq).2

/-- Boundary vertices owned by another rank, in the order in which they arrive. -/
def acc1 (I : Input) (r : Nat) : List Nat :=
  (src I r).flatMap fun q => (I.boundary q).filter fun v => decide (own I v = q ∧ v ∈ I.boundary r)

/-- The rank that owns a vertex. -/
def ownerOf (I : Input) (v : Nat) : Nat := ((List.range I.P).find? fun q => decide (v ∈ owned I q)).getD 0

theorem ownerOf_eq (h : Ok I) {r v : Nat} (hr : r < I.P) (hv : v ∈ owned I r) : ownerOf I v = r := by
  unfold ownerOf
  cases hf : (List.range I.P).find? fun q => decide (v ∈ owned I q) with
  | none =>
    have := List.find?_eq_none.mp hf r (List.mem_range.mpr hr)
    simp [hv] at this
  | some q =>
    have h1 := List.find?_some hf
    have h2 := List.mem_of_find?_eq_some hf
    simp only [decide_eq_true_eq] at h1
    rw [List.mem_range] at h2
    exact owned_unique h h2 hr h1 hv

/-- What is to be known about a vertex. -/
def datum (I : Input) (v : Nat) : Nat × Nat × Nat := (v, gid I v, ownerOf I v)

theorem recvBoundary_data (h : Ok I) {r : Nat} (hr : r < I.P) : recvBoundary I r = (acc1 I r).map (datum I) := by
  rw [recvBoundary_eq h hr]
  unfold acc1 block
  rw [List.map_flatMap]
  apply List.flatMap_congr
  intro q hq
  obtain ⟨w, hw, hwo, hne⟩ := (mem_vsrc h hr).mp hq
  have hqP := (own_mem h hr hw).1
  rw [hwo] at hqP
  apply List.map_congr_left
  intro v hv
  simp only [List.mem_filter, decide_eq_true_eq] at hv
  have : v ∈ owned I q := (mem_owned h hqP).mpr ⟨h.subset q hqP v hv.1, fun _ => hv.2.1⟩
  unfold datum
  rw [ownerOf_eq h hqP this]

theorem mem_acc1 (h : Ok I) {r v : Nat} (hr : r < I.P) : v ∈ acc1 I r ↔ v ∈ I.boundary r ∧ own I v ≠ r := by
  unfold acc1
  rw [List.mem_flatMap]
  constructor
  · rintro ⟨q, hq, hv⟩
    obtain ⟨w, hw, hwo, hne⟩ := (mem_vsrc h hr).mp hq
    simp only [List.mem_filter, decide_eq_true_eq] at hv
    exact ⟨hv.2.2, by rw [hv.2.1]; exact hne⟩
  · rintro ⟨h1, h2⟩
    refine ⟨own I v, (mem_vsrc h hr).mpr ⟨v, h1, rfl, h2⟩, ?_⟩
    simp only [List.mem_filter, decide_eq_true_eq]
    exact ⟨(own_mem h hr h1).2, trivial, h1⟩

theorem acc1_nodup (h : Ok I) {r : Nat} (hr : r < I.P) : (acc1 I r).Nodup := by
  unfold acc1
  rw [List.nodup_flatMap]
  refine ⟨?_, ?_⟩
  · intro q hq
    obtain ⟨w, hw, hwo, hne⟩ := (mem_vsrc h hr).mp hq
    have hqP := (own_mem h hr hw).1
    rw [hwo] at hqP
    exact (nodup_of_strict (h.sorted q hqP)).filter _
  · refine (nodup_of_strict (unique_sortNat_sorted _)).imp ?_
    intro a b hab x hx hx'
    simp only [List.mem_filter, decide_eq_true_eq] at hx hx'
    exact hab (hx.2.1.symm.trans hx'.2.1)

/-! ## Numbering -/

/-- All vertices of a rank, ascending. -/
def allV (I : Input) (r : Nat) : List Nat := sortNat (owned I r ++ unowned I r)

theorem allV_strict (h : Ok I) {r : Nat} (hr : r < I.P) : (allV I r).Pairwise (· < ·) := by
  refine strict_of_sorted_nodup (sortNat_sorted _) ?_
  rw [allV, (sortNat_perm _).nodup_iff, List.nodup_append]
  refine ⟨nodup_of_strict (owned_strict h hr), nodup_of_strict (unowned_strict h hr), ?_⟩
  rintro a ha b hb rfl
  exact not_both h hr ha hb

theorem mem_allV {r v : Nat} : v ∈ allV I r ↔ v ∈ owned I r ∨ v ∈ unowned I r := by
  unfold allV; rw [mem_sortNat, List.mem_append]

/-- The state after the vertices `acc` of other ranks have been numbered. -/
structure Inv (I : Input) (r : Nat) (acc : List Nat) (s : State) : Prop where
  nodup : acc.Nodup
  mem : ∀ v ∈ acc, v ∈ unowned I r
  li : s.li = (unowned I r).map (num (order I r ++ acc))
  g2l : s.g2l = (allV I r).map fun v => (v, num (order I r ++ acc) v)
  ghosts : s.ghosts = acc.map (gid I)
  owners : s.owners = acc.map (ownerOf I)
  v : s.v = (order I r ++ acc).length

theorem unowned_not_order (h : Ok I) {r v : Nat} (hr : r < I.P) (hv : v ∈ unowned I r) : v ∉ order I r :=
  fun hc => not_both h hr ((mem_order h hr).mp hc) hv

theorem pairLe_sorted (l : List (Nat × Option Nat)) : (sort pairLe l).Pairwise fun a b => a.1 ≤ b.1 := by
  refine (sort_sorted pairLe ?_ ?_ l).imp ?_
  · intro a b c h1 h2; simp only [pairLe, decide_eq_true_eq] at *; omega
  · intro a b; simp only [pairLe, Bool.or_eq_true, decide_eq_true_eq]; omega
  · intro a b h; simp only [pairLe, decide_eq_true_eq] at h; omega

theorem g2lInit_eq (h : Ok I) {r : Nat} (hr : r < I.P) : g2lInit I r = (allV I r).map fun v => (v, num (order I r) v) := by
  have hz := zip_map_same (owned I r) (fun v => v) (num (order I r))
  simp only [List.map_id'] at hz
  have hu : ((unowned I r).map fun v => (v, (none : Option Nat))) = (unowned I r).map fun v => (v, num (order I r) v) := by
    apply List.map_congr_left
    intro v hv
    simp [num, unowned_not_order h hr hv]
  have hp : (g2lInit I r).Perm ((allV I r).map fun v => (v, num (order I r) v)) := by
    unfold g2lInit
    rw [localIndices_eq h hr, hz, hu, ← List.map_append]
    exact (sort_perm _ _).trans ((sortNat_perm _).map _).symm
  have hs2 : ((allV I r).map fun v => (v, num (order I r) v)).Pairwise fun a b => a.1 < b.1 :=
    List.pairwise_map.mpr (allV_strict h hr)
  have hs1 : (g2lInit I r).Pairwise fun a b => a.1 < b.1 := by
    have hnd : ((g2lInit I r).map Prod.fst).Nodup := by
      rw [(hp.map Prod.fst).nodup_iff, List.map_map]
      have : (Prod.fst ∘ fun v => (v, num (order I r) v)) = (id : Nat → Nat) := rfl
      rw [this, List.map_id]
      exact nodup_of_strict (allV_strict h hr)
    have hnd' : (g2lInit I r).Pairwise fun a b => a.1 ≠ b.1 := List.pairwise_map.mp hnd
    exact ((pairLe_sorted _).and hnd').imp fun h => lt_of_le_of_ne h.1 h.2
  exact hp.eq_of_pairwise (fun a b _ _ h1 h2 => absurd h1 (by omega)) hs1 hs2

theorem init_inv (h : Ok I) {r : Nat} (hr : r < I.P) : Inv I r [] (init I r) where
  nodup := by simp
  mem := by simp
  li := by
    show List.replicate (unowned I r).length none = _
    rw [eq_comm, List.eq_replicate_iff]
    refine ⟨by simp, ?_⟩
    intro b hb
    obtain ⟨x, hx, rfl⟩ := List.mem_map.mp hb
    simp [num, unowned_not_order h hr hx]
  g2l := by rw [List.append_nil]; exact g2lInit_eq h hr
  ghosts := rfl
  owners := rfl
  v := by rw [List.append_nil, order_length h hr]; rfl

theorem lowerBound_table {L : List Nat} (hL : L.Pairwise (· < ·)) {β : Type} (f : Nat → β) {a : Nat} (ha : a ∈ L) :
    lowerBound (fun e : Nat × β => decide (e.1 < a)) (L.map fun v => (v, f v)) = L.idxOf a := by
  have hs : (L.map fun v => (v, f v)).Pairwise fun x y => x.1 ≤ y.1 :=
    List.pairwise_map.mpr (hL.imp fun h => le_of_lt h)
  obtain ⟨x, h1, h2, _⟩ := lowerBound_find Prod.fst _ hs a ⟨(a, f a), List.mem_map.mpr ⟨a, ha, rfl⟩, rfl⟩
  rw [List.getElem?_map] at h1
  cases hg : L[lowerBound (fun e : Nat × β => decide (e.1 < a)) (L.map fun v => (v, f v))]? with
  | none => rw [hg] at h1; cases h1
  | some y =>
    rw [hg] at h1
    simp only [Option.map_some, Option.some.injEq] at h1
    have hy : y = a := by rw [← h1] at h2; exact h2
    obtain ⟨hlt, hget⟩ := List.getElem?_eq_some_iff.mp hg
    have := (nodup_of_strict hL).idxOf_getElem _ hlt
    rw [hget, hy] at this
    exact this.symm

theorem patch_table {L A : List Nat} (hL : L.Pairwise (· < ·)) {a : Nat} (haL : a ∈ L) (ha : a ∉ A) :
    patch (L.map fun v => (v, num A v)) a A.length = L.map fun v => (v, num (A ++ [a]) v) := by
  unfold patch
  rw [lowerBound_table hL (num A) haL]
  apply List.ext_getElem?
  intro i
  rw [List.getElem?_modify, List.getElem?_map, List.getElem?_map]
  cases hi : L[i]? with
  | none => simp
  | some x =>
    obtain ⟨hlt, rfl⟩ := List.getElem?_eq_some_iff.mp hi
    simp only [Option.map_some, Option.map_eq_map]
    rw [num_append_self ha]
    by_cases he : L.idxOf a = i
    · have hx : L[i] = a := by
        subst he; exact List.getElem_idxOf hlt
      simp [he, hx]
    · have hx : L[i] ≠ a := by
        rintro rfl
        exact he ((nodup_of_strict hL).idxOf_getElem i hlt)
      simp [he, hx]

theorem place_inv (h : Ok I) {r : Nat} (hr : r < I.P) {acc : List Nat} {s : State} (hs : Inv I r acc s) {a : Nat}
    (ha : a ∈ unowned I r) (hacc : a ∉ acc) :
    Inv I r (acc ++ [a]) (place s ((unowned I r).idxOf a) (datum I a)) := by
  have hnot : a ∉ order I r ++ acc := by
    rw [List.mem_append]
    rintro (h1 | h1)
    · exact unowned_not_order h hr ha h1
    · exact hacc h1
  refine ⟨?_, ?_, ?_, ?_, ?_, ?_, ?_⟩
  · rw [List.nodup_append]
    refine ⟨hs.nodup, by simp, ?_⟩
    rintro x hx y hy rfl
    simp at hy; subst hy; exact hacc hx
  · intro v hv
    rcases List.mem_append.mp hv with hv | hv
    · exact hs.mem v hv
    · simp at hv; subst hv; exact ha
  · show s.li.set _ (some s.v) = _
    rw [hs.li, hs.v, ← List.append_assoc]
    exact table_set (nodup_of_strict (unowned_strict h hr)) ha hnot
  · show patch s.g2l a s.v = _
    rw [hs.g2l, hs.v, ← List.append_assoc]
    exact patch_table (allV_strict h hr) (mem_allV.mpr (Or.inr ha)) hnot
  · show s.ghosts ++ [gid I a] = _
    rw [hs.ghosts]; simp
  · show s.owners ++ [ownerOf I a] = _
    rw [hs.owners]; simp
  · show s.v + 1 = _
    rw [hs.v]; simp; omega

theorem stage1_aux (h : Ok I) {r : Nat} (hr : r < I.P) (l acc : List Nat) (s : State) (hs : Inv I r acc s)
    (hn : (acc ++ l).Nodup) (hl : ∀ v ∈ l, v ∈ unowned I r) :
    Inv I r (acc ++ l) ((l.map (datum I)).foldl (step1 I r) s) := by
  induction l generalizing acc s with
  | nil => simpa using hs
  | cons a l ih =>
    have ha := hl a (by simp)
    have hacc : a ∉ acc := by
      rw [List.nodup_append] at hn
      intro hc
      exact hn.2.2 a hc a (by simp) rfl
    have h1 : Inv I r (acc ++ [a]) (step1 I r s (datum I a)) := by
      unfold step1
      rw [show (datum I a).1 = a from rfl, lowerBound_idxOf _ (unowned_strict h hr) a ha]
      exact place_inv h hr hs ha hacc
    have := ih (acc ++ [a]) _ h1 (by simpa using hn) (fun v hv => hl v (by simp [hv]))
    simpa using this

theorem stage1_inv (h : Ok I) {r : Nat} (hr : r < I.P) : Inv I r (acc1 I r) (stage1 I r) := by
  unfold stage1
  rw [recvBoundary_data h hr]
  have := stage1_aux h hr (acc1 I r) [] (init I r) (init_inv h hr) (by simpa using acc1_nodup h hr)
    (fun v hv => (mem_unowned h hr).mpr (Or.inr ((mem_acc1 h hr).mp hv)))
  simpa using this

/-! ## Vertices of ghost cells -/

theorem ghostsOk (h : Ok I) {t : Nat} (ht : t < I.nt) : GhostsOk (ghostInput I t) := by
  have hown : ∀ r, r < I.P → (ghostInput I t).owned r = (I.orig r t).take (nOwn I r t) := by
    intro r hr
    show (I.orig r t).take (numLocal I r t) = _
    rw [numLocal_eq h hr ht]
  refine ⟨?_, ?_, ?_⟩
  · have : allOwned (ghostInput I t).P (ghostInput I t).owned = allOwned I.P fun r => (I.orig r t).take (nOwn I r t) := by
      unfold allOwned
      apply List.flatMap_congr
      intro r hr
      exact hown r (List.mem_range.mp hr)
    rw [this]
    exact h.orig t ht
  · intro r hr
    have := (h.size r hr t ht).2
    show (I.gown r t).length = ((I.orig r t).drop ((I.orig r t).length - (I.gown r t).length)).length
    rw [List.length_drop]; omega
  · intro r hr k o g ho hg
    obtain ⟨h1, _, c, hc, h2, _⟩ := h.ghost r hr t ht k o ho
    refine ⟨h1, ?_⟩
    have hg' : (I.orig r t)[nOwn I r t + k]? = some g := by
      have : ((I.orig r t).drop ((I.orig r t).length - (I.gown r t).length))[k]? = some g := hg
      rwa [List.getElem?_drop] at this
    rw [hown o h1]
    apply List.mem_of_getElem? (i := c)
    rw [List.getElem?_take, if_pos hc, h2, hg']

/-- Original indices of owned cells, rank after rank. -/
def allOrig (I : Input) (t : Nat) : List Nat := allOwned I.P (ghostInput I t).owned

theorem cellGhosts (h : Ok I) {r t : Nat} (hr : r < I.P) (ht : t < I.nt) :
    (cellWorld I t).ghosts r = ((I.orig r t).drop (nOwn I r t)).map fun g => (allOrig I t).idxOf g := by
  show ((ghostInput I t).result r).getD [] = _
  rw [C26_ghost_numbers (ghostInput I t) (ghostsOk h ht) (h.inEdges t ht) r hr]
  rfl

theorem owned_length (h : Ok I) {r t : Nat} (hr : r < I.P) (ht : t < I.nt) : ((ghostInput I t).owned r).length = nOwn I r t := by
  show ((I.orig r t).take (numLocal I r t)).length = _
  rw [numLocal_eq h hr ht, List.length_take]
  have := (h.size r hr t ht).2
  unfold nOwn; omega

theorem cell_r0 (h : Ok I) {q t : Nat} (hq : q ≤ I.P) (ht : t < I.nt) :
    (cellWorld I t).r0 q = Offsets.excl (fun q => ((ghostInput I t).owned q).length) q := by
  unfold World.r0
  induction q with
  | zero => rfl
  | succ q ih =>
    rw [Offsets.excl_succ, Offsets.excl_succ, ih (by omega), owned_length h (by omega) ht]
    congr 1
    exact numLocal_eq h (by omega) ht

/-- Number of ghost cell `k`: that of the owner's copy. -/
theorem ghost_number (h : Ok I) {r t k o c : Nat} (ht : t < I.nt) (ho : o < I.P) (hc : c < nOwn I o t)
    {g : Nat} (hg : (I.orig r t)[nOwn I r t + k]? = some g) (he : (I.orig o t)[c]? = some g) :
    (allOrig I t).idxOf g = (cellWorld I t).r0 o + c := by
  have hn := (ghostsOk h ht).nodup
  have hget : ((ghostInput I t).owned o)[c]? = some g := by
    show ((I.orig o t).take (numLocal I o t))[c]? = some g
    rw [numLocal_eq h ho ht, List.getElem?_take, if_pos hc, he]
  unfold allOrig
  rw [idxOf_allOwned I.P _ hn o g ho (List.mem_of_getElem? hget), cell_r0 h ho.le ht]
  congr 1
  have hno : ((ghostInput I t).owned o).Nodup := (List.nodup_flatMap.mp hn).1 o (List.mem_range.mpr ho)
  obtain ⟨hlt, rfl⟩ := List.getElem?_eq_some_iff.mp hget
  exact hno.idxOf_getElem c hlt

theorem cell_valid (h : Ok I) {t : Nat} (ht : t < I.nt) : (cellWorld I t).Valid where
  len := by
    intro r hr
    rw [cellGhosts h hr ht, List.length_map, List.length_drop]
    have := (h.size r hr t ht).2
    show (I.gown r t).length = _
    unfold nOwn; omega
  nodup := by
    intro r hr
    rw [cellGhosts h hr ht]
    refine List.Nodup.map_on ?_ (h.ghostNodup r hr t ht)
    intro x hx y hy hxy
    refine (List.idxOf_inj ?_).mp hxy
    obtain ⟨k, hk⟩ := List.getElem?_of_mem hx
    have hkl : k < (I.gown r t).length := by
      have := (List.getElem?_eq_some_iff.mp hk).1
      rw [List.length_drop] at this
      have := (h.size r hr t ht).2
      unfold nOwn at *; omega
    obtain ⟨ho, hm⟩ := (ghostsOk h ht).owner r hr k _ x (List.getElem?_eq_getElem hkl) hk
    exact List.mem_flatMap.mpr ⟨_, List.mem_range.mpr ho, hm⟩
  owner := by
    intro r hr k q g hq hg
    rw [cellGhosts h hr ht, List.getElem?_map, List.getElem?_drop] at hg
    obtain ⟨h1, h2, c, hc, h3, _⟩ := h.ghost r hr t ht k q hq
    cases hx : (I.orig r t)[nOwn I r t + k]? with
    | none => rw [hx] at hg; cases hg
    | some x =>
      rw [hx] at hg h3
      simp only [Option.map_some, Option.some.injEq] at hg
      rw [ghost_number h ht h1 hc hx h3] at hg
      have hsz : (cellWorld I t).size q = nOwn I q t := numLocal_eq h h1 ht
      refine ⟨h1, h2, by omega, by omega⟩

theorem requests_eq (h : Ok I) {r t : Nat} (ht : t < I.nt) :
    requests I r t = ((cellWorld I t).dest r).map fun q => ghostsOf (cellWorld I t) q r :=
  recv_chunks _ (cell_valid h ht) r

theorem num_local (A B : List Nat) {v : Nat} (hA : v ∈ A ++ B) : num (A ++ B) v = some ((A ++ B).idxOf v) := if_pos hA

/-- An owner of a cell knows all its vertices after the first exchange. -/
theorem lookup_eq (h : Ok I) {r v : Nat} (hr : r < I.P) (hv : InOwned I r v) : lookup I r v = (gid I v, ownerOf I v) := by
  have hs := stage1_inv h hr
  have hcase : v ∈ owned I r ∨ v ∈ acc1 I r := by
    by_cases hb : v ∈ I.boundary r
    · by_cases ho : own I v = r
      · exact Or.inl ((mem_owned h hr).mpr ⟨hv, fun _ => ho⟩)
      · exact Or.inr ((mem_acc1 h hr).mpr ⟨hb, ho⟩)
    · exact Or.inl ((mem_owned h hr).mpr ⟨hv, fun hc => absurd hc hb⟩)
  have hall : v ∈ allV I r := mem_allV.mpr (hcase.imp id (fun hc => hs.mem v hc))
  have hA : v ∈ order I r ++ acc1 I r := List.mem_append.mpr (hcase.imp (mem_order h hr).mpr id)
  have hget : (stage1 I r).g2l[lowerBound (fun e => decide (e.1 < v)) (stage1 I r).g2l]? =
      some (v, some ((order I r ++ acc1 I r).idxOf v)) := by
    rw [hs.g2l, lowerBound_table (allV_strict h hr) _ hall, List.getElem?_map, List.getElem?_idxOf hall]
    simp only [Option.map_some]
    rw [num_local _ _ hA]
  unfold lookup
  rw [hget]
  simp only
  rcases hcase with ho | ha
  · have hmo := (mem_order h hr).mpr ho
    have hidx : (order I r ++ acc1 I r).idxOf v = (order I r).idxOf v := by rw [List.idxOf_append, if_pos hmo]
    have hlt := List.idxOf_lt_length_of_mem hmo
    rw [hidx, if_pos (by rw [← order_length h hr]; exact hlt), gid_eq h hr ho, ownerOf_eq h hr ho, Nat.add_comm]
  · have hno := unowned_not_order h hr (hs.mem v ha)
    have hidx : (order I r ++ acc1 I r).idxOf v = (acc1 I r).idxOf v + (order I r).length := by
      rw [List.idxOf_append, if_neg hno]
    rw [hidx, order_length h hr, if_neg (by omega), Nat.add_sub_cancel, hs.ghosts, hs.owners, List.getD_eq_getElem?_getD,
      List.getD_eq_getElem?_getD, List.getElem?_map, List.getElem?_map, List.getElem?_idxOf ha]
    rfl

theorem cellVertices_eq (r t c : Nat) : cellVertices I r t ((cellWorld I t).r0 r + c) = cell I r t c := by
  unfold cellVertices cell
  rw [Nat.add_sub_cancel_left]

/-- What arrives for the ghost cells of type `t`. -/
theorem mem_recvGhostData (h : Ok I) {r t : Nat} (hr : r < I.P) (ht : t < I.nt) (d : Nat × Nat × Nat) :
    d ∈ recvGhostData I r t ↔ ∃ q, q ∈ (cellWorld I t).src r ∧ ∃ g ∈ ghostsOf (cellWorld I t) r q,
      ∃ v ∈ cellVertices I q t g, d = (v, lookup I q v) := by
  have hsrc : ∀ q ∈ (cellWorld I t).src r, r ∈ (cellWorld I t).dest q := fun q hq =>
    (Scatterer.mem_dest _ q r).mpr ⟨hr, hq⟩
  unfold recvGhostData
  rw [mem_unique, mem_sort, neighborAlltoallv_eq _ _ _ (fun q r => (unique (sortNat ((ghostsOf (cellWorld I t) r q).flatMap
    (cellVertices I q t)))).map fun v => (v, lookup I q v))]
  · rw [List.mem_flatMap]
    constructor
    · rintro ⟨q, hq, hd⟩
      obtain ⟨v, hv, rfl⟩ := List.mem_map.mp hd
      rw [mem_unique_sortNat, List.mem_flatMap] at hv
      obtain ⟨g, hg, hv⟩ := hv
      exact ⟨q, hq, g, hg, v, hv, rfl⟩
    · rintro ⟨q, hq, g, hg, v, hv, rfl⟩
      refine ⟨q, hq, List.mem_map.mpr ⟨v, ?_, rfl⟩⟩
      rw [mem_unique_sortNat, List.mem_flatMap]
      exact ⟨g, hg, hv⟩
  · intro q _
    unfold sharedFwd
    rw [requests_eq h ht, List.map_map, List.map_map]
    rfl
  · exact hsrc

theorem recvGhost_sound (h : Ok I) {r t : Nat} (hr : r < I.P) (ht : t < I.nt) {d : Nat × Nat × Nat}
    (hd : d ∈ recvGhostData I r t) : ∃ q v, q < I.P ∧ InOwned I q v ∧ d = datum I v := by
  obtain ⟨q, hq, g, hg, v, hv, rfl⟩ := (mem_recvGhostData h hr ht d).mp hd
  rw [mem_ghostsOf] at hg
  obtain ⟨k, hk⟩ := List.getElem?_of_mem hg
  rw [List.getElem?_zip_eq_some] at hk
  obtain ⟨hqP, _, h1, h2⟩ := (cell_valid h ht).owner r hr k q g hk.1 hk.2
  have hsz : (cellWorld I t).size q = nOwn I q t := numLocal_eq h hqP ht
  have hg' : g = (cellWorld I t).r0 q + (g - (cellWorld I t).r0 q) := by omega
  rw [hg', cellVertices_eq] at hv
  have hin : InOwned I q v := ⟨t, ht, _, by omega, hv⟩
  refine ⟨q, v, hqP, hin, ?_⟩
  rw [lookup_eq h hqP hin]; rfl

theorem recvGhost_complete (h : Ok I) {r v : Nat} (hr : r < I.P) (hv : InGhost I r v) :
    ∃ q, q < I.P ∧ InOwned I q v ∧ ∃ t, t < I.nt ∧ datum I v ∈ recvGhostData I r t := by
  obtain ⟨t, ht, k, hk, hvc⟩ := hv
  obtain ⟨h1, h2, c, hc, h3, h4⟩ := h.ghost r hr t ht k _ (List.getElem?_eq_getElem hk)
  have hin : InOwned I (I.gown r t)[k] v := ⟨t, ht, c, hc, h4 v hvc⟩
  refine ⟨_, h1, hin, t, ht, ?_⟩
  rw [mem_recvGhostData h hr ht]
  have hlen : nOwn I r t + k < (I.orig r t).length := by
    have := (h.size r hr t ht).2
    unfold nOwn; omega
  have hg := List.getElem?_eq_getElem hlen
  have hnum := ghost_number h ht h1 hc hg (h3.trans hg)
  have hgk : ((cellWorld I t).ghosts r)[k]? = some ((cellWorld I t).r0 (I.gown r t)[k] + c) := by
    rw [cellGhosts h hr ht, List.getElem?_map, List.getElem?_drop, hg, Option.map_some, hnum]
  have hgo : ((cellWorld I t).owners r)[k]? = some (I.gown r t)[k] := List.getElem?_eq_getElem hk
  refine ⟨(I.gown r t)[k], ?_, (cellWorld I t).r0 (I.gown r t)[k] + c, ?_, v, ?_, ?_⟩
  · unfold World.src; rw [mem_unique_sortNat]; exact List.mem_of_getElem? hgo
  · rw [mem_ghostsOf]
    exact List.mem_of_getElem? (i := k) (List.getElem?_zip_eq_some.mpr ⟨hgo, hgk⟩)
  · rw [cellVertices_eq]; exact h4 v hvc
  · rw [lookup_eq h h1 hin]; rfl

theorem step2_inv (h : Ok I) {r : Nat} (hr : r < I.P) {acc : List Nat} {s : State} (hs : Inv I r acc s) (v : Nat) :
    Inv I r (if v ∈ unowned I r ∧ v ∉ acc then acc ++ [v] else acc) (step2 I r s (datum I v)) := by
  unfold step2
  rw [show (datum I v).1 = v from rfl]
  simp only
  by_cases hv : v ∈ unowned I r
  · rw [lowerBound_idxOf _ (unowned_strict h hr) v hv, List.getElem?_idxOf hv]
    have hno := unowned_not_order h hr hv
    have hget : s.li.getD ((unowned I r).idxOf v) none = num (order I r ++ acc) v := by
      rw [hs.li, List.getD_eq_getElem?_getD, List.getElem?_map, List.getElem?_idxOf hv]; rfl
    rw [hget]
    by_cases ha : v ∈ acc
    · have : num (order I r ++ acc) v ≠ none := by simp [num, ha]
      rw [if_neg (fun hc => hc.2 ha), if_neg (fun hc => this hc.2)]
      exact hs
    · have : num (order I r ++ acc) v = none := by simp [num, ha, hno]
      rw [if_pos ⟨hv, ha⟩, if_pos ⟨rfl, this⟩]
      exact place_inv h hr hs hv ha
  · rw [if_neg (fun hc => hv hc.1), if_neg]
    · exact hs
    · rintro ⟨hc, _⟩
      exact hv (List.mem_of_getElem? hc)

theorem stage2_aux (h : Ok I) {r : Nat} (hr : r < I.P) (l : List (Nat × Nat × Nat)) (hl : ∀ d ∈ l, ∃ v, d = datum I v)
    (acc : List Nat) (s : State) (hs : Inv I r acc s) :
    ∃ acc', Inv I r acc' (l.foldl (step2 I r) s) ∧ (∀ v ∈ acc, v ∈ acc') ∧
      ∀ v, datum I v ∈ l → v ∈ unowned I r → v ∈ acc' := by
  induction l generalizing acc s with
  | nil => exact ⟨acc, hs, fun _ hv => hv, fun v hv => by simp at hv⟩
  | cons d l ih =>
    obtain ⟨u, rfl⟩ := hl d (by simp)
    obtain ⟨acc', h1, h2, h3⟩ := ih (fun d hd => hl d (by simp [hd])) _ _ (step2_inv h hr hs u)
    refine ⟨acc', h1, ?_, ?_⟩
    · intro v hv
      apply h2
      split
      · simp [hv]
      · exact hv
    · intro v hv hun
      rcases List.mem_cons.mp hv with he | hv
      · have : v = u := congrArg Prod.fst he
        subst this
        apply h2
        by_cases ha : v ∈ acc
        · rw [if_neg (fun hc => hc.2 ha)]; exact ha
        · rw [if_pos ⟨hun, ha⟩]; simp
      · exact h3 v hv hun

/-- At the end all vertices of the rank have been numbered. -/
theorem final_inv (h : Ok I) {r : Nat} (hr : r < I.P) :
    ∃ acc, Inv I r acc (final I r) ∧ ∀ v ∈ unowned I r, v ∈ acc := by
  obtain ⟨acc, h1, h2, h3⟩ := stage2_aux h hr ((List.range I.nt).flatMap (recvGhostData I r)) (by
    intro d hd
    obtain ⟨t, ht, hd⟩ := List.mem_flatMap.mp hd
    obtain ⟨_, v, _, _, hv⟩ := recvGhost_sound h hr (List.mem_range.mp ht) hd
    exact ⟨v, hv⟩) _ _ (stage1_inv h hr)
  refine ⟨acc, h1, ?_⟩
  intro v hv
  rcases (mem_unowned h hr).mp hv with ⟨hg, _⟩ | hb
  · obtain ⟨_, _, _, t, ht, hd⟩ := recvGhost_complete h hr hg
    exact h3 v (List.mem_flatMap.mpr ⟨t, List.mem_range.mpr ht, hd⟩) hv
  · exact h2 v ((mem_acc1 h hr).mpr hb)

end Verif.CreateTopology
