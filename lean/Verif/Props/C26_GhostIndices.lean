import Verif.Model.GhostIndices
import Verif.Lemmas.Pack
import Verif.Props.C09_DistributeData
/-!
# C26: `compute_ghost_indices`
-/
namespace Verif.Props
open Verif.Std Verif.Exchange Verif.Group Verif.Offsets Verif.GhostIdx

/-! ## Specification -/

/-- All owned indices, rank after rank. -/
def allOwned (P : Nat) (owned : Nat → List Nat) : List Nat := (List.range P).flatMap owned

/-- Requirements: no index is owned twice, and every ghost is owned by its stated owner. -/
structure GhostsOk (w : GhostIdx.Input) : Prop where
  nodup : (allOwned w.P w.owned).Nodup
  len : ∀ r, r < w.P → (w.owners r).length = (w.ghosts r).length
  owner : ∀ r, r < w.P → ∀ (k o g : Nat), (w.owners r)[k]? = some o → (w.ghosts r)[k]? = some g →
    o < w.P ∧ g ∈ w.owned o

/-! ## Neighbours -/

structure NbrsOk (done : List Nat) (s : Nbrs) : Prop where
  nodup : s.neighbors.Nodup
  mem : ∀ p, p ∈ s.neighbors ↔ p ∈ done
  map : ∀ p, s.map p = if p ∈ s.neighbors then some (s.neighbors.idxOf p) else none
  count : s.count = s.neighbors.map fun p => done.count p

theorem nbrs_step_ok (done : List Nat) (s : Nbrs) (h : NbrsOk done s) (p : Nat) : NbrsOk (done ++ [p]) (nbrStep s p) := by
  unfold nbrStep
  by_cases hp : p ∈ s.neighbors
  · have hm : s.map p = some (s.neighbors.idxOf p) := by rw [h.map, if_pos hp]
    rw [hm]
    refine ⟨h.nodup, ?_, h.map, ?_⟩
    · intro q
      simp only [List.mem_append, List.mem_singleton, h.mem]
      constructor
      · exact Or.inl
      · rintro (h1 | rfl)
        · exact h1
        · exact (h.mem q).mp hp
    · simp only
      rw [h.count]
      apply List.ext_getElem?
      intro i
      rw [List.getElem?_modify, List.getElem?_map, List.getElem?_map]
      cases hi : s.neighbors[i]? with
      | none => simp
      | some q =>
        obtain ⟨hlt, rfl⟩ := List.getElem?_eq_some_iff.mp hi
        by_cases he : s.neighbors.idxOf p = i
        · have hq : s.neighbors[i] = p := by
            subst he
            exact List.getElem_idxOf hlt
          simp [he, hq, List.count_append]
        · have hq : p ≠ s.neighbors[i] := by
            rintro rfl
            exact he (h.nodup.idxOf_getElem i hlt)
          simp [he, List.count_append, List.count_singleton, hq]
  · have hm : s.map p = none := by rw [h.map, if_neg hp]
    rw [hm]
    have hpd : p ∉ done := fun hc => hp ((h.mem p).mpr hc)
    refine ⟨?_, ?_, ?_, ?_⟩
    · simp only
      rw [List.nodup_append]
      refine ⟨h.nodup, by simp, ?_⟩
      rintro a ha b hb rfl
      simp at hb; subst hb; exact hp ha
    · intro q; simp [h.mem]
    · intro q
      simp only
      by_cases hq : q = p
      · subst hq
        simp [List.idxOf_append, hp]
      · rw [if_neg hq, h.map]
        simp only [List.mem_append, List.mem_singleton, hq, or_false]
        by_cases hqn : q ∈ s.neighbors
        · simp [hqn, List.idxOf_append]
        · simp [hqn]
    · simp only
      have hl : s.count.length = s.neighbors.length := by rw [h.count]; simp
      have hmod : (s.count ++ [0]).modify s.neighbors.length (· + 1) = s.count ++ [1] := by
        rw [← hl]
        apply List.ext_getElem?
        intro i
        rw [List.getElem?_modify]
        rcases Nat.lt_trichotomy i s.count.length with hi | rfl | hi
        · rw [List.getElem?_append_left hi, List.getElem?_append_left hi]
          simp [Nat.ne_of_gt hi]
        · simp
        · rw [List.getElem?_eq_none (by simp; omega), List.getElem?_eq_none (by simp; omega)]; rfl
      rw [hmod]
      simp only [List.map_append, List.map_cons, List.map_nil]
      rw [h.count]
      congr 1
      · apply List.map_congr_left
        intro q hq
        have : p ≠ q := by rintro rfl; exact hp hq
        simp [List.count_append, List.count_singleton, this]
      · simp [List.count_append, List.count_eq_zero_of_not_mem hpd]

theorem nbrs_ok (owners : List Nat) : NbrsOk owners (nbrs owners) := by
  unfold nbrs
  have : ∀ (l done : List Nat) (s : Nbrs), NbrsOk done s → NbrsOk (done ++ l) (l.foldl nbrStep s) := by
    intro l
    induction l with
    | nil => intro done s h; simpa using h
    | cons a l ih =>
      intro done s h
      have := ih _ _ (nbrs_step_ok done s h a)
      simpa using this
  have := this owners [] ⟨[], [], fun _ => none⟩ ⟨by simp, by simp, by simp, rfl⟩
  simpa using this

theorem grp_zip_length (owners ghosts : List Nat) (hl : owners.length = ghosts.length) (p : Nat) :
    (grp Prod.fst (owners.zip ghosts) p).length = owners.count p := by
  unfold grp
  induction owners generalizing ghosts with
  | nil => simp
  | cons a owners ih =>
    cases ghosts with
    | nil => simp at hl
    | cons b ghosts =>
      rw [List.zip_cons_cons, List.filter_cons, List.count_cons]
      have := ih ghosts (by simpa using hl)
      by_cases h : a = p
      · simp [h, this]
      · simp [h, this]

theorem count_eq (owners ghosts : List Nat) (hl : owners.length = ghosts.length) :
    (nbrs owners).count = (nbrs owners).neighbors.map fun p => (grp Prod.fst (owners.zip ghosts) p).length := by
  rw [(nbrs_ok owners).count]
  apply List.map_congr_left
  intro p _
  rw [grp_zip_length owners ghosts hl]

theorem sendData_eq (owners ghosts : List Nat) (hl : owners.length = ghosts.length) :
    sendData ghosts owners = (nbrs owners).neighbors.flatMap fun p => (grp Prod.fst (owners.zip ghosts) p).map Prod.snd := by
  have h := nbrs_ok owners
  have hk : ∀ x ∈ owners.zip ghosts, x.1 ∈ (nbrs owners).neighbors := by
    intro x hx
    rw [h.mem]
    exact (List.of_mem_zip hx).1
  unfold sendData
  simp only
  apply pack_eq _ h.nodup _ _ _ _ hk _ _ (count_eq owners ghosts hl)
  · rw [List.length_replicate, count_eq owners ghosts hl]
    exact sum_grp _ _ h.nodup _ hk
  · intro x hx
    rw [h.map, if_pos (hk x hx)]; rfl

/-! ## Lookups -/

theorem emplace_spec {α : Type} (l : List (Nat × α)) (x : Nat) :
    (∃ a, emplaceAll l x = some a ∧ (x, a) ∈ l) ∨ (emplaceAll l x = none ∧ ∀ a, (x, a) ∉ l) := by
  unfold emplaceAll
  induction l using List.reverseRecOn with
  | nil => right; simp
  | append_singleton l e ih =>
    rw [List.foldl_append]
    simp only [List.foldl_cons, List.foldl_nil]
    rcases ih with ⟨a, h1, h2⟩ | ⟨h1, h2⟩
    · left
      refine ⟨a, ?_, by simp [h2]⟩
      rw [h1]; simp
    · by_cases hx : x = e.1
      · left
        refine ⟨e.2, ?_, by simp [hx]⟩
        rw [if_pos ⟨hx, by rw [h1]; rfl⟩]
      · right
        refine ⟨by rw [if_neg (by tauto)]; exact h1, ?_⟩
        intro a ha
        rcases List.mem_append.mp ha with h | h
        · exact h2 a h
        · simp only [List.mem_singleton] at h
          exact hx (by rw [← h])

theorem mem_numbered (owned : List Nat) (hn : owned.Nodup) (offset g a : Nat) :
    (g, a) ∈ (owned.zipIdx.map fun p => (p.1, offset + p.2)) ↔ g ∈ owned ∧ a = offset + owned.idxOf g := by
  rw [List.mem_map]
  constructor
  · rintro ⟨⟨x, i⟩, hm, heq⟩
    have hi := List.mem_zipIdx_iff_getElem?.mp hm
    simp only [Prod.mk.injEq] at heq hi
    obtain ⟨rfl, rfl⟩ := heq
    obtain ⟨hlt, rfl⟩ := List.getElem?_eq_some_iff.mp hi
    exact ⟨List.getElem_mem hlt, by rw [hn.idxOf_getElem i hlt]⟩
  · rintro ⟨hg, rfl⟩
    exact ⟨(g, owned.idxOf g), List.mem_zipIdx_iff_getElem?.mpr (List.getElem?_idxOf hg), rfl⟩

theorem newIndexHash_eq (owned : List Nat) (hn : owned.Nodup) (offset g : Nat) (hg : g ∈ owned) :
    newIndexHash owned offset g = some (offset + owned.idxOf g) := by
  unfold newIndexHash
  rcases emplace_spec (owned.zipIdx.map fun p => (p.1, offset + p.2)) g with ⟨a, h1, h2⟩ | ⟨_, h2⟩
  · rw [h1, ((mem_numbered owned hn offset g a).mp h2).2]
  · exact absurd ((mem_numbered owned hn offset g _).mpr ⟨hg, rfl⟩) (h2 _)

theorem newIndexSorted_eq (owned : List Nat) (hn : owned.Nodup) (offset g : Nat) (hg : g ∈ owned) :
    newIndexSorted owned offset g = some (offset + owned.idxOf g) := by
  unfold newIndexSorted
  simp only
  set a := sort (fun x y : Nat × Nat => decide (x.1 < y.1 ∨ (x.1 = y.1 ∧ x.2 ≤ y.2)))
    (owned.zipIdx.map fun p => (p.1, offset + p.2)) with ha
  have hs : a.Pairwise (fun x y => x.1 ≤ y.1) := by
    have := sort_sorted (fun x y : Nat × Nat => decide (x.1 < y.1 ∨ (x.1 = y.1 ∧ x.2 ≤ y.2)))
      (fun x y z h1 h2 => by simp only [decide_eq_true_eq] at *; omega)
      (fun x y => by simp only [Bool.or_eq_true, decide_eq_true_eq]; omega) (owned.zipIdx.map fun p => (p.1, offset + p.2))
    exact this.imp (fun h => by simp only [decide_eq_true_eq] at h; omega)
  have hm : ∀ x, x ∈ a ↔ x ∈ owned.zipIdx.map fun p => (p.1, offset + p.2) := fun x => mem_sort _ _ _
  obtain ⟨x, h1, h2, h3⟩ := lowerBound_find Prod.fst a hs g
    ⟨(g, offset + owned.idxOf g), (hm _).mpr ((mem_numbered owned hn offset g _).mpr ⟨hg, rfl⟩), rfl⟩
  rw [h1]
  simp only [h2, if_true]
  have : (g, x.2) ∈ owned.zipIdx.map fun p => (p.1, offset + p.2) := by rw [← h2]; exact (hm _).mp h3
  rw [((mem_numbered owned hn offset g _).mp this).2]

/-! ## Position in the concatenation -/

theorem idxOf_allOwned (P : Nat) (owned : Nat → List Nat) (hn : (allOwned P owned).Nodup) (o g : Nat) (ho : o < P)
    (hg : g ∈ owned o) :
    (allOwned P owned).idxOf g = excl (fun q => (owned q).length) o + (owned o).idxOf g := by
  have hlt : (owned o).idxOf g < (owned o).length := List.idxOf_lt_length_of_mem hg
  have h := getElem?_flatMap_range owned ho hlt
  rw [List.getElem?_idxOf hg] at h
  change (allOwned P owned)[_]? = _ at h
  obtain ⟨hl, he⟩ := List.getElem?_eq_some_iff.mp h
  have := hn.idxOf_getElem _ hl
  rw [he] at this
  exact this

/-! ## Theorems -/

/-- C26: for every number of ranks, every owned lists without duplicates and every ghost list,
on both the hashed and the sorted path and for every order of the neighbour discovery, each ghost
gets the position of its index in the rank-by-rank concatenation of the owned lists; no
assertion fails. -/
theorem C26_ghost_numbers (w : GhostIdx.Input) (h : GhostsOk w) (he : InEdges w.P w.outs w.inEdges)
    (r : Nat) (hr : r < w.P) :
    w.result r = some ((w.ghosts r).map fun g => (allOwned w.P w.owned).idxOf g) := by
  have hnodup : ∀ q, q < w.P → (w.owned q).Nodup := by
    intro q hq
    exact (List.nodup_flatMap.mp h.nodup).1 q (List.mem_range.mpr hq)
  have hsend : ∀ q, q < w.P → sendData (w.ghosts q) (w.owners q) =
      (w.outs q).flatMap fun p => (grp Prod.fst ((w.owners q).zip (w.ghosts q)) p).map Prod.snd :=
    fun q hq => sendData_eq _ _ (h.len q hq)
  have hcount : ∀ q, q < w.P → (nbrs (w.owners q)).count =
      (w.outs q).map fun p => (grp Prod.fst ((w.owners q).zip (w.ghosts q)) p).length :=
    fun q hq => count_eq _ _ (h.len q hq)
  have hmemP : ∀ s, s < w.P → ∀ q ∈ w.inEdges s, q < w.P ∧ s ∈ w.outs q := fun s hs q hq => (he.mem s hs q).mp hq
  have houtP : ∀ q, q < w.P → ∀ s ∈ w.outs q, s < w.P := by
    intro q hq s hs
    rw [Input.outs, (nbrs_ok _).mem] at hs
    obtain ⟨k, hk⟩ := List.getElem?_of_mem hs
    have hkl := (List.getElem?_eq_some_iff.mp hk).1
    exact (h.owner q hq k s _ hk (List.getElem?_eq_getElem (by rw [← h.len q hq]; exact hkl))).1
  have hrecv : ∀ s, s < w.P → w.recvData s =
      (w.inEdges s).flatMap fun q => (grp Prod.fst ((w.owners q).zip (w.ghosts q)) s).map Prod.snd := by
    intro s hs
    unfold Input.recvData
    rw [neighborAlltoallv_eq _ _ _ (fun q s => (grp Prod.fst ((w.owners q).zip (w.ghosts q)) s).map Prod.snd)]
    · intro q hq
      have hqP := (hmemP s hs q hq).1
      rw [hsend q hqP, chunks_flatMap]
      rw [hcount q hqP]; simp
    · intro q hq; exact (hmemP s hs q hq).2
  have hsizes : ∀ s, s < w.P → w.recvSizes s =
      (w.inEdges s).map fun q => (grp Prod.fst ((w.owners q).zip (w.ghosts q)) s).length := by
    intro s hs
    unfold Input.recvSizes neighborAlltoall
    rw [neighborAlltoallv_eq _ _ _ (fun q s => [(grp Prod.fst ((w.owners q).zip (w.ghosts q)) s).length]), flatMap_singleton]
    · intro q hq
      have hqP := (hmemP s hs q hq).1
      simp only
      rw [hcount q hqP]; simp
    · intro q hq; exact (hmemP s hs q hq).2
  set F : Nat → Nat → Option Nat := fun s g =>
    if w.threaded then newIndexSorted (w.owned s) (w.offset s) g else newIndexHash (w.owned s) (w.offset s) g with hF
  have hnew : w.newRecv r =
      (w.outs r).flatMap fun s => (grp Prod.fst ((w.owners r).zip (w.ghosts r)) s).map fun e => F s e.2 := by
    unfold Input.newRecv
    rw [neighborAlltoallv_eq _ _ _ (fun s q => (grp Prod.fst ((w.owners q).zip (w.ghosts q)) s).map fun e => F s e.2)]
    · intro s hs
      have hsP := houtP r hr s hs
      unfold Input.replies
      rw [hrecv s hsP, hsizes s hsP, List.map_flatMap]
      simp only [List.map_map]
      rw [chunks_flatMap]
      · rfl
      · simp
    · intro s hs
      exact (he.mem s (houtP r hr s hs) r).mpr ⟨hr, hs⟩
  have hzip : (sendData (w.ghosts r) (w.owners r)).zip (w.newRecv r) =
      (w.outs r).flatMap fun s => (grp Prod.fst ((w.owners r).zip (w.ghosts r)) s).map fun e => (e.2, F s e.2) := by
    rw [hsend r hr, hnew]
    generalize w.outs r = l
    induction l with
    | nil => rfl
    | cons a l ih =>
      rw [List.flatMap_cons, List.flatMap_cons, List.flatMap_cons, List.zip_append (by simp), ih]
      congr 1
      generalize grp Prod.fst ((w.owners r).zip (w.ghosts r)) a = m
      induction m with
      | nil => rfl
      | cons b m ihm => simp [ihm]
  unfold Input.result
  apply mapM_some
  intro g hg
  rw [hzip]
  have hval : ∀ (o : Nat), (o, g) ∈ (w.owners r).zip (w.ghosts r) → F o g = some ((allOwned w.P w.owned).idxOf g) := by
    intro o hm
    obtain ⟨k, hk⟩ := List.getElem?_of_mem hm
    rw [List.getElem?_zip_eq_some] at hk
    obtain ⟨hoP, hgo⟩ := h.owner r hr k o g hk.1 hk.2
    rw [idxOf_allOwned w.P w.owned h.nodup o g hoP hgo, hF]
    simp only
    split
    · exact newIndexSorted_eq _ (hnodup o hoP) _ _ hgo
    · exact newIndexHash_eq _ (hnodup o hoP) _ _ hgo
  rcases emplace_spec ((w.outs r).flatMap fun s =>
    (grp Prod.fst ((w.owners r).zip (w.ghosts r)) s).map fun e => (e.2, F s e.2)) g with ⟨a, h1, h2⟩ | ⟨_, h2⟩
  · rw [h1]
    obtain ⟨s, hs, hm⟩ := List.mem_flatMap.mp h2
    obtain ⟨e, he', heq⟩ := List.mem_map.mp hm
    obtain ⟨hz, hes⟩ := (mem_grp _ _ _ _).mp he'
    simp only [Prod.mk.injEq] at heq
    obtain ⟨heg, rfl⟩ := heq
    have hz' : (s, g) ∈ (w.owners r).zip (w.ghosts r) := by
      rw [← hes, ← heg]; exact hz
    rw [heg, hval s hz']; rfl
  · exfalso
    obtain ⟨k, hk⟩ := List.getElem?_of_mem hg
    have hkl : k < (w.owners r).length := by
      rw [h.len r hr]; exact (List.getElem?_eq_some_iff.mp hk).1
    have hz : ((w.owners r)[k], g) ∈ (w.owners r).zip (w.ghosts r) :=
      List.mem_of_getElem? (i := k) (List.getElem?_zip_eq_some.mpr ⟨List.getElem?_eq_getElem hkl, hk⟩)
    apply h2 (F (w.owners r)[k] g)
    rw [List.mem_flatMap]
    refine ⟨(w.owners r)[k], ?_, List.mem_map.mpr ⟨_, (mem_grp _ _ _ _).mpr ⟨hz, rfl⟩, rfl⟩⟩
    rw [Input.outs, (nbrs_ok _).mem]
    exact List.getElem_mem hkl

/-- C26: the new numbers are a bijection from the owned indices onto `0, …, N-1`, and the new
number of the `i`-th owned index of rank `q` is the rank's offset plus `i`. -/
theorem C26_numbers_bijective (P : Nat) (owned : Nat → List Nat) (hn : (allOwned P owned).Nodup) :
    (∀ q, q < P → ∀ (i g : Nat), (owned q)[i]? = some g →
      (allOwned P owned).idxOf g = ((List.range q).map fun p => (owned p).length).sum + i) ∧
    (∀ g ∈ allOwned P owned, (allOwned P owned).idxOf g < ((List.range P).map fun p => (owned p).length).sum) ∧
    (∀ n, n < ((List.range P).map fun p => (owned p).length).sum →
      ∃! g, g ∈ allOwned P owned ∧ (allOwned P owned).idxOf g = n) := by
  have hsum : ∀ n, excl (fun q => (owned q).length) n = ((List.range n).map fun p => (owned p).length).sum := by
    intro n
    induction n with
    | zero => rfl
    | succ n ih => rw [excl_succ, ih, List.range_succ]; simp
  have hlen : (allOwned P owned).length = ((List.range P).map fun p => (owned p).length).sum := by
    rw [← hsum]; exact length_flatMap_range owned P
  refine ⟨?_, ?_, ?_⟩
  · intro q hq i g hi
    obtain ⟨hlt, rfl⟩ := List.getElem?_eq_some_iff.mp hi
    have hq' := (List.nodup_flatMap.mp hn).1 q (List.mem_range.mpr hq)
    rw [idxOf_allOwned P owned hn q _ hq (List.getElem_mem hlt), hsum, hq'.idxOf_getElem i hlt]
  · intro g hg
    rw [← hlen]; exact List.idxOf_lt_length_of_mem hg
  · intro n hlt
    rw [← hlen] at hlt
    refine ⟨(allOwned P owned)[n], ⟨List.getElem_mem hlt, hn.idxOf_getElem n hlt⟩, ?_⟩
    rintro g ⟨hg, he⟩
    subst he
    exact (List.getElem_idxOf hlt).symm

/-- Three ranks; rank 2 has ghosts from both others, repeated. -/
def ghostEx (t : Bool) : GhostIdx.Input :=
  { P := 3, owned := fun r => if r = 0 then [7, 3] else if r = 1 then [5] else [9, 1],
    ghosts := fun r => if r = 2 then [5, 3, 7, 3] else if r = 0 then [1] else [],
    owners := fun r => if r = 2 then [1, 0, 0, 0] else if r = 0 then [2] else [],
    inEdges := fun r => if r = 0 then [2] else if r = 1 then [2] else [0], threaded := t }

example : InEdges 3 (ghostEx true).outs (ghostEx true).inEdges ∧ (allOwned 3 (ghostEx true).owned).Nodup ∧
    (List.range 3).map (ghostEx true).result = [some [4], some [], some [2, 1, 0, 1]] ∧
    (List.range 3).map (ghostEx false).result = [some [4], some [], some [2, 1, 0, 1]] := by
  refine ⟨inEdges_of ?_ ?_ ?_, ?_⟩ <;> decide +kernel

example : GhostsOk (ghostEx true) := by
  refine ⟨by decide +kernel, ?_, ?_⟩
  · intro r hr
    have : r < 3 := hr
    interval_cases r <;> rfl
  · intro r hr k o g ho hg
    have : r < 3 := hr
    interval_cases r
    · rcases k with _ | k <;> simp [ghostEx] at ho hg ⊢; subst ho hg; simp
    · simp [ghostEx] at ho
    · rcases k with _ | _ | _ | _ | k <;> simp [ghostEx] at ho hg ⊢ <;> (subst ho hg; simp)

end Verif.Props
