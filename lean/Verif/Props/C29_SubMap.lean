import Verif.Lemmas.SubMap
import Verif.Lemmas.ArrayFold
import Verif.Props.C10_C11_Scatter
/-!
# C29: `common::create_sub_index_map`
-/
namespace Verif.Props
open Verif.Std Verif.Exchange Verif.World Verif.Shared Verif.StackMaps Verif.Offsets Verif.Group Verif.Spec Verif.SubMap Verif.Scatterer

variable {s : Input}

theorem pairs_eq (h : s.Ok) (r : Nat) (hr : r < s.w.P) :
    s.pairs r = ((s.w.src r).flatMap fun t => s.comm1.sel r t).map fun i =>
      (s.w.size r + i, s.chosen ((s.w.owners r).getD i 0) ((s.w.ghosts r).getD i 0)) := by
  unfold Input.pairs Input.recvOwners
  rw [sendFlat_eq (comm1_ok h) r hr, reply_eq (comm1_ok h) _ r hr, List.map_flatMap, zip_flatMap, List.map_flatMap]
  · apply List.flatMap_congr
    intro t _
    rw [List.map_map, zip_map_same]
    apply List.map_congr_left
    intro i hi
    obtain ⟨_, g, _, e2, e3, _⟩ := sel_ghost h r t i hr hi
    obtain ⟨_, _, h3⟩ := (mem_sel _ _ _ _).mp hi
    have e2' : (s.comm1.ghosts r).getD i 0 = g := e2
    have h3' : (s.w.owners r).getD i 0 = t := h3
    simp only [Function.comp, e2', e2, h3']
    rw [globalToLocal_of s.w h.valid r hr _ g e3]
  · intro t _; simp

theorem mem_pairs (h : s.Ok) (r : Nat) (hr : r < s.w.P) (l o : Nat) :
    (l, o) ∈ s.pairs r ↔ l ∈ s.ind r ∧ s.w.size r ≤ l ∧ ∃ g, globalOf s.w r l = some g ∧ NewOwner s.w s.ind g o ∧ ¬ Owns s.w r g := by
  rw [pairs_eq h r hr, List.mem_map]
  constructor
  · rintro ⟨i, hi, he⟩
    obtain ⟨t, ht, hi⟩ := List.mem_flatMap.mp hi
    obtain ⟨h1, g, _, e2, e3, h4, h5⟩ := sel_ghost h r t i hr hi
    obtain ⟨_, _, h3⟩ := (mem_sel _ _ _ _).mp hi
    have h3' : (s.w.owners r).getD i 0 = t := h3
    rw [e2, h3'] at he
    cases he
    refine ⟨h1, by omega, g, e3, chosen_newOwner h t g r h4 hr (Ne.symm h5) ⟨_, h1, e3⟩, ?_⟩
    intro ho
    exact h5 (owns_unique s.w t r g h4 ho)
  · rintro ⟨hl, _, g, hg, hno, hnot⟩
    obtain ⟨p, hp⟩ := owns_of_globalOf s.w h.valid r hr l g hg
    have hrp : r ≠ p := fun e => hnot (e ▸ hp)
    obtain ⟨a1, a2, a3⟩ := ghost_pos h r p g hr hp hrp l hl hg
    obtain ⟨b1, b2, b3⟩ := (mem_sel _ _ _ _).mp a2
    have b3' : (s.w.owners r).getD (l - s.w.size r) 0 = p := b3
    refine ⟨l - s.w.size r, (mem_sel_flat (comm1_ok h) r hr _).mpr ⟨b1, b2⟩, ?_⟩
    rw [a3, b3']
    refine Prod.ext (by simp only; omega) ?_
    exact newOwner_unique s.w s.ind g _ _ (chosen_newOwner h p g r hp hr hrp ⟨l, hl, hg⟩) hno

theorem pairs_fst_nodup (h : s.Ok) (r : Nat) (hr : r < s.w.P) : ((s.pairs r).map Prod.fst).Nodup := by
  rw [pairs_eq h r hr, List.map_map]
  refine List.Nodup.map_on ?_ (sel_flat_nodup (comm1_ok h) r hr)
  intro a _ b _ hab
  simp only [Function.comp] at hab
  omega

theorem globalOf_owned (w : World) (hw : w.Valid) (r i g : Nat) (hr : r < w.P) (h : globalOf w r i = some g) :
    Owns w r g ↔ i < w.size r := by
  constructor
  · intro ho
    have : globalOf w r (g - w.r0 r) = some g := by
      unfold globalOf
      rw [if_pos (by have := ho.2; omega)]
      congr 1; have := ho.2; omega
    rw [globalOf_inj w hw r hr i _ g h this]
    have := ho.2; omega
  · intro hi
    unfold globalOf at h
    rw [if_pos hi] at h
    cases h
    exact ⟨hr, by omega, by omega⟩

theorem globalOf_some (w : World) (r i : Nat) (h : i < w.size r + (w.ghosts r).length) : ∃ g, globalOf w r i = some g := by
  unfold globalOf
  split
  · exact ⟨_, rfl⟩
  · exact ⟨_, List.getElem?_eq_getElem (by omega)⟩

/-- C29: the owned indices of the sub-map, in increasing order without repetition, are the listed
indices whose new owner is this rank: indices it owned before, and ghosts whose owner did not list
them when no lower rank listed them. -/
theorem C29_owned (h : s.Ok) (r : Nat) (hr : r < s.w.P) :
    (s.subOwned r).Pairwise (· < ·) ∧
    ∀ i, i ∈ s.subOwned r ↔ i ∈ s.ind r ∧ ∃ g, globalOf s.w r i = some g ∧ NewOwner s.w s.ind g r := by
  have hmem2 : ∀ i, i ∈ ((s.pairs r).filter fun p => decide (p.2 = r)).map Prod.fst ↔ (i, r) ∈ s.pairs r := by
    intro i
    rw [List.mem_map]
    constructor
    · rintro ⟨⟨a, b⟩, hm, rfl⟩
      obtain ⟨h1, h2⟩ := List.mem_filter.mp hm
      simp only [decide_eq_true_eq] at h2
      subst h2; exact h1
    · intro hm
      exact ⟨(i, r), List.mem_filter.mpr ⟨hm, by simp⟩, rfl⟩
  constructor
  · have hnd : (s.subOwned r).Nodup := by
      unfold Input.subOwned
      rw [(sortNat_perm _).nodup_iff, List.nodup_append]
      refine ⟨(nodup_of_strict (h.sorted r hr)).filter _, ?_, ?_⟩
      · exact (List.Sublist.map _ List.filter_sublist).nodup (pairs_fst_nodup h r hr)
      · intro a ha b hb hab
        subst hab
        have := (List.mem_filter.mp ha).2
        simp only [decide_eq_true_eq] at this
        have := ((mem_pairs h r hr _ _).mp ((hmem2 a).mp hb)).2.1
        omega
    have hle := sortNat_sorted ((s.ind r).filter (fun i => decide (i < s.w.size r)) ++
      ((s.pairs r).filter fun p => decide (p.2 = r)).map Prod.fst)
    exact (hle.and hnd).imp (fun hh => lt_of_le_of_ne hh.1 hh.2)
  · intro i
    unfold Input.subOwned
    rw [mem_sortNat, List.mem_append, hmem2, mem_pairs h r hr]
    constructor
    · rintro (hi | ⟨h1, _, g, h2, h3, _⟩)
      · obtain ⟨hi, hlt⟩ := List.mem_filter.mp hi
        simp only [decide_eq_true_eq] at hlt
        obtain ⟨g, hg⟩ := globalOf_some s.w r i (h.range r hr i hi)
        exact ⟨hi, g, hg, r, (globalOf_owned s.w h.valid r i g hr hg).mpr hlt, Or.inl ⟨⟨i, hi, hg⟩, rfl⟩⟩
      · exact ⟨h1, g, h2, h3⟩
    · rintro ⟨hi, g, hg, hno⟩
      by_cases hlt : i < s.w.size r
      · exact Or.inl (List.mem_filter.mpr ⟨hi, by simpa using hlt⟩)
      · refine Or.inr ⟨hi, by omega, g, hg, hno, ?_⟩
        rw [globalOf_owned s.w h.valid r i g hr hg]; exact hlt

theorem map_getD_range {α : Type} (l : List α) (d : α) : (List.range l.length).map (fun k => l.getD k d) = l := by
  apply List.ext_getElem?
  intro k
  rw [List.getElem?_map]
  by_cases hk : k < l.length
  · rw [List.getElem?_range hk]; simp [List.getD_eq_getElem?_getD, hk]
  · rw [List.getElem?_eq_none (by simpa using hk), List.getElem?_eq_none (by simpa using hk)]; rfl

theorem ghost_perm (r : Nat) : (s.ghost r).Perm (s.ghost0 r) := by
  unfold Input.ghost
  split
  · have hp := lexSort_perm ((s.ghost0 r).map Prod.fst).zipIdx
    refine (hp.map (fun p => (s.ghost0 r).getD p.2 (0, 0))).trans ?_
    have : (((s.ghost0 r).map Prod.fst).zipIdx).map (fun p => (s.ghost0 r).getD p.2 (0, 0)) = s.ghost0 r := by
      have h1 : (((s.ghost0 r).map Prod.fst).zipIdx).map (fun p => (s.ghost0 r).getD p.2 (0, 0)) =
          ((((s.ghost0 r).map Prod.fst).zipIdx).map Prod.snd).map (fun k => (s.ghost0 r).getD k (0, 0)) := by
        rw [List.map_map]; rfl
      rw [h1, List.zipIdx_map_snd, List.length_map, List.range'_eq_map_range]
      simp only [Nat.zero_add, List.map_id']
      exact map_getD_range _ _
    rw [this]
  · exact List.Perm.refl _

theorem mem_ghost (h : s.Ok) (r : Nat) (hr : r < s.w.P) (i o : Nat) :
    (i, o) ∈ s.ghost r ↔ i ∈ s.ind r ∧ o ≠ r ∧ ∃ g, globalOf s.w r i = some g ∧ NewOwner s.w s.ind g o := by
  rw [(ghost_perm r).mem_iff]
  unfold Input.ghost0
  rw [List.mem_filter, mem_pairs h r hr]
  simp only [ne_eq, decide_not, Bool.not_eq_true', decide_eq_false_iff_not]
  constructor
  · rintro ⟨⟨h1, _, g, h3, h4, _⟩, h6⟩; exact ⟨h1, h6, g, h3, h4⟩
  · rintro ⟨h1, h6, g, h3, h4⟩
    have hno : ¬ Owns s.w r g := by
      intro ho
      exact h6 (newOwner_unique s.w s.ind g o r h4 ⟨r, ho, Or.inl ⟨⟨i, h1, h3⟩, rfl⟩⟩)
    refine ⟨⟨h1, ?_, g, h3, h4, hno⟩, h6⟩
    rw [globalOf_owned s.w h.valid r i g hr h3] at hno; omega

theorem ghost_fst_nodup (h : s.Ok) (r : Nat) (hr : r < s.w.P) : ((s.ghost r).map Prod.fst).Nodup := by
  rw [((ghost_perm r).map Prod.fst).nodup_iff]
  exact (List.Sublist.map _ List.filter_sublist).nodup (pairs_fst_nodup h r hr)

/-- C29: the ghosts of the sub-map are the other listed indices, each once, with the rank that
owns them in the sub-map; with `preserve` they keep the order of the parent map. -/
theorem C29_ghosts (h : s.Ok) (r : Nat) (hr : r < s.w.P) :
    ((s.ghost r).map Prod.fst).Nodup ∧
    (∀ i o, (i, o) ∈ s.ghost r ↔ i ∈ s.ind r ∧ o ≠ r ∧ ∃ g, globalOf s.w r i = some g ∧ NewOwner s.w s.ind g o) ∧
    (s.preserve = true → ((s.ghost r).map Prod.fst).Pairwise (· < ·)) := by
  refine ⟨ghost_fst_nodup h r hr, mem_ghost h r hr, ?_⟩
  intro hp
  have hnd := ghost_fst_nodup h r hr
  have hle : ((s.ghost r).map Prod.fst).Pairwise (· ≤ ·) := by
    unfold Input.ghost
    rw [if_pos hp, List.map_map]
    have : (lexSort ((s.ghost0 r).map Prod.fst).zipIdx).map (Prod.fst ∘ fun p => (s.ghost0 r).getD p.2 (0, 0)) =
        (lexSort ((s.ghost0 r).map Prod.fst).zipIdx).map Prod.fst := by
      apply List.map_congr_left
      rintro ⟨a, k⟩ hm
      rw [mem_lexSort, List.mem_zipIdx_iff_getElem?, List.getElem?_map] at hm
      simp only [Function.comp, List.getD_eq_getElem?_getD]
      cases he : (s.ghost0 r)[k]? with
      | none => rw [he] at hm; simp at hm
      | some x => rw [he] at hm; simpa using hm
    rw [this, List.pairwise_map]
    exact lexSort_fst _
  exact (hle.and hnd).imp (fun hh => lt_of_le_of_ne hh.1 hh.2)

/-- C29: `sub_imap_to_imap` lists every given index exactly once. -/
theorem C29_indices (h : s.Ok) (r : Nat) (hr : r < s.w.P) : (s.toParent r).Perm (s.ind r) := by
  have ho := C29_owned h r hr
  refine (List.perm_ext_iff_of_nodup ?_ (nodup_of_strict (h.sorted r hr))).mpr ?_
  · unfold Input.toParent
    rw [List.nodup_append]
    refine ⟨nodup_of_strict ho.1, ghost_fst_nodup h r hr, ?_⟩
    intro a ha b hb hab
    subst hab
    obtain ⟨⟨a', o⟩, hm, rfl⟩ := List.mem_map.mp hb
    obtain ⟨_, g, h1, h2⟩ := (ho.2 _).mp ha
    obtain ⟨_, h3, g', h4, h5⟩ := (mem_ghost h r hr _ _).mp hm
    simp only at h1
    rw [h1] at h4
    cases h4
    exact h3 (newOwner_unique s.w s.ind g _ _ h5 h2)
  · intro i
    unfold Input.toParent
    rw [List.mem_append, ho.2 i]
    constructor
    · rintro (⟨hi, _⟩ | hm)
      · exact hi
      · obtain ⟨⟨a', o⟩, hm', rfl⟩ := List.mem_map.mp hm
        exact ((mem_ghost h r hr _ _).mp hm').1
    · intro hi
      obtain ⟨g, hg⟩ := globalOf_some s.w r i (h.range r hr i hi)
      obtain ⟨o, hno⟩ := newOwner_exists s.w h.valid s.ind r g hr ⟨i, hi, hg⟩
      by_cases hor : o = r
      · subst hor; exact Or.inl ⟨hi, g, hg, hno⟩
      · exact Or.inr (List.mem_map.mpr ⟨(i, o), (mem_ghost h r hr i o).mpr ⟨hi, hor, g, hg, hno⟩, rfl⟩)

theorem mem_subSrc (h : s.Ok) (r : Nat) (hr : r < s.w.P) (o : Nat) :
    o ∈ s.subSrc r ↔ o ≠ r ∧ ∃ g, Chooses s.w s.ind r g ∧ NewOwner s.w s.ind g o := by
  unfold Input.subSrc
  rw [mem_unique_sortNat, ← ((ghost_perm r).map Prod.snd).mem_iff, List.mem_map]
  constructor
  · rintro ⟨⟨i, o'⟩, hm, rfl⟩
    obtain ⟨h1, h2, g, h3, h4⟩ := (mem_ghost h r hr _ _).mp hm
    exact ⟨h2, g, ⟨i, h1, h3⟩, h4⟩
  · rintro ⟨h2, g, ⟨i, h1, h3⟩, h4⟩
    exact ⟨(i, o), (mem_ghost h r hr i o).mpr ⟨h1, h2, g, h3, h4⟩, rfl⟩

theorem mem_keptDest (h : s.Ok) (r : Nat) (hr : r < s.w.P) (q : Nat) :
    q ∈ s.keptDest r ↔ q < s.w.P ∧ q ≠ r ∧ ∃ g, Owns s.w r g ∧ Chooses s.w s.ind r g ∧ Chooses s.w s.ind q g := by
  unfold Input.keptDest
  rw [blocks_eq h r hr, List.flatMap_map, List.mem_flatMap]
  constructor
  · rintro ⟨q', hq', hm⟩
    obtain ⟨g, hg, rfl⟩ := List.mem_map.mp hm
    obtain ⟨hg, hk⟩ := List.mem_filter.mp hg
    have hqP := ((mem_dest s.w r q').mp hq').1
    obtain ⟨h1, h2, h3⟩ := (mem_blk h q' r g hqP).mp hg
    exact ⟨hqP, h3, g, h1, (keeps_iff r g h1 h).mp hk, h2⟩
  · rintro ⟨hqP, hqr, g, ho, hcr, hcq⟩
    have hb := (mem_blk h q r g hqP).mpr ⟨ho, hcq, hqr⟩
    refine ⟨q, ?_, List.mem_map.mpr ⟨g, List.mem_filter.mpr ⟨hb, (keeps_iff r g ho h).mpr hcr⟩, rfl⟩⟩
    have hm := (mem_poss0 h r g _ hr).mpr ⟨ho, q, hqP, hqr, hcq, rfl⟩
    obtain ⟨i, hi, _⟩ := List.mem_map.mp hb
    obtain ⟨a1, a2, a3⟩ := (mem_sel _ _ _ _).mp hi
    refine (mem_dest s.w r q).mpr ⟨hqP, ?_⟩
    have := (comm1_ok h).owner q hqP i a1 a2
    rw [a3] at this
    exact this

theorem recvDest_eq (h : s.Ok) (r : Nat) (hr : r < s.w.P) :
    neighborAlltoallv s.w.dest s.w.src
      (fun q => chunks ((s.newOwnerDest q).map List.length) (s.newOwnerDest q).flatten) r =
    (s.w.src r).flatMap fun t => unique (sortNat ((s.blk r t).flatMap fun g => if s.chosen t g = r then s.others t g else [])) := by
  rw [neighborAlltoallv_eq _ _ _ (fun t q => unique (sortNat ((s.blk q t).flatMap fun g => if s.chosen t g = q then s.others t g else [])))]
  · intro t ht
    have htP := (comm1_ok h).srcP r hr t ht
    have : s.newOwnerDest t = (s.w.dest t).map fun q =>
        unique (sortNat ((s.blk q t).flatMap fun g => if s.chosen t g = q then s.others t g else [])) := by
      unfold Input.newOwnerDest
      rw [blocks_eq h t htP, List.map_map]; rfl
    rw [this, ← List.flatMap_def, chunks_flatMap]
    rw [List.map_map]; rfl
  · intro t ht
    exact (mem_dest s.w t r).mpr ⟨hr, ht⟩

theorem mem_subDest (h : s.Ok) (r : Nat) (hr : r < s.w.P) (q : Nat) :
    q ∈ s.subDest r ↔ q < s.w.P ∧ r ∈ s.subSrc q := by
  unfold Input.subDest
  rw [mem_unique_sortNat, recvDest_eq h r hr, List.mem_append, mem_keptDest h r hr, List.mem_flatMap]
  constructor
  · rintro (⟨h1, h2, g, h3, h4, h5⟩ | ⟨t, ht, hm⟩)
    · exact ⟨h1, (mem_subSrc h q h1 r).mpr ⟨Ne.symm h2, g, h5, r, h3, Or.inl ⟨h4, rfl⟩⟩⟩
    · rw [mem_unique_sortNat, List.mem_flatMap] at hm
      obtain ⟨g, hg, hm⟩ := hm
      obtain ⟨h1, h2, h3⟩ := (mem_blk h r t g hr).mp hg
      by_cases hch : s.chosen t g = r
      · rw [if_pos hch] at hm
        obtain ⟨b1, b2, b3⟩ := (mem_others h t g r q h1 hr h3 h2 hch).mp hm
        refine ⟨b1, (mem_subSrc h q b1 r).mpr ⟨Ne.symm b3, g, b2, ?_⟩⟩
        have := chosen_newOwner h t g r h1 hr h3 h2
        rwa [hch] at this
      · rw [if_neg hch] at hm; simp at hm
  · rintro ⟨hq, hs⟩
    obtain ⟨hrq, g, hcq, hno⟩ := (mem_subSrc h q hq r).mp hs
    obtain ⟨hrP, hcr⟩ := newOwner_chooses _ _ _ _ hno
    obtain ⟨p, hp, _⟩ := id hno
    by_cases hpr : r = p
    · subst hpr
      exact Or.inl ⟨hq, Ne.symm hrq, g, hp, hcr, hcq⟩
    · right
      have hb := (mem_blk h r p g hr).mpr ⟨hp, hcr, hpr⟩
      refine ⟨p, ?_, ?_⟩
      · obtain ⟨i, hi, _⟩ := List.mem_map.mp hb
        obtain ⟨a1, a2, a3⟩ := (mem_sel _ _ _ _).mp hi
        have := (comm1_ok h).owner r hr i a1 a2
        rw [a3] at this
        exact this
      · have hch : s.chosen p g = r := newOwner_unique _ _ _ _ _ (chosen_newOwner h p g r hp hr hpr hcr) hno
        rw [mem_unique_sortNat, List.mem_flatMap]
        refine ⟨g, hb, ?_⟩
        rw [if_pos hch]
        exact (mem_others h p g r q hp hr hpr hcr hch).mpr ⟨hq, hcq, Ne.symm hrq⟩

theorem ghost_at (h : s.Ok) (r : Nat) (hr : r < s.w.P) (k i o : Nat) (hk : (s.ghost r)[k]? = some (i, o)) :
    ∃ g, globalOf s.w r i = some g ∧ NewOwner s.w s.ind g o ∧ o ≠ r ∧ i ∈ s.ind r ∧ (s.ghostGlobal r)[k]? = some g := by
  obtain ⟨h1, h2, g, h3, h4⟩ := (mem_ghost h r hr i o).mp (List.mem_of_getElem? hk)
  refine ⟨g, h3, h4, h2, h1, ?_⟩
  unfold Input.ghostGlobal
  rw [List.getElem?_map, hk, Option.map_some, localToGlobal_map, h3]; rfl

theorem ghost_getD (r k : Nat) (hk : k < (s.ghostGlobal r).length) : ∃ i o, (s.ghost r)[k]? = some (i, o) := by
  have : k < (s.ghost r).length := by simpa [Input.ghostGlobal] using hk
  exact ⟨_, _, List.getElem?_eq_getElem this⟩

theorem comm2_ok (h : s.Ok) : CommOk s.comm2 s.w.P where
  srcSorted := fun r _ => unique_sortNat_sorted _
  owner := by
    intro r hr k hk _
    obtain ⟨i, o, he⟩ := ghost_getD r k hk
    obtain ⟨g, h1, h2, h3, h4, _⟩ := ghost_at h r hr k i o he
    change ((s.ghost r).map Prod.snd).getD k 0 ∈ s.subSrc r
    rw [List.getD_eq_getElem?_getD, List.getElem?_map, he]
    exact (mem_subSrc h r hr o).mpr ⟨h3, g, ⟨i, h4, h1⟩, h2⟩
  srcP := by
    intro r hr q hq
    obtain ⟨_, g, _, h3⟩ := (mem_subSrc h r hr q).mp hq
    exact (newOwner_chooses _ _ _ _ h3).1
  dest := fun r hr q => mem_subDest h r hr q

/-- Number given by the new owner. -/
theorem newNumber_eq (h : s.Ok) (o g : Nat) (hno : NewOwner s.w s.ind g o) :
    ∃ p i, (s.subOwned o)[p]? = some i ∧ globalOf s.w o i = some g ∧ s.newNumber o g = s.offset o + p := by
  obtain ⟨hoP, i, hi, hg⟩ := newOwner_chooses _ _ _ _ hno
  have ho := C29_owned h o hoP
  have hmem : i ∈ s.subOwned o := (ho.2 i).mpr ⟨hi, g, hg, hno⟩
  refine ⟨(s.subOwned o).idxOf i, i, ?_, hg, ?_⟩
  · rw [List.getElem?_eq_getElem (List.idxOf_lt_length_iff.mpr hmem), List.getElem_idxOf]
  · unfold Input.newNumber
    rw [globalToLocal_of s.w h.valid o hoP i g hg, lowerBound_idxOf _ ho.1 i hmem, Nat.add_comm]

theorem ghostIdx_get (h : s.Ok) (r : Nat) (hr : r < s.w.P) (k i o g : Nat) (hk : (s.ghost r)[k]? = some (i, o))
    (hg : globalOf s.w r i = some g) : (s.sub.ghosts r)[k]? = some (s.newNumber o g) := by
  obtain ⟨g', e1, _, _, _, e5⟩ := ghost_at h r hr k i o hk
  rw [hg] at e1; cases e1
  have hkl : k < (s.ghost r).length := (List.getElem?_eq_some_iff.mp hk).1
  change ((s.ghostIdx r).map fun x => x.getD 0)[k]? = _
  have hzip : (s.comm2.bufferPos r).zip (s.comm2.reply s.newNumber r) =
      ((s.subSrc r).flatMap fun t => s.comm2.sel r t).map fun j =>
        (j, s.newNumber (((s.ghost r).map Prod.snd).getD j 0) ((s.ghostGlobal r).getD j 0)) := by
    rw [bufferPos_eq (comm2_ok h) r hr, reply_eq (comm2_ok h) _ r hr, zip_flatMap, List.map_flatMap]
    · apply List.flatMap_congr
      intro t _
      have hz := zip_map_same (s.comm2.sel r t) (fun i => i) (fun i => s.newNumber t ((s.comm2.ghosts r).getD i 0))
      rw [List.map_id'] at hz
      rw [hz]
      apply List.map_congr_left
      intro j hj
      obtain ⟨_, _, h3⟩ := (mem_sel _ _ _ _).mp hj
      have h3' : ((s.ghost r).map Prod.snd).getD j 0 = t := h3
      rw [h3']; rfl
    · intro t _; simp
  have hval : ((s.ghost r).map Prod.snd).getD k 0 = o ∧ (s.ghostGlobal r).getD k 0 = g := by
    rw [List.getD_eq_getElem?_getD, List.getD_eq_getElem?_getD, e5, List.getElem?_map, hk]; exact ⟨rfl, rfl⟩
  unfold Input.ghostIdx
  rw [hzip, List.getElem?_map, ArrayFold.set_written _ _ k (s.newNumber o g)]
  · rfl
  · simpa using hkl
  · refine List.mem_map.mpr ⟨k, (mem_sel_flat (comm2_ok h) r hr k).mpr ⟨?_, rfl⟩, ?_⟩
    · change k < (s.ghostGlobal r).length
      simpa [Input.ghostGlobal] using hkl
    · rw [hval.1, hval.2]
  · intro b' hb'
    obtain ⟨j, _, he⟩ := List.mem_map.mp hb'
    obtain ⟨he1, he2⟩ := Prod.ext_iff.mp he
    simp only at he1 he2
    rw [he1, hval.1, hval.2] at he2
    exact he2.symm

theorem sub_ghosts_length (r : Nat) : (s.sub.ghosts r).length = (s.ghost r).length := by
  change ((s.ghostIdx r).map fun x => x.getD 0).length = _
  rw [List.length_map]
  unfold Input.ghostIdx
  rw [ArrayFold.set_length]; simp

/-- The sub-map number and the parent number of a local index of the sub-map. -/
theorem sub_number (h : s.Ok) (r : Nat) (hr : r < s.w.P) (k i : Nat) (hk : (s.toParent r)[k]? = some i) :
    ∃ g o p j, globalOf s.w r i = some g ∧ NewOwner s.w s.ind g o ∧ (s.subOwned o)[p]? = some j ∧ globalOf s.w o j = some g ∧
      globalOf s.sub r k = some (s.sub.r0 o + p) ∧ (k < (s.subOwned r).length ↔ o = r) := by
  unfold Input.toParent at hk
  by_cases hlt : k < (s.subOwned r).length
  · rw [List.getElem?_append_left hlt] at hk
    obtain ⟨_, g, h1, h2⟩ := ((C29_owned h r hr).2 i).mp (List.mem_of_getElem? hk)
    refine ⟨g, r, k, i, h1, h2, hk, h1, ?_, by simp [hlt]⟩
    unfold globalOf
    rw [if_pos (by exact hlt)]
  · rw [List.getElem?_append_right (by omega), List.getElem?_map] at hk
    cases he : (s.ghost r)[k - (s.subOwned r).length]? with
    | none => rw [he] at hk; simp at hk
    | some x =>
      obtain ⟨i', o⟩ := x
      rw [he] at hk
      simp only [Option.map_some, Option.some.injEq] at hk
      subst hk
      obtain ⟨g, h1, h2, h3, _, _⟩ := ghost_at h r hr _ i' o he
      obtain ⟨p, j, a1, a2, a3⟩ := newNumber_eq h o g h2
      refine ⟨g, o, p, j, h1, h2, a1, a2, ?_, ?_⟩
      · unfold globalOf
        rw [if_neg (by exact hlt)]
        have := ghostIdx_get h r hr _ i' o g he h1
        rw [a3] at this
        exact this
      · constructor
        · intro hh; exact absurd hh hlt
        · intro hh; exact absurd hh h3

/-- C29: the result is a valid index map. -/
theorem C29_valid (h : s.Ok) : s.sub.Valid := by
  have hlen : ∀ r, (s.sub.owners r).length = (s.ghost r).length := fun r => by
    change ((s.ghost r).map Prod.snd).length = _; simp
  have key : ∀ r, r < s.w.P → ∀ (k q g' : Nat), (s.sub.owners r)[k]? = some q → (s.sub.ghosts r)[k]? = some g' →
      ∃ i g p j, (s.ghost r)[k]? = some (i, q) ∧ globalOf s.w r i = some g ∧ NewOwner s.w s.ind g q ∧ q ≠ r ∧
        (s.subOwned q)[p]? = some j ∧ globalOf s.w q j = some g ∧ g' = s.sub.r0 q + p := by
    intro r hr k q g' hq hg
    have hkl : k < (s.ghost r).length := by rw [← hlen]; exact (List.getElem?_eq_some_iff.mp hq).1
    obtain ⟨i, o, he⟩ : ∃ i o, (s.ghost r)[k]? = some (i, o) := ⟨_, _, List.getElem?_eq_getElem hkl⟩
    have hoq : o = q := by
      have : (s.sub.owners r)[k]? = some o := by
        change ((s.ghost r).map Prod.snd)[k]? = _
        rw [List.getElem?_map, he]; rfl
      rw [this] at hq; exact Option.some.inj hq
    subst hoq
    obtain ⟨g, h1, h2, h3, _, _⟩ := ghost_at h r hr k i o he
    obtain ⟨p, j, a1, a2, a3⟩ := newNumber_eq h o g h2
    rw [ghostIdx_get h r hr k i o g he h1, a3] at hg
    exact ⟨i, g, p, j, he, h1, h2, h3, a1, a2, (Option.some.inj hg).symm⟩
  constructor
  · intro r hr
    rw [hlen, sub_ghosts_length]
  · intro r hr
    rw [List.nodup_iff_injective_getElem]
    rintro ⟨a, ha⟩ ⟨b, hb⟩ hab
    simp only at hab
    have hag : a < (s.sub.owners r).length := by rw [hlen, ← sub_ghosts_length]; exact ha
    have hbg : b < (s.sub.owners r).length := by rw [hlen, ← sub_ghosts_length]; exact hb
    obtain ⟨i, g, p, j, c1, c2, c3, c4, c5, c6, c7⟩ := key r hr a _ _ (List.getElem?_eq_getElem hag) (List.getElem?_eq_getElem ha)
    obtain ⟨i', g', p', j', d1, d2, d3, d4, d5, d6, d7⟩ := key r hr b _ _ (List.getElem?_eq_getElem hbg) (List.getElem?_eq_getElem hb)
    rw [c7, d7] at hab
    have hp := (List.getElem?_eq_some_iff.mp c5).1
    have hp' := (List.getElem?_eq_some_iff.mp d5).1
    obtain ⟨e1, e2⟩ := excl_inj s.sub.size hp hp' hab
    subst e2
    rw [e1, d5] at c5
    cases c5
    rw [e1, d6] at c6
    cases c6
    have hii := globalOf_inj s.w h.valid r hr i i' g c2 d2
    subst hii
    have hf := ghost_fst_nodup h r hr
    have hal : a < ((s.ghost r).map Prod.fst).length := by rw [List.length_map, ← sub_ghosts_length]; exact ha
    have hbl : b < ((s.ghost r).map Prod.fst).length := by rw [List.length_map, ← sub_ghosts_length]; exact hb
    have : ((s.ghost r).map Prod.fst)[a] = ((s.ghost r).map Prod.fst)[b] := by
      have x1 : ((s.ghost r).map Prod.fst)[a]? = some i := by rw [List.getElem?_map, c1]; rfl
      have x2 : ((s.ghost r).map Prod.fst)[b]? = some i := by rw [List.getElem?_map, d1]; rfl
      rw [List.getElem?_eq_getElem hal] at x1
      rw [List.getElem?_eq_getElem hbl] at x2
      rw [Option.some.inj x1, Option.some.inj x2]
    exact Fin.ext ((List.Nodup.getElem_inj_iff hf).mp this)
  · intro r hr k q g' hq hg
    obtain ⟨i, g, p, j, c1, c2, c3, c4, c5, c6, c7⟩ := key r hr k q g' hq hg
    have hp := (List.getElem?_eq_some_iff.mp c5).1
    refine ⟨(newOwner_chooses _ _ _ _ c3).1, c4, by omega, ?_⟩
    have : s.sub.size q = (s.subOwned q).length := rfl
    omega

/-- C29: the source and destination ranks handed to the new index map are the exact neighbours. -/
theorem C29_neighbours (h : s.Ok) (r : Nat) (hr : r < s.w.P) : s.subSrc r = s.sub.src r ∧ s.subDest r = s.sub.dest r := by
  have hsrc : ∀ q, q < s.w.P → s.subSrc q = s.sub.src q := by
    intro q hq
    refine strict_ext _ _ (unique_sortNat_sorted _) (src_sorted _ _) ?_
    intro x
    rw [mem_src]
    unfold Input.subSrc
    rw [mem_unique_sortNat, ← ((ghost_perm q).map Prod.snd).mem_iff]
    rfl
  refine ⟨hsrc r hr, strict_ext _ _ (unique_sortNat_sorted _) (dest_strict _ _) ?_⟩
  intro q
  rw [mem_subDest h r hr, mem_dest]
  constructor
  · rintro ⟨h1, h2⟩; exact ⟨h1, by rw [← hsrc q h1]; exact h2⟩
  · rintro ⟨h1, h2⟩; exact ⟨h1, by rw [hsrc q h1]; exact h2⟩

/-- C29: two local indices of the sub-map, on any ranks, have the same sub-map global number
exactly when the parent indices they stand for have the same parent global number. -/
theorem C29_same_index (h : s.Ok) (r r' k k' i i' : Nat) (hr : r < s.w.P) (hr' : r' < s.w.P)
    (hk : (s.toParent r)[k]? = some i) (hk' : (s.toParent r')[k']? = some i') :
    globalOf s.sub r k = globalOf s.sub r' k' ↔ globalOf s.w r i = globalOf s.w r' i' := by
  obtain ⟨g, o, p, j, c1, c2, c3, c4, c5, _⟩ := sub_number h r hr k i hk
  obtain ⟨g', o', p', j', d1, d2, d3, d4, d5, _⟩ := sub_number h r' hr' k' i' hk'
  rw [c1, c5, d1, d5, Option.some.injEq, Option.some.injEq]
  have hp := (List.getElem?_eq_some_iff.mp c3).1
  have hp' := (List.getElem?_eq_some_iff.mp d3).1
  constructor
  · intro he
    obtain ⟨e1, e2⟩ := excl_inj s.sub.size hp hp' he
    subst e1 e2
    rw [d3] at c3
    cases c3
    rw [d4] at c4
    exact (Option.some.inj c4).symm
  · intro he
    subst he
    have e1 := newOwner_unique _ _ _ _ _ c2 d2
    subst e1
    have hj := globalOf_inj s.w h.valid o (newOwner_chooses _ _ _ _ c2).1 j j' g c4 d4
    subst hj
    have := (List.getElem?_inj hp (nodup_of_strict (C29_owned h o (newOwner_chooses _ _ _ _ c2).1).1)).mp (c3.trans d3.symm)
    rw [this]

/-- C29: every global index listed by some rank is owned by exactly one rank of the sub-map. -/
theorem C29_one_owner (h : s.Ok) (q g : Nat) (hq : q < s.w.P) (hc : Chooses s.w s.ind q g) :
    ∃! o, o < s.w.P ∧ ∃ i ∈ s.subOwned o, globalOf s.w o i = some g := by
  obtain ⟨o, hno⟩ := newOwner_exists s.w h.valid s.ind q g hq hc
  obtain ⟨hoP, i, hi, hg⟩ := newOwner_chooses _ _ _ _ hno
  refine ⟨o, ⟨hoP, i, ((C29_owned h o hoP).2 i).mpr ⟨hi, g, hg, hno⟩, hg⟩, ?_⟩
  rintro o' ⟨hoP', i', hi', hg'⟩
  obtain ⟨_, g', h1, h2⟩ := ((C29_owned h o' hoP').2 i').mp hi'
  rw [hg'] at h1
  cases h1
  exact newOwner_unique _ _ _ _ _ h2 hno

/-- C29: with owner changes disallowed, exactly the ranks owning an index that another rank lists
and they do not list throw. -/
theorem C29_throws (h : s.Ok) (r : Nat) (hr : r < s.w.P) :
    s.throws r = true ↔ ∃ g q, Owns s.w r g ∧ ¬ Chooses s.w s.ind r g ∧ q < s.w.P ∧ Chooses s.w s.ind q g := by
  unfold Input.throws
  rw [recvBlocks_eq (comm1_ok h) r hr, List.any_eq_true]
  constructor
  · rintro ⟨b, hb, hany⟩
    obtain ⟨q, hq, rfl⟩ := List.mem_map.mp hb
    obtain ⟨g, hg, hk⟩ := List.any_eq_true.mp hany
    have hqP := ((mem_dest s.w r q).mp hq).1
    obtain ⟨h1, h2, h3⟩ := (mem_blk h q r g hqP).mp hg
    refine ⟨g, q, h1, ?_, hqP, h2⟩
    rw [← keeps_iff r g h1 h]
    simpa using hk
  · rintro ⟨g, q, ho, hnc, hqP, hcq⟩
    have hqr : q ≠ r := fun e => hnc (e ▸ hcq)
    have hb := (mem_blk h q r g hqP).mpr ⟨ho, hcq, hqr⟩
    refine ⟨s.blk q r, List.mem_map.mpr ⟨q, ?_, rfl⟩, List.any_eq_true.mpr ⟨g, hb, ?_⟩⟩
    · obtain ⟨i, hi, _⟩ := List.mem_map.mp hb
      obtain ⟨a1, a2, a3⟩ := (mem_sel _ _ _ _).mp hi
      refine (mem_dest s.w r q).mpr ⟨hqP, ?_⟩
      have := (comm1_ok h).owner q hqP i a1 a2
      rw [a3] at this
      exact this
    · have : s.keeps r g ≠ true := fun hh => hnc ((keeps_iff r g ho h).mp hh)
      simpa using this

/-- Index 2 is listed by ranks 0 and 2 but not by its owner 1; 0 is listed by 2 and its owner. -/
def subEx : Input where
  w := exWorld
  ind := fun r => [[0, 3], [], [0, 2, 3]].getD r []
  preserve := true

example : subEx.Ok := ⟨exWorld_valid, by decide, by decide⟩
example : subEx.subOwned 0 = [0, 3] ∧ subEx.subOwned 2 = [0] ∧ subEx.ghost 2 = [(2, 0), (3, 0)] ∧
    subEx.sub.ghosts 2 = [0, 1] ∧ subEx.subDest 0 = [2] ∧ subEx.throws 1 = true ∧ subEx.throws 0 = false := by decide +kernel

end Verif.Props
