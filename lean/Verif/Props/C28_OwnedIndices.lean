import Verif.Lemmas.LexSend
import Verif.Props.C10_C11_Scatter
import Verif.Props.C09_DistributeData
/-!
# C28: `compute_owned_indices`, and C31 (first part): `shared_indices`
-/
namespace Verif.Props
open Verif.World Verif.Shared Verif.Exchange Verif.Std Verif.Group

/-- Global index of local index `i` of rank `q`: owned indices first, then ghosts. -/
def LocalGlobal (w : World) (q i g : Nat) : Prop :=
  (i < w.size q ∧ g = w.r0 q + i) ∨ (w.size q ≤ i ∧ (w.ghosts q)[i - w.size q]? = some g)

theorem mem_ownerToGlobal (w : World) (ind : Nat → List Nat) (q : Nat) (hs : (ind q).Pairwise (· ≤ ·))
    (x : Nat × Nat) : x ∈ ownerToGlobal w ind q ↔ ∃ i ∈ ind q, w.size q ≤ i ∧
      x = ((w.owners q).getD (i - w.size q) 0, (w.ghosts q).getD (i - w.size q) 0) := by
  obtain ⟨hle, hlo, hhi⟩ := lowerBound_spec _ (ind q) (partitioned_of_sorted (fun i : Nat => i) (ind q) hs (w.size q))
  unfold ownerToGlobal
  rw [mem_lexSort, List.mem_map]
  constructor
  · rintro ⟨i, hi, rfl⟩
    obtain ⟨k, hk, rfl⟩ := List.getElem_of_mem hi
    rw [List.getElem_drop]
    have := hhi (ownedEnd w ind q + k) (by simp at hk; omega) (by unfold ownedEnd; omega)
    simp only [decide_eq_false_iff_not] at this
    exact ⟨_, List.getElem_mem _, by omega, rfl⟩
  · rintro ⟨i, hi, hsz, rfl⟩
    refine ⟨i, ?_, rfl⟩
    obtain ⟨k, hk, rfl⟩ := List.getElem_of_mem hi
    have hge : ownedEnd w ind q ≤ k := by
      by_contra hc
      have := hlo k hk (by unfold ownedEnd at hc; omega)
      simp only [decide_eq_true_eq] at this
      omega
    rw [List.mem_drop_iff_getElem]
    exact ⟨k - ownedEnd w ind q, by omega, by congr 1; omega⟩

theorem mem_take_owned (w : World) (ind : Nat → List Nat) (q : Nat) (hs : (ind q).Pairwise (· ≤ ·)) (i : Nat) :
    i ∈ (ind q).take (ownedEnd w ind q) ↔ i ∈ ind q ∧ i < w.size q := by
  obtain ⟨hle, hlo, hhi⟩ := lowerBound_spec _ (ind q) (partitioned_of_sorted (fun i : Nat => i) (ind q) hs (w.size q))
  rw [List.mem_take_iff_getElem]
  constructor
  · rintro ⟨k, hk, rfl⟩
    have := hlo k (by omega) (by unfold ownedEnd at hk; omega)
    simp only [decide_eq_true_eq] at this
    exact ⟨List.getElem_mem _, this⟩
  · rintro ⟨hi, hsz⟩
    obtain ⟨k, hk, rfl⟩ := List.getElem_of_mem hi
    refine ⟨k, ?_, rfl⟩
    by_contra hc
    have := hhi k hk (by unfold ownedEnd at hc; omega)
    simp only [decide_eq_false_iff_not] at this
    omega

theorem owner_of_getD (w : World) (hw : w.Valid) (q : Nat) (hq : q < w.P) (i : Nat) (h1 : w.size q ≤ i)
    (h2 : i < w.size q + (w.ghosts q).length) :
    ∃ o g, (w.owners q)[i - w.size q]? = some o ∧ (w.ghosts q)[i - w.size q]? = some g ∧
      (w.owners q).getD (i - w.size q) 0 = o ∧ (w.ghosts q).getD (i - w.size q) 0 = g ∧
      o < w.P ∧ o ≠ q ∧ w.r0 o ≤ g ∧ g < w.r0 o + w.size o := by
  have hkg : i - w.size q < (w.ghosts q).length := by omega
  have hko : i - w.size q < (w.owners q).length := by rw [hw.len q hq]; exact hkg
  have e1 := List.getElem?_eq_getElem hko
  have e2 := List.getElem?_eq_getElem hkg
  obtain ⟨h3, h4, h5, h6⟩ := hw.owner q hq _ _ _ e1 e2
  exact ⟨_, _, e1, e2, by simp [List.getD_eq_getElem?_getD, e1], by simp [List.getD_eq_getElem?_getD, e2], h3, h4, h5, h6⟩

theorem ownedRecv_eq (w : World) (hw : w.Valid) (ind : Nat → List Nat) (hs : ∀ q, q < w.P → (ind q).Pairwise (· ≤ ·))
    (hr : ∀ q, q < w.P → ∀ i ∈ ind q, i < w.size q + (w.ghosts q).length) (r : Nat) :
    ownedRecv w ind r = (w.dest r).flatMap fun q => (grp Prod.fst (ownerToGlobal w ind q) r).map Prod.snd := by
  unfold ownedRecv
  rw [neighborAlltoallv_eq _ _ _ (fun q r => (grp Prod.fst (ownerToGlobal w ind q) r).map Prod.snd)]
  · intro q hq
    obtain ⟨hqP, _⟩ := (Scatterer.mem_dest w r q).mp hq
    have hg : ownerToGlobal w ind q = (w.src q).flatMap (grp Prod.fst (ownerToGlobal w ind q)) := by
      apply sorted_eq_groups _ (lexSort_fst _) _ (Scatterer.src_sorted w q)
      intro x hx
      obtain ⟨i, hi, hsz, rfl⟩ := (mem_ownerToGlobal w ind q (hs q hqP) x).mp hx
      obtain ⟨o, g, h1, h2, h3, h4, _⟩ := owner_of_getD w hw q hqP i hsz (hr q hqP i hi)
      rw [h3, Scatterer.mem_src]
      exact List.mem_of_getElem? h1
    have h1 : sizesLoop (w.src q) (ownerToGlobal w ind q) =
        (w.src q).map fun d => (grp Prod.fst (ownerToGlobal w ind q) d).length := by
      conv_lhs => rw [hg]
      exact sizesLoop_groups _ (Scatterer.src_sorted w q) _ (fun d _ x hx => ((mem_grp _ _ _ _).mp hx).2)
    have h2 : (ownerToGlobal w ind q).map Prod.snd =
        (w.src q).flatMap fun d => (grp Prod.fst (ownerToGlobal w ind q) d).map Prod.snd := by
      conv_lhs => rw [hg]
      rw [List.map_flatMap]
    rw [h1, h2, chunks_flatMap]
    simp
  · intro q hq; exact ((Scatterer.mem_dest w r q).mp hq).2

/-- C28: when every rank marks a sorted list of local indices, rank `r` gets, sorted and once each,
exactly its owned indices whose global index was marked by some rank; no assertion fails. -/
theorem C28_owned_indices (w : World) (hw : w.Valid) (ind : Nat → List Nat)
    (hs : ∀ q, q < w.P → (ind q).Pairwise (· ≤ ·))
    (hr : ∀ q, q < w.P → ∀ i ∈ ind q, i < w.size q + (w.ghosts q).length) (r : Nat) (hrP : r < w.P) :
    ∃ out, computeOwned w ind r = some out ∧ out.Pairwise (· < ·) ∧
      ∀ n, n ∈ out ↔ n < w.size r ∧ ∃ q, q < w.P ∧ ∃ i ∈ ind q, LocalGlobal w q i (w.r0 r + n) := by
  have hmem : ∀ g, g ∈ ownedRecv w ind r ↔ ∃ q, q < w.P ∧ ∃ i ∈ ind q, w.size q ≤ i ∧
      (w.owners q)[i - w.size q]? = some r ∧ (w.ghosts q)[i - w.size q]? = some g := by
    intro g
    rw [ownedRecv_eq w hw ind hs hr, List.mem_flatMap]
    constructor
    · rintro ⟨q, hq, hg⟩
      have hqP := ((Scatterer.mem_dest w r q).mp hq).1
      obtain ⟨x, hx, rfl⟩ := List.mem_map.mp hg
      obtain ⟨hx1, hx2⟩ := (mem_grp _ _ _ _).mp hx
      obtain ⟨i, hi, hsz, rfl⟩ := (mem_ownerToGlobal w ind q (hs q hqP) x).mp hx1
      obtain ⟨o, g, h1, h2, h3, h4, _⟩ := owner_of_getD w hw q hqP i hsz (hr q hqP i hi)
      refine ⟨q, hqP, i, hi, hsz, ?_, ?_⟩
      · simp only [h3] at hx2; rw [h1, hx2]
      · simp only [h4]; exact h2
    · rintro ⟨q, hqP, i, hi, hsz, h1, h2⟩
      refine ⟨q, (Scatterer.mem_dest w r q).mpr ⟨hqP, (Scatterer.mem_src w q r).mpr (List.mem_of_getElem? h1)⟩, ?_⟩
      refine List.mem_map.mpr ⟨(r, g), (mem_grp _ _ _ _).mpr ⟨?_, rfl⟩, rfl⟩
      rw [mem_ownerToGlobal w ind q (hs q hqP)]
      exact ⟨i, hi, hsz, by simp [List.getD_eq_getElem?_getD, h1, h2]⟩
  have hloc : ∀ g ∈ unique (sortNat (ownedRecv w ind r)), toLocal w r g = some (g - w.r0 r) := by
    intro g hg
    rw [mem_unique_sortNat, hmem] at hg
    obtain ⟨q, hqP, i, hi, hsz, h1, h2⟩ := hg
    obtain ⟨_, _, h3, h4⟩ := hw.owner q hqP _ _ _ h1 h2
    unfold toLocal
    rw [if_pos ⟨h3, h4⟩]
  unfold computeOwned
  rw [mapM_some _ _ (fun g => g - w.r0 r) hloc]
  refine ⟨_, rfl, unique_sortNat_sorted _, ?_⟩
  intro n
  rw [mem_unique_sortNat, List.mem_append, mem_take_owned w ind r (hs r hrP)]
  constructor
  · rintro (⟨h1, h2⟩ | h)
    · exact ⟨h2, r, hrP, n, h1, Or.inl ⟨h2, rfl⟩⟩
    · obtain ⟨g, hg, rfl⟩ := List.mem_map.mp h
      rw [mem_unique_sortNat, hmem] at hg
      obtain ⟨q, hqP, i, hi, hsz, h1, h2⟩ := hg
      obtain ⟨_, _, h3, h4⟩ := hw.owner q hqP _ _ _ h1 h2
      refine ⟨by omega, q, hqP, i, hi, Or.inr ⟨hsz, ?_⟩⟩
      rw [h2]; congr 1; omega
  · rintro ⟨hn, q, hqP, i, hi, hlg⟩
    rcases hlg with ⟨h1, h2⟩ | ⟨h1, h2⟩
    · have : q = r := range_unique w (q := q) (r := r) (g := w.r0 r + n) (by omega) (by omega)
      subst this
      left
      have : n = i := by omega
      subst this
      exact ⟨hi, hn⟩
    · right
      obtain ⟨o, g, e1, e2, _, _, h3, h4, h5, h6⟩ := owner_of_getD w hw q hqP i h1 (hr q hqP i hi)
      rw [h2] at e2
      obtain rfl := Option.some.inj e2
      have : o = r := range_unique w (q := o) (r := r) (g := w.r0 r + n) ⟨h5, h6⟩ (by omega)
      subst this
      refine List.mem_map.mpr ⟨w.r0 o + n, ?_, by omega⟩
      rw [mem_unique_sortNat, hmem]
      exact ⟨q, hqP, i, hi, h1, e1, h2⟩

/-! ## `shared_indices` -/

theorem sharedRecv_eq (w : World) (hw : w.Valid) (r : Nat) :
    sharedRecv w r = (w.dest r).flatMap fun q => ghostsOf w q r := by
  unfold sharedRecv
  rw [neighborAlltoallv_eq _ _ _ (fun q r => ghostsOf w q r)]
  · intro q hq
    obtain ⟨hqP, _⟩ := (Scatterer.mem_dest w r q).mp hq
    have h1 : runSizesUb (ownerToGhost w q).length (ownerToGhost w q) =
        (w.src q).map fun d => (grp Prod.fst (ownerToGhost w q) d).length := by
      conv_lhs => rw [otg_groups w q]
      exact runSizesUb_groups _ (Scatterer.src_sorted w q) _ (fun d hd => otg_grp_ne w hw q hqP d hd) _ (by rw [← otg_groups w q])
    have h2 : (ownerToGhost w q).map Prod.snd = (w.src q).flatMap fun d => ghostsOf w q d := by
      conv_lhs => rw [otg_groups w q]
      rw [List.map_flatMap]; rfl
    rw [h1, h2, chunks_flatMap]
    simp [ghostsOf]
  · intro q hq; exact ((Scatterer.mem_dest w r q).mp hq).2

theorem mem_ghostsOf_valid (w : World) (hw : w.Valid) (q r g : Nat) (hq : q < w.P) :
    g ∈ ghostsOf w q r ↔ g ∈ w.ghosts q ∧ w.r0 r ≤ g ∧ g < w.r0 r + w.size r := by
  rw [mem_ghostsOf]
  constructor
  · intro h
    obtain ⟨k, hk⟩ := List.getElem?_of_mem h
    rw [List.getElem?_zip_eq_some] at hk
    obtain ⟨_, _, h3, h4⟩ := hw.owner q hq _ _ _ hk.1 hk.2
    exact ⟨List.mem_of_getElem? hk.2, h3, h4⟩
  · rintro ⟨h, h3, h4⟩
    obtain ⟨k, hk⟩ := List.getElem?_of_mem h
    have hkl : k < (w.owners q).length := by rw [hw.len q hq]; exact (List.getElem?_eq_some_iff.mp hk).1
    have e1 := List.getElem?_eq_getElem hkl
    obtain ⟨_, _, h5, h6⟩ := hw.owner q hq _ _ _ e1 hk
    have : (w.owners q)[k] = r := range_unique w ⟨h5, h6⟩ ⟨h3, h4⟩
    rw [this] at e1
    exact List.mem_of_getElem? (i := k) (List.getElem?_zip_eq_some.mpr ⟨e1, hk⟩)

theorem mem_dest_of_ghost (w : World) (q r g : Nat) (hq : q < w.P) (h : g ∈ ghostsOf w q r) : q ∈ w.dest r := by
  rw [mem_ghostsOf] at h
  exact (Scatterer.mem_dest w r q).mpr ⟨hq, (Scatterer.mem_src w q r).mpr (List.of_mem_zip h).1⟩

/-- C31: `shared_indices` lists, sorted and once each, exactly the owned indices whose global index
is a ghost on some other rank; no assertion fails. -/
theorem C31_shared_indices (w : World) (hw : w.Valid) (r : Nat) (hrP : r < w.P) :
    ∃ out, sharedIndices w r = some out ∧ out.Pairwise (· < ·) ∧
      ∀ n, n ∈ out ↔ n < w.size r ∧ ∃ q, q < w.P ∧ q ≠ r ∧ w.r0 r + n ∈ w.ghosts q := by
  have hmem : ∀ g, g ∈ sharedRecv w r ↔ (w.r0 r ≤ g ∧ g < w.r0 r + w.size r) ∧ ∃ q, q < w.P ∧ g ∈ w.ghosts q := by
    intro g
    rw [sharedRecv_eq w hw, List.mem_flatMap]
    constructor
    · rintro ⟨q, hq, hg⟩
      have hqP := ((Scatterer.mem_dest w r q).mp hq).1
      obtain ⟨h1, h2, h3⟩ := (mem_ghostsOf_valid w hw q r g hqP).mp hg
      exact ⟨⟨h2, h3⟩, q, hqP, h1⟩
    · rintro ⟨h2, q, hqP, h1⟩
      have := (mem_ghostsOf_valid w hw q r g hqP).mpr ⟨h1, h2⟩
      exact ⟨q, mem_dest_of_ghost w q r g hqP this, this⟩
  have hloc : ∀ g ∈ sharedRecv w r, toLocal w r g = some (g - w.r0 r) := by
    intro g hg
    unfold toLocal
    rw [if_pos ((hmem g).mp hg).1]
  unfold sharedIndices
  rw [mapM_some _ _ (fun g => g - w.r0 r) hloc]
  refine ⟨_, rfl, unique_sortNat_sorted _, ?_⟩
  intro n
  rw [mem_unique_sortNat, List.mem_map]
  constructor
  · rintro ⟨g, hg, rfl⟩
    obtain ⟨⟨h1, h2⟩, q, hqP, h3⟩ := (hmem g).mp hg
    have e : w.r0 r + (g - w.r0 r) = g := by omega
    refine ⟨by omega, q, hqP, ?_, by rw [e]; exact h3⟩
    rintro rfl
    obtain ⟨k, hk⟩ := List.getElem?_of_mem h3
    have hkl : k < (w.owners q).length := by rw [hw.len q hqP]; exact (List.getElem?_eq_some_iff.mp hk).1
    obtain ⟨_, h4, h5, h6⟩ := hw.owner q hqP _ _ _ (List.getElem?_eq_getElem hkl) hk
    exact h4 (range_unique w ⟨h5, h6⟩ ⟨h1, h2⟩)
  · rintro ⟨hn, q, hqP, _, h⟩
    exact ⟨w.r0 r + n, (hmem _).mpr ⟨⟨by omega, by omega⟩, q, hqP, h⟩, by omega⟩

end Verif.Props
