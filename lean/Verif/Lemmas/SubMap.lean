import Verif.Lemmas.GhostComm
import Verif.Spec.SubMap
import Verif.Props.C31_IndexToDestRanks
import Verif.Props.C05_C06_IndexMap
/-!
# Facts on `compute_submap_indices`
-/
namespace Verif.SubMap
open Verif.Std Verif.Exchange Verif.World Verif.Shared Verif.StackMaps Verif.Offsets Verif.Group Verif.Spec Verif.Props Verif.Scatterer

/-- Preconditions of `create_sub_index_map`: a valid parent map, sorted unique local indices. -/
structure Input.Ok (s : Input) : Prop where
  valid : s.w.Valid
  sorted : ∀ r, r < s.w.P → (s.ind r).Pairwise (· < ·)
  range : ∀ r, r < s.w.P → ∀ i ∈ s.ind r, i < s.w.size r + (s.w.ghosts r).length

theorem validMap_of (w : World) (hw : w.Valid) (r : Nat) (hr : r < w.P) : ValidMap (w.map r) := by
  refine ⟨by simp [World.map, IndexMap.build], hw.nodup r hr, ?_⟩
  intro g hg hin
  refine not_ghost_own w hw r g hr hg ?_
  simpa [World.map, IndexMap.build, World.r0] using hin

theorem localToGlobal_map (w : World) (r i : Nat) : (w.map r).localToGlobal i = globalOf w r i := by
  simp [World.map, IndexMap.build, IndexMap.Map.localToGlobal, IndexMap.Map.sizeLocal, globalOf, World.r0]

theorem globalOf_lt (w : World) (r i g : Nat) (h : globalOf w r i = some g) : i < w.size r + (w.ghosts r).length := by
  unfold globalOf at h
  split at h
  · omega
  · have := (List.getElem?_eq_some_iff.mp h).1; omega

theorem globalToLocal_of (w : World) (hw : w.Valid) (r : Nat) (hr : r < w.P) (i g : Nat) (h : globalOf w r i = some g) :
    ((w.map r).globalToLocal (g : Int)).toNat = i := by
  obtain ⟨g', h1, h2⟩ := C06_global_of_local_inverse (w.map r) (validMap_of w hw r hr) i (by
    simpa [World.map, IndexMap.build, IndexMap.Map.sizeLocal] using globalOf_lt w r i g h)
  rw [localToGlobal_map, h] at h1
  cases h1
  rw [h2]; simp

theorem globalOf_inj (w : World) (hw : w.Valid) (r : Nat) (hr : r < w.P) (i j g : Nat) (h : globalOf w r i = some g)
    (h' : globalOf w r j = some g) : i = j :=
  (globalToLocal_of w hw r hr i g h).symm.trans (globalToLocal_of w hw r hr j g h')

theorem owns_unique (w : World) (p q g : Nat) (h : Owns w p g) (h' : Owns w q g) : p = q := range_unique w h.2 h'.2

theorem owns_of_globalOf (w : World) (hw : w.Valid) (r : Nat) (hr : r < w.P) (i g : Nat) (h : globalOf w r i = some g) :
    ∃ p, Owns w p g := by
  have hl := globalOf_lt w r i g h
  by_cases hi : i < w.size r
  · unfold globalOf at h; rw [if_pos hi] at h
    cases h
    exact ⟨r, hr, by omega, by omega⟩
  · obtain ⟨o, g', e1, e2, _, _, h3, _, h5, h6⟩ := owner_of_getD w hw r hr i (by omega) hl
    unfold globalOf at h; rw [if_neg hi, e2] at h
    cases h
    exact ⟨o, h3, h5, h6⟩

theorem newOwner_unique (w : World) (ind : Nat → List Nat) (g o o' : Nat) (h : NewOwner w ind g o) (h' : NewOwner w ind g o') : o = o' := by
  obtain ⟨p, hp, h1⟩ := h
  obtain ⟨p', hp', h2⟩ := h'
  have := owns_unique w p p' g hp hp'
  subst this
  rcases h1 with ⟨a, b⟩ | ⟨a, b, c, d⟩ <;> rcases h2 with ⟨a', b'⟩ | ⟨a', b', c', d'⟩
  · omega
  · exact absurd a a'
  · exact absurd a' a
  · have := d o' b' c'; have := d' o b c; omega

theorem newOwner_chooses (w : World) (ind : Nat → List Nat) (g o : Nat) (h : NewOwner w ind g o) : o < w.P ∧ Chooses w ind o g := by
  obtain ⟨p, hp, h1⟩ := h
  rcases h1 with ⟨a, rfl⟩ | ⟨a, b, c, d⟩
  · exact ⟨hp.1, a⟩
  · exact ⟨b, c⟩

/-- Every index that somebody chose has a new owner. -/
theorem newOwner_exists (w : World) (hw : w.Valid) (ind : Nat → List Nat) (q g : Nat) (hq : q < w.P) (h : Chooses w ind q g) :
    ∃ o, NewOwner w ind g o := by
  obtain ⟨i, hi, hg⟩ := h
  obtain ⟨p, hp⟩ := owns_of_globalOf w hw q hq i g hg
  by_cases hc : Chooses w ind p g
  · exact ⟨p, p, hp, Or.inl ⟨hc, rfl⟩⟩
  · classical
    have hex : ∃ n, n < w.P ∧ Chooses w ind n g := ⟨q, hq, i, hi, hg⟩
    refine ⟨Nat.find hex, p, hp, Or.inr ⟨hc, (Nat.find_spec hex).1, (Nat.find_spec hex).2, ?_⟩⟩
    intro n hn hcn
    exact Nat.find_min' hex ⟨hn, hcn⟩

variable {s : Input}

theorem comm1_ok (h : s.Ok) : CommOk s.comm1 s.w.P where
  srcSorted := fun r _ => src_sorted s.w r
  owner := by
    intro r hr i hi _
    have hi' : i < (s.w.ghosts r).length := hi
    obtain ⟨o, g, e1, _, e3, _⟩ := owner_of_getD s.w h.valid r hr (s.w.size r + i) (by omega) (by omega)
    rw [Nat.add_sub_cancel_left] at e1 e3
    change (s.w.owners r).getD i 0 ∈ s.w.src r
    rw [e3, mem_src]
    exact List.mem_of_getElem? e1
  srcP := by
    intro r hr q hq
    have hq' : q ∈ s.w.owners r := (mem_src s.w r q).mp hq
    obtain ⟨k, hk, e⟩ := List.getElem_of_mem hq'
    have hkg : k < (s.w.ghosts r).length := by rw [← h.valid.len r hr]; exact hk
    exact (h.valid.owner r hr k q _ (by rw [List.getElem?_eq_getElem hk, e]) (List.getElem?_eq_getElem hkg)).1
  dest := by
    intro r _ q
    exact mem_dest s.w r q

/-- Indices of `r` that `q` chose, as received by `r`. -/
def Input.blk (s : Input) (q r : Nat) : List Nat := (s.comm1.sel q r).map fun i => (s.w.ghosts q).getD i 0

theorem sel_ghost (h : s.Ok) (q r i : Nat) (hq : q < s.w.P) (hi : i ∈ s.comm1.sel q r) :
    s.w.size q + i ∈ s.ind q ∧ ∃ g, (s.w.ghosts q)[i]? = some g ∧ (s.w.ghosts q).getD i 0 = g ∧ globalOf s.w q (s.w.size q + i) = some g ∧
      Owns s.w r g ∧ r ≠ q := by
  obtain ⟨h1, h2, h3⟩ := (mem_sel s.comm1 q r i).mp hi
  have h1' : i < (s.w.ghosts q).length := h1
  have h2' : s.w.size q + i ∈ s.ind q := of_decide_eq_true h2
  obtain ⟨o, g, e1, e2, e3, e4, h5, h6, h7, h8⟩ := owner_of_getD s.w h.valid q hq (s.w.size q + i) (by omega) (by omega)
  rw [Nat.add_sub_cancel_left] at e1 e2 e3 e4
  have : o = r := e3.symm.trans h3
  subst this
  refine ⟨h2', g, e2, e4, ?_, ⟨h5, h7, h8⟩, h6⟩
  unfold globalOf
  rw [if_neg (by omega), Nat.add_sub_cancel_left, e2]

theorem ghost_pos (h : s.Ok) (q r g : Nat) (hq : q < s.w.P) (ho : Owns s.w r g) (hqr : q ≠ r) (i : Nat) (hi : i ∈ s.ind q)
    (hg : globalOf s.w q i = some g) : s.w.size q ≤ i ∧ i - s.w.size q ∈ s.comm1.sel q r ∧ (s.w.ghosts q).getD (i - s.w.size q) 0 = g := by
  have hge : s.w.size q ≤ i := by
    by_contra hc
    unfold globalOf at hg
    rw [if_pos (by omega)] at hg
    cases hg
    exact hqr (owns_unique s.w q r _ ⟨hq, by omega, by omega⟩ ho)
  obtain ⟨o, g', e1, e2, e3, e4, h5, h6, h7, h8⟩ := owner_of_getD s.w h.valid q hq i hge (h.range q hq i hi)
  unfold globalOf at hg
  rw [if_neg (by omega), e2] at hg
  cases hg
  have hor : o = r := owns_unique s.w o r g ⟨h5, h7, h8⟩ ho
  subst hor
  refine ⟨hge, (mem_sel _ _ _ _).mpr ⟨?_, ?_, e3⟩, e4⟩
  · exact (List.getElem?_eq_some_iff.mp e2).1
  · refine decide_eq_true ?_
    rw [Nat.add_sub_cancel' hge]; exact hi

theorem mem_blk (h : s.Ok) (q r g : Nat) (hq : q < s.w.P) :
    g ∈ s.blk q r ↔ Owns s.w r g ∧ Chooses s.w s.ind q g ∧ q ≠ r := by
  unfold Input.blk
  rw [List.mem_map]
  constructor
  · rintro ⟨i, hi, rfl⟩
    obtain ⟨h1, g, e1, e2, e3, h4, h5⟩ := sel_ghost h q r i hq hi
    rw [e2]
    exact ⟨h4, ⟨_, h1, e3⟩, Ne.symm h5⟩
  · rintro ⟨ho, ⟨i, hi, hg⟩, hqr⟩
    obtain ⟨_, h2, h3⟩ := ghost_pos h q r g hq ho hqr i hi hg
    exact ⟨_, h2, h3⟩

theorem blk_nodup (h : s.Ok) (q r : Nat) (hq : q < s.w.P) : (s.blk q r).Nodup := by
  unfold Input.blk
  refine List.Nodup.map_on ?_ (sel_nodup _ _ _)
  intro i hi j hj he
  obtain ⟨_, g, _, e2, e3, _⟩ := sel_ghost h q r i hq hi
  obtain ⟨_, g', _, e2', e3', _⟩ := sel_ghost h q r j hq hj
  rw [e2, e2'] at he
  subst he
  have := globalOf_inj s.w h.valid q hq _ _ g e3 e3'
  omega

theorem keeps_iff (r g : Nat) (ho : Owns s.w r g) (hOk : s.Ok) : s.keeps r g = true ↔ Chooses s.w s.ind r g := by
  unfold Input.keeps
  rw [decide_eq_true_eq]
  have hg : globalOf s.w r (g - s.w.r0 r) = some g := by
    unfold globalOf
    rw [if_pos (by have := ho.2; omega)]
    congr 1; have := ho.2; omega
  constructor
  · intro hm; exact ⟨_, hm, hg⟩
  · rintro ⟨i, hi, hg'⟩
    rw [globalOf_inj s.w hOk.valid r ho.1 _ _ g hg hg']; exact hi

theorem blocks_eq (h : s.Ok) (r : Nat) (hr : r < s.w.P) :
    (s.w.dest r).zip (s.comm1.recvBlocks r) = (s.w.dest r).map fun q => (q, s.blk q r) := by
  rw [recvBlocks_eq (comm1_ok h) r hr]
  have := zip_map_same (s.w.dest r) (fun q => q) (fun q => s.blk q r)
  rw [List.map_id'] at this
  exact this

/-- The unsorted list of possible owners. -/
def Input.poss0 (s : Input) (r : Nat) : List (Nat × Nat) :=
  (s.w.dest r).flatMap fun q => (s.blk q r).map fun g => (g, if s.keeps r g then r else q)

theorem possible_eq (h : s.Ok) (r : Nat) (hr : r < s.w.P) : s.possible r = lexSort (s.poss0 r) := by
  unfold Input.possible Input.poss0
  rw [blocks_eq h r hr, List.flatMap_map]

theorem mem_poss0 (h : s.Ok) (r g x : Nat) (hr : r < s.w.P) :
    (g, x) ∈ s.poss0 r ↔ Owns s.w r g ∧ ∃ q, q < s.w.P ∧ q ≠ r ∧ Chooses s.w s.ind q g ∧ x = if s.keeps r g then r else q := by
  unfold Input.poss0
  rw [List.mem_flatMap]
  constructor
  · rintro ⟨q, hq, hm⟩
    obtain ⟨g', hg', he⟩ := List.mem_map.mp hm
    cases he
    have hqP := ((mem_dest s.w r q).mp hq).1
    obtain ⟨h1, h2, h3⟩ := (mem_blk h q r g hqP).mp hg'
    exact ⟨h1, q, hqP, h3, h2, rfl⟩
  · rintro ⟨ho, q, hq, hqr, hc, rfl⟩
    have hb := (mem_blk h q r g hq).mpr ⟨ho, hc, hqr⟩
    refine ⟨q, ?_, List.mem_map.mpr ⟨g, hb, rfl⟩⟩
    obtain ⟨i, hi, _⟩ := List.mem_map.mp hb
    obtain ⟨a1, a2, a3⟩ := (mem_sel _ _ _ _).mp hi
    refine (mem_dest s.w r q).mpr ⟨hq, ?_⟩
    have := (comm1_ok h).owner q hq i a1 a2
    rw [a3] at this
    exact this

/-- The chosen owner is the one of the specification. -/
theorem chosen_newOwner (h : s.Ok) (r g q : Nat) (ho : Owns s.w r g) (hq : q < s.w.P) (hqr : q ≠ r) (hc : Chooses s.w s.ind q g) :
    NewOwner s.w s.ind g (s.chosen r g) := by
  have hr := ho.1
  obtain ⟨x, e1, e2, e3, e4⟩ := lowerBound_min (s.poss0 r) g
    ⟨_, (mem_lexSort _ _).mpr ((mem_poss0 h r g _ hr).mpr ⟨ho, q, hq, hqr, hc, rfl⟩), rfl⟩
  have hx : s.chosen r g = x.2 := by
    unfold Input.chosen Input.firstPos
    rw [possible_eq h r hr, e1]; rfl
  rw [hx]
  obtain ⟨x1, x2⟩ := x
  simp only at e2 e4
  subst e2
  obtain ⟨_, q', hq', hqr', hc', he⟩ := (mem_poss0 h r x1 x2 hr).mp e3
  refine ⟨r, ho, ?_⟩
  by_cases hk : s.keeps r x1 = true
  · rw [if_pos hk] at he
    left; exact ⟨(keeps_iff r x1 ho h).mp hk, he⟩
  · rw [if_neg hk] at he
    subst he
    have hnc : ¬ Chooses s.w s.ind r x1 := fun hh => hk ((keeps_iff r x1 ho h).mpr hh)
    refine Or.inr ⟨hnc, hq', hc', ?_⟩
    intro q2 hq2 hc2
    have hne : q2 ≠ r := fun e => hnc (e ▸ hc2)
    have := e4 (x1, q2) ((mem_poss0 h r x1 q2 hr).mpr ⟨ho, q2, hq2, hne, hc2, by rw [if_neg hk]⟩) rfl
    exact this

/-- Ranks other than the new owner that chose an index which its old owner gave up. -/
theorem mem_others (h : s.Ok) (r g q x : Nat) (ho : Owns s.w r g) (hq : q < s.w.P) (hqr : q ≠ r) (hc : Chooses s.w s.ind q g)
    (hch : s.chosen r g = q) :
    x ∈ s.others r g ↔ x < s.w.P ∧ Chooses s.w s.ind x g ∧ x ≠ q := by
  have hr := ho.1
  have hno := chosen_newOwner h r g q ho hq hqr hc
  rw [hch] at hno
  have hnc : ¬ Chooses s.w s.ind r g := by
    intro hcr
    exact hqr (newOwner_unique s.w s.ind g q r hno ⟨r, ho, Or.inl ⟨hcr, rfl⟩⟩)
  have hk : s.keeps r g ≠ true := fun hh => hnc ((keeps_iff r g ho h).mp hh)
  have hmem : ∀ y, (g, y) ∈ s.poss0 r ↔ y < s.w.P ∧ Chooses s.w s.ind y g := by
    intro y
    rw [mem_poss0 h r g y hr]
    simp only [if_neg hk]
    constructor
    · rintro ⟨_, q', h1, _, h3, rfl⟩; exact ⟨h1, h3⟩
    · rintro ⟨h1, h3⟩; exact ⟨ho, y, h1, fun e => hnc (e ▸ h3), h3, rfl⟩
  -- the group of `g`
  obtain ⟨x0, e1, e2, e3, e4⟩ := lowerBound_min (s.poss0 r) g
    ⟨_, (mem_lexSort _ _).mpr ((hmem q).mpr ⟨hq, hc⟩), rfl⟩
  have hx0 : x0 = (g, q) := by
    have : s.chosen r g = x0.2 := by
      unfold Input.chosen Input.firstPos
      rw [possible_eq h r hr, e1]; rfl
    exact Prod.ext e2 (this.symm.trans hch)
  have hgrp : (grp Prod.fst (s.poss0 r) g).Nodup := by
    unfold Input.poss0
    rw [grp_flatMap]
    rw [List.nodup_flatMap]
    constructor
    · intro q' hq'
      refine List.Nodup.filter _ ?_
      refine List.Nodup.map_on ?_ (blk_nodup h q' r ((mem_dest s.w r q').mp hq').1)
      intro a _ b _ hab
      exact (Prod.ext_iff.mp hab).1
    · refine List.Pairwise.imp ?_ (nodup_of_strict (dest_strict s.w r))
      intro a b hab y hy hy'
      obtain ⟨hy1, hy2⟩ := (mem_grp _ _ _ _).mp hy
      obtain ⟨hy1', hy2'⟩ := (mem_grp _ _ _ _).mp hy'
      obtain ⟨g1, _, he1⟩ := List.mem_map.mp hy1
      obtain ⟨g2, _, he2⟩ := List.mem_map.mp hy1'
      rw [← he1] at hy2
      rw [← he2] at hy2'
      simp only at hy2 hy2'
      subst hy2 hy2'
      rw [← he2, if_neg hk, if_neg hk] at he1
      exact hab (Prod.ext_iff.mp he1).2
  set G := grp Prod.fst (lexSort (s.poss0 r)) g with hG
  have hGp : G.Nodup := (List.Perm.nodup_iff ((lexSort_perm (s.poss0 r)).filter _)).mpr hgrp
  have hslice := group_slice (s.poss0 r) g
  rw [← hG] at hslice
  have hhead : G.head? = some (g, q) := by
    rw [← hslice]
    set n := lowerBound (fun e : Nat × Nat => decide (e.1 < g)) (lexSort (s.poss0 r)) with hn
    have hd : ((lexSort (s.poss0 r)).drop n).head? = some (g, q) := by
      rw [List.head?_drop, e1, hx0]
    rw [List.head?_take, hd, if_neg]
    intro hzero
    rw [hzero] at hslice
    rw [List.take_zero] at hslice
    have : (g, q) ∈ G := (mem_grp _ _ _ _).mpr ⟨(mem_lexSort _ _).mpr ((hmem q).mpr ⟨hq, hc⟩), rfl⟩
    rw [← hslice] at this
    simp at this
  have hot : s.others r g = G.tail.map Prod.snd := by
    unfold Input.others Input.firstPos
    rw [possible_eq h r hr]
    simp only
    rw [hslice]
  rw [hot]
  cases hGe : G with
  | nil => rw [hGe] at hhead; simp at hhead
  | cons a t =>
    rw [hGe] at hhead hGp
    simp only [List.head?_cons, Option.some.injEq] at hhead
    subst hhead
    rw [List.tail_cons, List.mem_map]
    constructor
    · rintro ⟨⟨g', y⟩, hm, rfl⟩
      have hmG : (g', y) ∈ G := by rw [hGe]; exact List.mem_cons_of_mem _ hm
      obtain ⟨hm1, hm2⟩ := (mem_grp _ _ _ _).mp hmG
      simp only at hm2
      subst hm2
      obtain ⟨b1, b2⟩ := (hmem y).mp ((mem_lexSort _ _).mp hm1)
      refine ⟨b1, b2, ?_⟩
      rintro rfl
      exact (List.nodup_cons.mp hGp).1 hm
    · rintro ⟨b1, b2, b3⟩
      have hmG : (g, x) ∈ G := (mem_grp _ _ _ _).mpr ⟨(mem_lexSort _ _).mpr ((hmem x).mpr ⟨b1, b2⟩), rfl⟩
      rw [hGe] at hmG
      rcases List.mem_cons.mp hmG with he | hm
      · exact absurd (Prod.ext_iff.mp he).2 b3
      · exact ⟨_, hm, rfl⟩

end Verif.SubMap
