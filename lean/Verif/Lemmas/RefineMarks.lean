import Verif.Model.RefineMarks
import Verif.Spec.MarkClosure
import Verif.Lemmas.SubMap
import Verif.Props.C09_DistributeData
/-! Facts about the propagation of marks. -/
namespace Verif.RefMark
open Verif.Std Verif.Exchange Verif.World Verif.Shared Verif.Spec Verif.Spec.Marks Verif.Props Verif.Group

/-- Rank `q` also has edge `e` of rank `r`. -/
def Sh (w : World) (r e q : Nat) : Prop := q < w.P ∧ q ≠ r ∧ ∃ g i, globalOf w r e = some g ∧ globalOf w q i = some g

theorem holds_iff (w : World) (s g : Nat) : (∃ i, globalOf w s i = some g) ↔ g ∈ w.ghosts s ∨ (w.r0 s ≤ g ∧ g < w.r0 s + w.size s) := by
  constructor
  · rintro ⟨i, hi⟩
    unfold globalOf at hi
    split at hi
    · right; have := Option.some.inj hi; omega
    · left; exact List.mem_of_getElem? hi
  · rintro (h | h)
    · obtain ⟨k, hk, hkg⟩ := List.mem_iff_getElem.mp h
      refine ⟨w.size s + k, ?_⟩
      unfold globalOf
      rw [if_neg (by omega), show w.size s + k - w.size s = k by omega, List.getElem?_eq_getElem hk, hkg]
    · refine ⟨g - w.r0 s, ?_⟩
      unfold globalOf
      rw [if_pos (by omega)]
      congr 1; omega

theorem globalOf_isSome (w : World) (r e : Nat) (h : e < numEdges w r) : ∃ g, globalOf w r e = some g := by
  unfold globalOf numEdges at *
  split
  · exact ⟨_, rfl⟩
  · exact ⟨_, List.getElem?_eq_getElem (by omega)⟩

theorem mem_row (w : World) (hw : w.Valid) (r : Nat) (hr : r < w.P) (e q : Nat) (he : e < numEdges w r) :
    q ∈ links (destRanks w r).1 (destRanks w r).2 e ↔ Sh w r e q := by
  obtain ⟨data, offs, h1, h2, h3, h4, h5, h6⟩ := C31_index_to_dest_ranks w hw r hr
  have hd : destRanks w r = (data, offs) := by unfold destRanks; rw [h1]; rfl
  rw [hd]
  show q ∈ rowOf data offs e ↔ _
  unfold Sh
  by_cases ho : e < w.size r
  · have hg : globalOf w r e = some (w.r0 r + e) := by unfold globalOf; rw [if_pos ho]
    rw [h3 e ho]
    unfold ghosters
    rw [List.mem_filter, List.mem_range, decide_eq_true_eq]
    constructor
    · rintro ⟨a, b⟩
      have hne : q ≠ r := by
        rintro rfl
        exact not_ghost_own w hw q _ a b (by omega)
      obtain ⟨i, hi⟩ := (holds_iff w q (w.r0 r + e)).mpr (Or.inl b)
      exact ⟨a, hne, _, i, hg, hi⟩
    · rintro ⟨a, b, g, i, hg', hi⟩
      rw [hg] at hg'; cases hg'
      refine ⟨a, ?_⟩
      rcases (holds_iff w q _).mp ⟨i, hi⟩ with h | h
      · exact h
      · exact absurd (range_unique w (q := q) (r := r) h (by omega)) b
  · unfold numEdges at he
    have hk : (w.ghosts r)[e - w.size r]? = some ((w.ghosts r)[e - w.size r]'(by omega)) := List.getElem?_eq_getElem (by omega)
    generalize (w.ghosts r)[e - w.size r]'(by omega) = g0 at hk
    have hg : globalOf w r e = some g0 := by unfold globalOf; rw [if_neg ho]; exact hk
    have := h4 _ g0 hk
    rw [show w.size r + (e - w.size r) = e by omega] at this
    rw [this]
    unfold sharers
    rw [List.mem_filter, List.mem_range, decide_eq_true_eq, ← holds_iff]
    constructor
    · rintro ⟨a, b, i, hi⟩; exact ⟨a, b, g0, i, hg, hi⟩
    · rintro ⟨a, b, g, i, hg', hi⟩
      rw [hg] at hg'; cases hg'
      exact ⟨a, b, i, hi⟩

theorem mem_of_links (data offs : List Nat) (i x : Nat) (h : x ∈ links data offs i) : x ∈ data :=
  List.mem_of_mem_drop (List.mem_of_mem_take h)

theorem ranks_strict (w : World) (r : Nat) : (ranks w r).Pairwise (· < ·) := unique_sortNat_sorted _

theorem mem_ranks_of (w : World) (hw : w.Valid) (r : Nat) (hr : r < w.P) (e q : Nat) (he : e < numEdges w r) (h : Sh w r e q) :
    q ∈ ranks w r := by
  unfold ranks
  rw [mem_unique_sortNat]
  exact mem_of_links _ _ _ _ ((mem_row w hw r hr e q he).mpr h)

theorem links_map (f : Nat → Nat) (data offs : List Nat) (i : Nat) : links (data.map f) offs i = (links data offs i).map f := by
  unfold links; rw [← List.map_drop, ← List.map_take]

theorem mem_edgeRanks (w : World) (hw : w.Valid) (r : Nat) (hr : r < w.P) (e i : Nat) (he : e < numEdges w r) :
    i ∈ edgeRanks w r e ↔ ∃ q, Sh w r e q ∧ (ranks w r)[i]? = some q := by
  unfold edgeRanks
  rw [links_map, List.mem_map]
  have hp : ∀ q, Sh w r e q → pos w r q = (ranks w r).idxOf q := fun q hq =>
    lowerBound_idxOf _ (ranks_strict w r) q (mem_ranks_of w hw r hr e q he hq)
  constructor
  · rintro ⟨q, hq, rfl⟩
    have hs := (mem_row w hw r hr e q he).mp hq
    refine ⟨q, hs, ?_⟩
    rw [hp q hs]
    exact List.getElem?_idxOf (mem_ranks_of w hw r hr e q he hs)
  · rintro ⟨q, hs, hi⟩
    refine ⟨q, (mem_row w hw r hr e q he).mpr hs, ?_⟩
    rw [hp q hs]
    obtain ⟨h1, h2⟩ := List.getElem?_eq_some_iff.mp hi
    rw [← h2]
    exact List.Nodup.idxOf_getElem (nodup_of_strict (ranks_strict w r)) _ _

/-- Every entry of the data lies in some row. -/
theorem mem_ranks_iff (w : World) (hw : w.Valid) (r : Nat) (hr : r < w.P) (q : Nat) :
    q ∈ ranks w r ↔ ∃ e < numEdges w r, Sh w r e q := by
  constructor
  · intro h
    unfold ranks at h
    rw [mem_unique_sortNat] at h
    obtain ⟨data, offs, h1, h2, h3, h4, h5, h6⟩ := C31_index_to_dest_ranks w hw r hr
    have hd : destRanks w r = (data, offs) := by unfold destRanks; rw [h1]; rfl
    have hrow : ∃ e < numEdges w r, q ∈ links data offs e := by
      rw [hd] at h
      have h' : q ∈ data := h
      rw [h6] at h'
      obtain ⟨e, he, hq⟩ := List.mem_flatMap.mp h'
      exact ⟨e, List.mem_range.mp he, hq⟩
    obtain ⟨e, he, hq⟩ := hrow
    refine ⟨e, he, (mem_row w hw r hr e q he).mp ?_⟩
    rw [hd]; exact hq
  · rintro ⟨e, he, hs⟩; exact mem_ranks_of w hw r hr e q he hs

theorem Sh.symm {w : World} {r e q : Nat} (hr : r < w.P) (h : Sh w r e q) : ∃ i < numEdges w q, Sh w q i r := by
  obtain ⟨h1, h2, g, i, h3, h4⟩ := h
  exact ⟨i, SubMap.globalOf_lt w q i g h4, hr, h2.symm, g, e, h4, h3⟩

/-! ## One rank -/

/-- Edge `i` is marked. -/
def St.Mk (s : St) (i : Nat) : Prop := s.marks.getD i false = true

/-- Rank `q` will be told about `e`. -/
def Told (w : World) (r : Nat) (s : St) (e q : Nat) : Prop := ∃ i, (i, e) ∈ s.upd ∧ (ranks w r)[i]? = some q

/-- The state of rank `r` is well formed. -/
structure Wf (w : World) (r : Nat) (s : St) : Prop where
  len : s.marks.length = numEdges w r
  told : ∀ p ∈ s.upd, p.2 < numEdges w r ∧ p.1 ∈ edgeRanks w r p.2 ∧ s.Mk p.2

theorem getD_set (l : List Bool) (e i : Nat) (he : e < l.length) : (l.set e true).getD i false = true ↔ l.getD i false = true ∨ i = e := by
  by_cases h : i = e
  · subst h
    simp [List.getD_eq_getElem?_getD, List.getElem?_set_self he]
  · rw [List.getD_eq_getElem?_getD, List.getElem?_set_ne (Ne.symm h), ← List.getD_eq_getElem?_getD]
    simp [h]

theorem setMark_spec (w : World) (hw : w.Valid) (r : Nat) (hr : r < w.P) (s : St) (hs : Wf w r s) (e : Nat) (he : e < numEdges w r) :
    Wf w r (setMark w r s e) ∧ (∀ i, (setMark w r s e).Mk i ↔ s.Mk i ∨ i = e) ∧
    (∀ i q, Told w r (setMark w r s e) i q ↔ Told w r s i q ∨ (¬ s.Mk e ∧ i = e ∧ Sh w r e q)) ∧
    (¬ s.Mk e → (setMark w r s e).marks.count true = s.marks.count true + 1) := by
  unfold setMark
  by_cases hm : s.Mk e
  · have hm' : s.marks.getD e false = true := hm
    rw [if_pos hm']
    refine ⟨hs, ?_, ?_, fun h => absurd hm h⟩
    · intro i
      constructor
      · exact Or.inl
      · rintro (h | rfl)
        · exact h
        · exact hm
    · intro i q
      constructor
      · exact Or.inl
      · rintro (h | ⟨h, _⟩)
        · exact h
        · exact absurd hm h
  · have hm' : ¬ s.marks.getD e false = true := hm
    rw [if_neg hm']
    have hlen : e < s.marks.length := by rw [hs.len]; exact he
    have hmk : ∀ i, (St.mk (s.marks.set e true) (s.upd ++ (edgeRanks w r e).map fun i => (i, e))).Mk i ↔ s.Mk i ∨ i = e :=
      fun i => getD_set s.marks e i hlen
    refine ⟨⟨by simpa using hs.len, ?_⟩, hmk, ?_, ?_⟩
    · intro p hp
      rcases List.mem_append.mp hp with hp | hp
      · obtain ⟨h1, h2, h3⟩ := hs.told p hp
        exact ⟨h1, h2, (hmk _).mpr (Or.inl h3)⟩
      · obtain ⟨i, hi, rfl⟩ := List.mem_map.mp hp
        exact ⟨he, hi, (hmk _).mpr (Or.inr rfl)⟩
    · intro i q
      unfold Told
      constructor
      · rintro ⟨k, hk, hq⟩
        rcases List.mem_append.mp hk with hk | hk
        · exact Or.inl ⟨k, hk, hq⟩
        · obtain ⟨k', hk', heq⟩ := List.mem_map.mp hk
          have h1 : k' = k := congrArg Prod.fst heq
          have h2 : e = i := congrArg Prod.snd heq
          subst h1; subst h2
          obtain ⟨q', hq', hr'⟩ := (mem_edgeRanks w hw r hr e k' he).mp hk'
          rw [hq] at hr'; cases hr'
          exact Or.inr ⟨hm, rfl, hq'⟩
      · rintro (⟨k, hk, hq⟩ | ⟨_, rfl, hsh⟩)
        · exact ⟨k, List.mem_append_left _ hk, hq⟩
        · have hq := mem_ranks_of w hw r hr i q he hsh
          refine ⟨(ranks w r).idxOf q, List.mem_append_right _ (List.mem_map_of_mem ?_), List.getElem?_idxOf hq⟩
          exact (mem_edgeRanks w hw r hr i _ he).mpr ⟨q, hsh, List.getElem?_idxOf hq⟩
    · intro _
      have hf : s.marks[e] = false := by
        rw [List.getD_eq_getElem?_getD, List.getElem?_eq_getElem hlen] at hm'
        simpa using hm'
      rw [List.count_set hlen, hf]
      simp

/-- The pass over some faces. -/
theorem faces_spec (w : World) (hw : w.Valid) (r : Nat) (hr : r < w.P) (fs : List (List Nat × Nat))
    (hf : ∀ f ∈ fs, f.2 < numEdges w r) (s : St) (c : Nat) (hs : Wf w r s) :
    let p := fs.foldl (faceStep w r) (s, c)
    Wf w r p.1 ∧ (∀ i, s.Mk i → p.1.Mk i) ∧ (∀ i q, Told w r s i q → Told w r p.1 i q) ∧
    (∀ i q, p.1.Mk i → ¬ s.Mk i → Sh w r i q → Told w r p.1 i q) ∧
    p.1.marks.count true + c = s.marks.count true + p.2 ∧ c ≤ p.2 ∧
    (p.2 = c → p.1 = s ∧ ∀ f ∈ fs, ∀ e ∈ f.1, s.Mk e → s.Mk f.2) ∧
    (∀ Q : Nat → Prop, (∀ i, s.Mk i → Q i) → (∀ f ∈ fs, ∀ e ∈ f.1, Q e → Q f.2) → ∀ i, p.1.Mk i → Q i) := by
  induction fs generalizing s c with
  | nil =>
    refine ⟨hs, fun i h => h, fun i q h => h, fun i q h h' => absurd h h', rfl, le_refl _, fun _ => ⟨rfl, by simp⟩, ?_⟩
    intro Q h1 h2 i hi; exact h1 i hi
  | cons f fs ih =>
    have hf0 := hf f (by simp)
    have hf1 : ∀ f' ∈ fs, f'.2 < numEdges w r := fun f' h => hf f' (by simp [h])
    simp only [List.foldl_cons]
    by_cases h1 : s.marks.getD f.2 false = true
    · have hst : faceStep w r (s, c) f = (s, c) := by unfold faceStep; rw [if_pos h1]
      rw [hst]
      obtain ⟨a1, a2, a3, a4, a5, a6, a7, a8⟩ := ih hf1 s c hs
      refine ⟨a1, a2, a3, a4, a5, a6, ?_, ?_⟩
      · intro h
        obtain ⟨b1, b2⟩ := a7 h
        refine ⟨b1, ?_⟩
        intro f' hf' e he hm
        rcases List.mem_cons.mp hf' with rfl | hf'
        · exact h1
        · exact b2 f' hf' e he hm
      · intro Q h2 h3
        exact a8 Q h2 fun f' hf' => h3 f' (by simp [hf'])
    · by_cases h2 : (f.1.any fun e => s.marks.getD e false) = true
      · have hst : faceStep w r (s, c) f = (setMark w r s f.2, c + 1) := by
          unfold faceStep; rw [if_neg h1]; exact if_pos h2
        rw [hst]
        obtain ⟨m1, m2, m3, m4⟩ := setMark_spec w hw r hr s hs f.2 hf0
        obtain ⟨a1, a2, a3, a4, a5, a6, a7, a8⟩ := ih hf1 _ (c + 1) m1
        have m4 := m4 h1
        refine ⟨a1, ?_, ?_, ?_, by omega, by omega, fun h => by omega, ?_⟩
        · intro i hi; exact a2 i ((m2 i).mpr (Or.inl hi))
        · intro i q h; exact a3 i q ((m3 i q).mpr (Or.inl h))
        · intro i q hp hn hsh
          by_cases hi : i = f.2
          · subst hi
            exact a3 _ q ((m3 _ q).mpr (Or.inr ⟨h1, rfl, hsh⟩))
          · exact a4 i q hp (fun h => (m2 i).mp h |>.elim hn hi) hsh
        · intro Q h3 h4
          refine a8 Q ?_ fun f' hf' => h4 f' (by simp [hf'])
          intro i hi
          rcases (m2 i).mp hi with h | rfl
          · exact h3 i h
          · obtain ⟨e, he, hm⟩ := List.any_eq_true.mp h2
            exact h4 f (by simp) e he (h3 e hm)
      · have hst : faceStep w r (s, c) f = (s, c) := by
          unfold faceStep; rw [if_neg h1]; exact if_neg h2
        rw [hst]
        obtain ⟨a1, a2, a3, a4, a5, a6, a7, a8⟩ := ih hf1 s c hs
        refine ⟨a1, a2, a3, a4, a5, a6, ?_, ?_⟩
        · intro h
          obtain ⟨b1, b2⟩ := a7 h
          refine ⟨b1, ?_⟩
          intro f' hf' e he hm
          rcases List.mem_cons.mp hf' with rfl | hf'
          · exact absurd (List.any_eq_true.mpr ⟨e, he, id hm⟩ : (f'.1.any fun e => s.marks.getD e false) = true) h2
          · exact b2 f' hf' e he hm
        · intro Q h2 h3
          exact a8 Q h2 fun f' hf' => h3 f' (by simp [hf'])

/-! ## The exchange -/

theorem localOf_eq (w : World) (hw : w.Valid) (r : Nat) (hr : r < w.P) (i g : Nat) (h : globalOf w r i = some g) : localOf w r g = some i := by
  obtain ⟨g', h1, h2⟩ := C06_global_of_local_inverse (w.map r) (SubMap.validMap_of w hw r hr) i (by
    simpa [World.map, IndexMap.build, IndexMap.Map.sizeLocal] using SubMap.globalOf_lt w r i g h)
  rw [SubMap.localToGlobal_map, h] at h1
  cases h1
  unfold localOf
  rw [h2, if_neg (by omega)]
  simp

theorem receive_spec (w : World) (hw : w.Valid) (r : Nat) (hr : r < w.P) (recv : List Nat) (hrecv : ∀ g ∈ recv, ∃ i, globalOf w r i = some g)
    (marks : List Bool) (hl : marks.length = numEdges w r) :
    ∃ m, receive w r marks recv = some m ∧ m.length = numEdges w r ∧
      ∀ i, m.getD i false = true ↔ marks.getD i false = true ∨ ∃ g ∈ recv, globalOf w r i = some g := by
  unfold receive
  induction recv generalizing marks with
  | nil => exact ⟨marks, rfl, hl, by simp⟩
  | cons g recv ih =>
    obtain ⟨i, hi⟩ := hrecv g (by simp)
    have hil := SubMap.globalOf_lt w r i g hi
    obtain ⟨m, h1, h2, h3⟩ := ih (fun g' h => hrecv g' (by simp [h])) (marks.set i true) (by simpa using hl)
    refine ⟨m, ?_, h2, ?_⟩
    · rw [List.foldlM_cons, localOf_eq w hw r hr i g hi]; exact h1
    · intro j
      rw [h3 j, getD_set _ _ _ (by rw [hl]; exact hil)]
      constructor
      · rintro ((h | rfl) | ⟨g', hg', hj⟩)
        · exact Or.inl h
        · exact Or.inr ⟨g, by simp, hi⟩
        · exact Or.inr ⟨g', by simp [hg'], hj⟩
      · rintro (h | ⟨g', hg', hj⟩)
        · exact Or.inl (Or.inl h)
        · rcases List.mem_cons.mp hg' with rfl | hg'
          · exact Or.inl (Or.inr (SubMap.globalOf_inj w hw r hr j i g' hj hi))
          · exact Or.inr ⟨g', hg', hj⟩

/-- What is sent to neighbour `i`. -/
def blockOf (w : World) (r : Nat) (upd : List (Nat × Nat)) (i : Nat) : List Nat :=
  ((upd.filter fun p => p.1 = i).map Prod.snd).map fun e => (globalOf w r e).getD 0

theorem pack_eq (w : World) (r : Nat) (s : St) (hs : Wf w r s) :
    pack w r s.upd = some ((ranks w r).map fun q => blockOf w r s.upd ((ranks w r).idxOf q)) := by
  unfold pack
  rw [mapM_some _ _ (blockOf w r s.upd)]
  · congr 1
    apply List.ext_getElem (by simp)
    intro i h1 h2
    have hi : i < (ranks w r).length := by simpa using h1
    simp only [List.getElem_map, List.getElem_range]
    rw [(nodup_of_strict (ranks_strict w r)).idxOf_getElem i hi]
  · intro i _
    unfold blockOf
    rw [mapM_some _ _ fun e => (globalOf w r e).getD 0]
    intro e he
    obtain ⟨p, hp, rfl⟩ := List.mem_map.mp he
    have := (hs.told p (List.mem_filter.mp hp).1).1
    obtain ⟨g, hg⟩ := globalOf_isSome w r p.2 this
    rw [SubMap.localToGlobal_map, hg]; rfl

theorem mem_block (w : World) (r : Nat) (s : St) (hs : Wf w r s) (q : Nat) (hq : q ∈ ranks w r) (g : Nat) :
    g ∈ blockOf w r s.upd ((ranks w r).idxOf q) ↔ ∃ e, Told w r s e q ∧ globalOf w r e = some g := by
  unfold blockOf
  simp only [List.mem_map, List.mem_filter, decide_eq_true_eq]
  constructor
  · rintro ⟨e, ⟨p, ⟨hp, hi⟩, rfl⟩, rfl⟩
    obtain ⟨g, hg⟩ := globalOf_isSome w r p.2 (hs.told p hp).1
    refine ⟨p.2, ⟨p.1, hp, ?_⟩, by rw [hg]; rfl⟩
    rw [hi]; exact List.getElem?_idxOf hq
  · rintro ⟨e, ⟨i, hp, hi⟩, hg⟩
    refine ⟨e, ⟨(i, e), ⟨hp, ?_⟩, rfl⟩, by rw [hg]; rfl⟩
    obtain ⟨h1, h2⟩ := List.getElem?_eq_some_iff.mp hi
    show i = _
    rw [← h2]; exact ((nodup_of_strict (ranks_strict w r)).idxOf_getElem i h1).symm

theorem told_sh (w : World) (hw : w.Valid) (r : Nat) (hr : r < w.P) (s : St) (hs : Wf w r s) (e q : Nat) (h : Told w r s e q) :
    Sh w r e q ∧ e < numEdges w r ∧ s.Mk e := by
  obtain ⟨i, hi, hq⟩ := h
  obtain ⟨h1, h2, h3⟩ := hs.told _ hi
  obtain ⟨q', hq', hr'⟩ := (mem_edgeRanks w hw r hr e i h1).mp h2
  rw [hq] at hr'; cases hr'
  exact ⟨hq', h1, h3⟩

theorem update_spec (w : World) (hw : w.Valid) (s : Nat → St) (hs : ∀ r < w.P, Wf w r (s r)) :
    ∃ t, updateAll w s = some t ∧ ∀ q < w.P, (t q).marks.length = numEdges w q ∧ (t q).upd = [] ∧
      ∀ j, (t q).Mk j ↔ (s q).Mk j ∨ ∃ r < w.P, ∃ e g, Told w r (s r) e q ∧ globalOf w r e = some g ∧ globalOf w q j = some g := by
  have hpacks : (List.range w.P).mapM (fun r => pack w r (s r).upd) =
      some ((List.range w.P).map fun r => (ranks w r).map fun q => blockOf w r (s r).upd ((ranks w r).idxOf q)) :=
    mapM_some _ _ _ fun r hr => pack_eq w r (s r) (hs r (List.mem_range.mp hr))
  generalize hpk : ((List.range w.P).map fun r => (ranks w r).map fun q => blockOf w r (s r).upd ((ranks w r).idxOf q)) = packs at hpacks
  have hP : ∀ q r, q < w.P → r ∈ ranks w q → r < w.P := by
    intro q r hq hr
    obtain ⟨e, _, h⟩ := (mem_ranks_iff w hw q hq r).mp hr
    exact h.1
  have hsym : ∀ q r, q < w.P → r ∈ ranks w q → q ∈ ranks w r := by
    intro q r hq hr
    have hrP := hP q r hq hr
    obtain ⟨e, he, h⟩ := (mem_ranks_iff w hw q hq r).mp hr
    obtain ⟨i, hi, h'⟩ := h.symm hq
    exact (mem_ranks_iff w hw r hrP q).mpr ⟨i, hi, h'⟩
  have hrecv : ∀ q < w.P, neighborAlltoallv (ranks w) (ranks w) (fun q => packs.getD q []) q =
      (ranks w q).flatMap fun r => blockOf w r (s r).upd ((ranks w r).idxOf q) := by
    intro q hq
    refine neighborAlltoallv_eq _ _ _ (fun r q => blockOf w r (s r).upd ((ranks w r).idxOf q)) q ?_ (fun r hr => hsym q r hq hr)
    intro r hr
    rw [← hpk, List.getD_eq_getElem?_getD, List.getElem?_map, List.getElem?_range (hP q r hq hr)]; rfl
  have hmem : ∀ q < w.P, ∀ g, g ∈ neighborAlltoallv (ranks w) (ranks w) (fun q => packs.getD q []) q ↔
      ∃ r < w.P, ∃ e, Told w r (s r) e q ∧ globalOf w r e = some g := by
    intro q hq g
    rw [hrecv q hq, List.mem_flatMap]
    constructor
    · rintro ⟨r, hr, hg⟩
      have hrP := hP q r hq hr
      exact ⟨r, hrP, (mem_block w r (s r) (hs r hrP) q (hsym q r hq hr) g).mp hg⟩
    · rintro ⟨r, hr, e, ht, hg⟩
      obtain ⟨hsh, he, _⟩ := told_sh w hw r hr (s r) (hs r hr) e q ht
      have hqr := mem_ranks_of w hw r hr e q he hsh
      exact ⟨r, hsym r q hr hqr, (mem_block w r (s r) (hs r hr) q hqr g).mpr ⟨e, ht, hg⟩⟩
  have hrec : ∀ q, ∃ m, q < w.P → receive w q (s q).marks (neighborAlltoallv (ranks w) (ranks w) (fun q => packs.getD q []) q) = some m ∧
      m.length = numEdges w q ∧ ∀ i, m.getD i false = true ↔ (s q).marks.getD i false = true ∨
        ∃ g ∈ neighborAlltoallv (ranks w) (ranks w) (fun q => packs.getD q []) q, globalOf w q i = some g := by
    intro q
    by_cases hq : q < w.P
    · obtain ⟨m, hm⟩ := receive_spec w hw q hq _ (by
        intro g hg
        obtain ⟨r, hr, e, ht, hge⟩ := (hmem q hq g).mp hg
        obtain ⟨⟨_, _, g', i, h1, h2⟩, _⟩ := told_sh w hw r hr (s r) (hs r hr) e q ht
        rw [hge] at h1; cases h1
        exact ⟨i, h2⟩) (s q).marks (hs q hq).len
      exact ⟨m, fun _ => hm⟩
    · exact ⟨[], fun h => absurd h hq⟩
  choose m hm using hrec
  have hms : (List.range w.P).mapM (fun r => receive w r (s r).marks
      (neighborAlltoallv (ranks w) (ranks w) (fun q => packs.getD q []) r)) = some ((List.range w.P).map m) :=
    mapM_some _ _ _ fun r hr => (hm r (List.mem_range.mp hr)).1
  refine ⟨fun r => ⟨((List.range w.P).map m).getD r [], []⟩, ?_, ?_⟩
  · unfold updateAll
    rw [hpacks]
    simp only [Option.bind_eq_bind, Option.bind_some]
    rw [hms]; rfl
  · intro q hq
    have hget : ((List.range w.P).map m).getD q [] = m q := by
      rw [List.getD_eq_getElem?_getD, List.getElem?_map, List.getElem?_range hq]; rfl
    obtain ⟨h1, h2, h3⟩ := hm q hq
    refine ⟨by show (((List.range w.P).map m).getD q []).length = _; rw [hget]; exact h2, rfl, ?_⟩
    intro j
    show (((List.range w.P).map m).getD q []).getD j false = true ↔ _
    rw [hget, h3 j]
    constructor
    · rintro (h | ⟨g, hg, hj⟩)
      · exact Or.inl h
      · obtain ⟨r, hr, e, ht, hge⟩ := (hmem q hq g).mp hg
        exact Or.inr ⟨r, hr, e, g, ht, hge, hj⟩
    · rintro (h | ⟨r, hr, e, g, ht, hge, hj⟩)
      · exact Or.inl h
      · exact Or.inr ⟨g, (hmem q hq g).mpr ⟨r, hr, e, ht, hge⟩, hj⟩

/-! ## The loop -/

/-- Faces and given edges refer to edges of the rank; either all ranks pass edges or none does. -/
structure Ok (w : World) (faces : Nat → List (List Nat × Nat)) (edges : Nat → Option (List Nat)) : Prop where
  valid : w.Valid
  face : ∀ r < w.P, ∀ f ∈ faces r, f.2 < numEdges w r ∧ ∀ e ∈ f.1, e < numEdges w r
  given : (∀ r < w.P, edges r = none) ∨ (∀ r < w.P, ∃ l, edges r = some l ∧ ∀ e ∈ l, e < numEdges w r)

/-- State between rounds. -/
structure Inv (w : World) (faces : Nat → List (List Nat × Nat)) (edges : Nat → Option (List Nat)) (s : Nat → St) : Prop where
  wf : ∀ r < w.P, Wf w r (s r)
  sound : ∀ r < w.P, ∀ i g, (s r).Mk i → globalOf w r i = some g → Must w faces edges g
  base : ∀ r < w.P, ∀ i < numEdges w r, (edges r = none ∨ ∃ l, edges r = some l ∧ i ∈ l) → (s r).Mk i
  pend : ∀ r < w.P, ∀ q < w.P, ∀ i j g, globalOf w r i = some g → globalOf w q j = some g → (s r).Mk i →
    (s q).Mk j ∨ ∃ r' < w.P, ∃ e, globalOf w r' e = some g ∧ Told w r' (s r') e q

/-- All ranks agree. -/
def Agree (w : World) (s : Nat → St) : Prop := ∀ r < w.P, ∀ q < w.P, ∀ i j g, globalOf w r i = some g → globalOf w q j = some g →
  (s r).Mk i → (s q).Mk j

/-- Number of marks on all ranks. -/
def total (w : World) (s : Nat → St) : Nat := ((List.range w.P).map fun r => (s r).marks.count true).sum

/-- Number of edges on all ranks. -/
def allEdges (w : World) : Nat := ((List.range w.P).map fun r => numEdges w r).sum

theorem count_mono (l m : List Bool) (hl : l.length = m.length) (h : ∀ i, l.getD i false = true → m.getD i false = true) :
    l.count true ≤ m.count true := by
  induction l generalizing m with
  | nil => simp
  | cons a l ih =>
    match m, hl with
    | b :: m, hl =>
      have h1 := ih m (by simpa using hl) (fun i hi => by simpa using h (i + 1) (by simpa using hi))
      have h2 := h 0
      cases a with
      | false => rw [List.count_cons, List.count_cons]; simp; omega
      | true =>
        have hb : b = true := by simpa using h2 (by simp)
        subst hb
        simpa using h1

theorem sum_map_le {α : Type} (l : List α) (f g : α → Nat) (h : ∀ a ∈ l, f a ≤ g a) : (l.map f).sum ≤ (l.map g).sum := by
  induction l with
  | nil => simp
  | cons a l ih =>
    have h1 := h a (by simp)
    have h2 := ih fun b hb => h b (by simp [hb])
    simp only [List.map_cons, List.sum_cons]; omega

theorem sum_map_add' {α : Type} (l : List α) (f g h : α → Nat) (hh : ∀ a ∈ l, h a = f a + g a) : (l.map h).sum = (l.map f).sum + (l.map g).sum := by
  induction l with
  | nil => simp
  | cons a l ih =>
    have h1 := hh a (by simp)
    have h2 := ih fun b hb => hh b (by simp [hb])
    simp only [List.map_cons, List.sum_cons]; omega

theorem le_sum_of {l : List Nat} {a : Nat} (h : a ∈ l) : a ≤ l.sum := by
  induction l with
  | nil => simp at h
  | cons b l ih =>
    rw [List.sum_cons]
    rcases List.mem_cons.mp h with rfl | h
    · omega
    · have := ih h; omega

theorem total_le (w : World) (s : Nat → St) (hs : ∀ r < w.P, (s r).marks.length = numEdges w r) : total w s ≤ allEdges w := by
  refine sum_map_le _ _ _ fun r hr => ?_
  rw [← hs r (List.mem_range.mp hr)]
  exact List.count_le_length

/-- After an exchange all ranks agree. -/
theorem update_inv {w : World} {faces : Nat → List (List Nat × Nat)} {edges : Nat → Option (List Nat)} (h : Ok w faces edges) (s : Nat → St)
    (hs : Inv w faces edges s) : ∃ t, updateAll w s = some t ∧ Inv w faces edges t ∧ Agree w t ∧ (∀ r < w.P, (t r).upd = []) ∧ total w s ≤ total w t := by
  obtain ⟨t, h1, h2⟩ := update_spec w h.valid s hs.wf
  have hag : Agree w t := by
    intro r hr q hq i j g hi hj hm
    rcases ((h2 r hr).2.2 i).mp hm with hm | ⟨r', hr', e, g', ht, he, hi'⟩
    · rcases hs.pend r hr q hq i j g hi hj hm with hm' | ⟨r', hr', e, he, ht⟩
      · exact ((h2 q hq).2.2 j).mpr (Or.inl hm')
      · exact ((h2 q hq).2.2 j).mpr (Or.inr ⟨r', hr', e, g, ht, he, hj⟩)
    · rw [hi] at hi'; cases hi'
      have hmk := (told_sh w h.valid r' hr' (s r') (hs.wf r' hr') e r ht).2.2
      rcases hs.pend r' hr' q hq e j g he hj hmk with hm' | ⟨r2, hr2, e2, he2, ht2⟩
      · exact ((h2 q hq).2.2 j).mpr (Or.inl hm')
      · exact ((h2 q hq).2.2 j).mpr (Or.inr ⟨r2, hr2, e2, g, ht2, he2, hj⟩)
  refine ⟨t, h1, ⟨?_, ?_, ?_, ?_⟩, hag, fun r hr => (h2 r hr).2.1, ?_⟩
  · intro r hr
    refine ⟨(h2 r hr).1, ?_⟩
    rw [(h2 r hr).2.1]; simp
  · intro r hr i g hm hi
    rcases ((h2 r hr).2.2 i).mp hm with hm | ⟨r', hr', e, g', ht, he, hi'⟩
    · exact hs.sound r hr i g hm hi
    · rw [hi] at hi'; cases hi'
      exact hs.sound r' hr' e g (told_sh w h.valid r' hr' (s r') (hs.wf r' hr') e r ht).2.2 he
  · intro r hr i hi hb
    exact ((h2 r hr).2.2 i).mpr (Or.inl (hs.base r hr i hi hb))
  · intro r hr q hq i j g hi hj hm
    exact Or.inl (hag r hr q hq i j g hi hj hm)
  · refine sum_map_le _ _ _ fun r hr => ?_
    have hr := List.mem_range.mp hr
    refine count_mono _ _ (by rw [(hs.wf r hr).len, (h2 r hr).1]) ?_
    intro i hi
    exact ((h2 r hr).2.2 i).mpr (Or.inl hi)

theorem pass_inv {w : World} {faces : Nat → List (List Nat × Nat)} {edges : Nat → Option (List Nat)} (h : Ok w faces edges) (s : Nat → St)
    (hs : Inv w faces edges s) (hag : Agree w s) : Inv w faces edges (fun r => (facePass w faces r (s r)).1) ∧
      total w (fun r => (facePass w faces r (s r)).1) = total w s + ((List.range w.P).map fun r => (facePass w faces r (s r)).2).sum := by
  have hf := fun r (hr : r < w.P) => faces_spec w h.valid r hr (faces r) (fun f hf => (h.face r hr f hf).1) (s r) 0 (hs.wf r hr)
  refine ⟨⟨fun r hr => (hf r hr).1, ?_, ?_, ?_⟩, ?_⟩
  · intro r hr i g hm hi
    have := (hf r hr).2.2.2.2.2.2.2 (fun i => ∀ g, globalOf w r i = some g → Must w faces edges g) (fun i hm g hi => hs.sound r hr i g hm hi) (by
      intro f hfm e he hq g hg
      obtain ⟨ge, hge⟩ := globalOf_isSome w r e ((h.face r hr f hfm).2 e he)
      exact Must.long r f e ge g hr hfm he hge (hq ge hge) hg) i hm
    exact this g hi
  · intro r hr i hi hb
    exact (hf r hr).2.1 i (hs.base r hr i hi hb)
  · intro r hr q hq i j g hi hj hm
    by_cases hold : (s r).Mk i
    · exact Or.inl ((hf q hq).2.1 j (hag r hr q hq i j g hi hj hold))
    · by_cases hqr : q = r
      · subst hqr
        rw [SubMap.globalOf_inj w h.valid q hq j i g hj hi]
        exact Or.inl hm
      · exact Or.inr ⟨r, hr, i, hi, (hf r hr).2.2.2.1 i q hm hold ⟨hq, hqr, g, j, hi, hj⟩⟩
  · refine sum_map_add' _ _ _ _ fun r hr => ?_
    exact (hf r (List.mem_range.mp hr)).2.2.2.2.1

/-- Closed under the rule on every rank. -/
def ClosedAll (w : World) (faces : Nat → List (List Nat × Nat)) (s : Nat → St) : Prop :=
  ∀ r < w.P, ∀ f ∈ faces r, ∀ e ∈ f.1, (s r).Mk e → (s r).Mk f.2

theorem loop_spec {w : World} {faces : Nat → List (List Nat × Nat)} {edges : Nat → Option (List Nat)} (h : Ok w faces edges) (n : Nat) (s : Nat → St)
    (hs : Inv w faces edges s) (hn : allEdges w < total w s + n) :
    ∃ t, loop w faces n s = some t ∧ Inv w faces edges t ∧ Agree w t ∧ ClosedAll w faces t := by
  induction n generalizing s with
  | zero =>
    have := total_le w s fun r hr => (hs.wf r hr).len
    omega
  | succ n ih =>
    obtain ⟨t, h1, h2, h3, h4, h5⟩ := update_inv h s hs
    obtain ⟨h6, h7⟩ := pass_inv h t h2 h3
    have hunf : loop w faces (n + 1) s = if 0 < ((List.range w.P).map fun r => (facePass w faces r (t r)).2).sum then
        loop w faces n (fun r => (facePass w faces r (t r)).1) else some (fun r => (facePass w faces r (t r)).1) := by
      rw [loop, h1]; rfl
    rw [hunf]
    by_cases hc : 0 < ((List.range w.P).map fun r => (facePass w faces r (t r)).2).sum
    · rw [if_pos hc]
      exact ih _ h6 (by omega)
    · rw [if_neg hc]
      have hz : ∀ r < w.P, (facePass w faces r (t r)).2 = 0 := by
        intro r hr
        have hsum : ((List.range w.P).map fun r => (facePass w faces r (t r)).2).sum = 0 := by omega
        have := le_sum_of (List.mem_map_of_mem (f := fun r => (facePass w faces r (t r)).2) (List.mem_range.mpr hr))
        omega
      have hsame : ∀ r < w.P, (facePass w faces r (t r)).1 = t r ∧ ∀ f ∈ faces r, ∀ e ∈ f.1, (t r).Mk e → (t r).Mk f.2 := by
        intro r hr
        have := faces_spec w h.valid r hr (faces r) (fun f hf => (h.face r hr f hf).1) (t r) 0 (h2.wf r hr)
        exact this.2.2.2.2.2.2.1 (hz r hr)
      refine ⟨_, rfl, h6, ?_, ?_⟩
      · intro r hr q hq i j g hi hj hm
        simp only [(hsame r hr).1] at hm
        simp only [(hsame q hq).1]
        exact h3 r hr q hq i j g hi hj hm
      · intro r hr f hf e he hm
        simp only [(hsame r hr).1] at hm ⊢
        exact (hsame r hr).2 f hf e he hm

/-- Marks given by the caller. -/
theorem marks_spec (w : World) (hw : w.Valid) (r : Nat) (hr : r < w.P) (l : List Nat) (hl : ∀ e ∈ l, e < numEdges w r) (s : St) (hs : Wf w r s)
    (ht : ∀ i q, s.Mk i → Sh w r i q → Told w r s i q) :
    Wf w r (l.foldl (setMark w r) s) ∧ (∀ i, (l.foldl (setMark w r) s).Mk i ↔ s.Mk i ∨ i ∈ l) ∧
      (∀ i q, (l.foldl (setMark w r) s).Mk i → Sh w r i q → Told w r (l.foldl (setMark w r) s) i q) := by
  induction l generalizing s with
  | nil => exact ⟨hs, by simp, ht⟩
  | cons e l ih =>
    obtain ⟨m1, m2, m3, _⟩ := setMark_spec w hw r hr s hs e (hl e (by simp))
    rw [List.foldl_cons]
    obtain ⟨a1, a2, a3⟩ := ih (fun e' h => hl e' (by simp [h])) _ m1 (by
      intro i q hi hsh
      by_cases hm : s.Mk i
      · exact (m3 i q).mpr (Or.inl (ht i q hm hsh))
      · rcases (m2 i).mp hi with h | rfl
        · exact absurd h hm
        · exact (m3 i q).mpr (Or.inr ⟨hm, rfl, hsh⟩))
    refine ⟨a1, ?_, a3⟩
    intro i
    rw [a2 i, m2 i, List.mem_cons]; tauto

theorem start_inv {w : World} {faces : Nat → List (List Nat × Nat)} {edges : Nat → Option (List Nat)} (h : Ok w faces edges) :
    Inv w faces edges (start w edges) := by
  rcases h.given with hn | hg
  · have hst : ∀ r < w.P, start w edges r = ⟨List.replicate (numEdges w r) true, []⟩ := by
      intro r hr; unfold start; rw [hn r hr]
    have hmk : ∀ r < w.P, ∀ i < numEdges w r, (start w edges r).Mk i := by
      intro r hr i hi
      unfold St.Mk
      rw [hst r hr]
      simp [List.getD_eq_getElem?_getD, hi]
    refine ⟨?_, ?_, ?_, ?_⟩
    · intro r hr; rw [hst r hr]; exact ⟨by simp, by simp⟩
    · intro r hr i g hm hi; exact Must.all r i g hr (hn r hr) hi
    · intro r hr i hi _; exact hmk r hr i hi
    · intro r hr q hq i j g hi hj _
      exact Or.inl (hmk q hq j (SubMap.globalOf_lt w q j g hj))
  · have hst : ∀ r < w.P, ∃ l, edges r = some l ∧ Wf w r (start w edges r) ∧ (∀ i, (start w edges r).Mk i ↔ i ∈ l) ∧
        ∀ i q, (start w edges r).Mk i → Sh w r i q → Told w r (start w edges r) i q := by
      intro r hr
      obtain ⟨l, hl, hlt⟩ := hg r hr
      have hfalse : ∀ i, ¬ St.Mk ⟨List.replicate (numEdges w r) false, []⟩ i := by
        intro i
        unfold St.Mk
        rw [List.getD_eq_getElem?_getD, List.getElem?_replicate]
        split <;> simp
      obtain ⟨a1, a2, a3⟩ := marks_spec w h.valid r hr l hlt ⟨List.replicate (numEdges w r) false, []⟩ ⟨by simp, by simp⟩
        (fun i q hi => absurd hi (hfalse i))
      have : start w edges r = l.foldl (setMark w r) ⟨List.replicate (numEdges w r) false, []⟩ := by unfold start; rw [hl]
      rw [this]
      refine ⟨l, hl, a1, ?_, a3⟩
      intro i; rw [a2 i]; simp [hfalse i]
    refine ⟨?_, ?_, ?_, ?_⟩
    · intro r hr; obtain ⟨l, h1, h2, h3, h4⟩ := hst r hr; exact h2
    · intro r hr i g hm hi
      obtain ⟨l, h1, h2, h3, h4⟩ := hst r hr
      exact Must.given r i g l hr h1 ((h3 i).mp hm) hi
    · intro r hr i hi hb
      obtain ⟨l, h1, h2, h3, h4⟩ := hst r hr
      rcases hb with hb | ⟨l', hb, hm⟩
      · rw [h1] at hb; cases hb
      · rw [h1] at hb; cases hb
        exact (h3 i).mpr hm
    · intro r hr q hq i j g hi hj hm
      obtain ⟨l, h1, h2, h3, h4⟩ := hst r hr
      by_cases hqr : q = r
      · subst hqr
        rw [SubMap.globalOf_inj w h.valid q hq j i g hj hi]
        exact Or.inl hm
      · exact Or.inr ⟨r, hr, i, hi, h4 i q hm ⟨hq, hqr, g, j, hi, hj⟩⟩

/-- The result. -/
theorem mark_spec {w : World} {faces : Nat → List (List Nat × Nat)} {edges : Nat → Option (List Nat)} (h : Ok w faces edges) (fuel : Nat)
    (hn : allEdges w < fuel) : ∃ m, markEdges w faces edges fuel = some m ∧ ∀ r < w.P, (m r).length = numEdges w r ∧
      ∀ i g, globalOf w r i = some g → ((m r).getD i false = true ↔ Must w faces edges g) := by
  obtain ⟨s, h1, h2, h3, h4, h5⟩ := update_inv h _ (start_inv h)
  obtain ⟨t, t1, t2, t3, t4⟩ := loop_spec h fuel s h2 (by omega)
  refine ⟨fun r => (t r).marks, ?_, ?_⟩
  · unfold markEdges
    rw [h1]
    show (loop w faces fuel s >>= _) = _
    rw [t1]; rfl
  · intro r hr
    refine ⟨(t2.wf r hr).len, ?_⟩
    intro i g hi
    constructor
    · intro hm; exact t2.sound r hr i g hm hi
    · intro hm
      have key : ∀ g, Must w faces edges g → ∀ q < w.P, ∀ j, globalOf w q j = some g → (t q).Mk j := by
        intro g hg
        induction hg with
        | given r e g l hr hl he hge =>
          intro q hq j hj
          exact t3 r hr q hq e j g hge hj (t2.base r hr e (SubMap.globalOf_lt w r e g hge) (Or.inr ⟨l, hl, he⟩))
        | all r e g hr hl hge =>
          intro q hq j hj
          exact t3 r hr q hq e j g hge hj (t2.base r hr e (SubMap.globalOf_lt w r e g hge) (Or.inl hl))
        | long r f e g g' hr hf he hge _ hg' ih =>
          intro q hq j hj
          exact t3 r hr q hq f.2 j g' hg' hj (t4 r hr f hf e he (ih r hr e hge))
      exact key g hm r hr i hi

end Verif.RefMark
