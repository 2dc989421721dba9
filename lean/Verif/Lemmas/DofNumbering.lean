import Verif.Model.DofmapBuilder
import Verif.Lemmas.BucketFill
import Verif.Lemmas.StdAlg
import Verif.Lemmas.Pack
import Mathlib.Tactic.Ring
import Mathlib.Data.List.Nodup
import Mathlib.Data.List.Basic
import Mathlib.Data.List.GetD
/-!
# Numbering loops of `compute_reordering_map`, and the graph of `reorder_owned`
-/
namespace Verif.Dofmap
open Verif.Offsets Verif.Std

/-- `v` renumbers `0, …, N-1` such that the owned numbers come first. -/
structure Renum (N M : Nat) (own : Nat → Bool) (v : Nat → Nat) : Prop where
  lt : ∀ o, o < N → v o < N
  inj : ∀ a b, a < N → b < N → v a = v b → a = b
  own_iff : ∀ o, o < N → (v o < M ↔ own o = true)
  surj : ∀ x, x < N → ∃ o, o < N ∧ v o = x

/-- Number of `o` when the dofs in `acc` have been numbered. -/
def numOf (M : Nat) (own : Nat → Bool) (acc : List Nat) (o : Nat) : Nat :=
  if own o then (acc.filter own).idxOf o else M + (acc.filter fun o => !own o).idxOf o

def numState (N M : Nat) (own : Nat → Bool) (acc : List Nat) : List (Option Nat) × Nat × Nat :=
  ((List.range N).map fun o => if o ∈ acc then some (numOf M own acc o) else none,
   (acc.filter own).length, M + (acc.filter fun o => !own o).length)

theorem idxOf_append_ne {l : List Nat} {a b : Nat} (h : a ∈ l) : (l ++ [b]).idxOf a = l.idxOf a :=
  List.idxOf_append_of_mem h

theorem numStep_state (N M : Nat) (own : Nat → Bool) (acc : List Nat) (o : Nat) (ho : o < N) :
    numStep own (numState N M own acc) o = numState N M own (if o ∈ acc then acc else acc ++ [o]) := by
  have hget : (numState N M own acc).1.getD o none = if o ∈ acc then some (numOf M own acc o) else none := by
    unfold numState
    rw [List.getD_eq_getElem?_getD, List.getElem?_map, List.getElem?_range ho]; rfl
  unfold numStep
  rw [hget]
  by_cases hc : o ∈ acc
  · simp [hc]
  · simp only [if_neg hc, if_true]
    have hold : ∀ x, x ∈ acc → numOf M own (acc ++ [o]) x = numOf M own acc x := by
      intro x hx
      unfold numOf
      split
      · rename_i hx'
        rw [List.filter_append, List.idxOf_append_of_mem (List.mem_filter.mpr ⟨hx, hx'⟩)]
      · rename_i hx'
        rw [List.filter_append, List.idxOf_append_of_mem (List.mem_filter.mpr ⟨hx, by simpa using hx'⟩)]
    have htab : ∀ y, numOf M own (acc ++ [o]) o = y →
        (numState N M own acc).1.set o (some y) = (numState N M own (acc ++ [o])).1 := by
      intro y hy
      apply List.ext_getElem?
      intro i
      unfold numState
      by_cases hi : i = o
      · subst hi
        rw [List.getElem?_set_self (by simpa using ho), List.getElem?_map, List.getElem?_range ho]
        simp [hy]
      · rw [List.getElem?_set_ne (fun h => hi h.symm), List.getElem?_map, List.getElem?_map]
        by_cases hN : i < N
        · rw [List.getElem?_range hN]
          simp only [Option.map_some, List.mem_append, List.mem_singleton, hi, or_false]
          by_cases hia : i ∈ acc
          · rw [if_pos hia, if_pos hia, hold i hia]
          · rw [if_neg hia, if_neg hia]
        · rw [List.getElem?_eq_none (by simpa using hN)]; rfl
    by_cases hw : own o = true
    · rw [if_pos hw]
      have hy : numOf M own (acc ++ [o]) o = (acc.filter own).length := by
        unfold numOf
        rw [if_pos hw, List.filter_append, List.idxOf_append_of_notMem (fun h => hc (List.mem_filter.mp h).1)]
        simp [hw]
      have h2 := htab _ hy
      refine Prod.ext ?_ (Prod.ext ?_ ?_)
      · exact h2
      · simp [numState, List.filter_append, hw]
      · simp [numState, List.filter_append, hw]
    · rw [if_neg hw]
      have hy : numOf M own (acc ++ [o]) o = M + (acc.filter fun o => !own o).length := by
        unfold numOf
        rw [if_neg hw, List.filter_append, List.idxOf_append_of_notMem (fun h => hc (List.mem_filter.mp h).1)]
        simp [hw]
      have h2 := htab _ hy
      refine Prod.ext ?_ (Prod.ext ?_ ?_)
      · exact h2
      · simp [numState, List.filter_append, hw]
      · simp [numState, List.filter_append, hw]; omega

theorem numFold (N M : Nat) (own : Nat → Bool) (V : List Nat) (hV : ∀ o ∈ V, o < N) (acc : List Nat)
    (hn : acc.Nodup) (hacc : ∀ o ∈ acc, o < N) :
    ∃ acc', V.foldl (numStep own) (numState N M own acc) = numState N M own acc' ∧ acc'.Nodup ∧
      (∀ o ∈ acc', o < N) ∧ ∀ o, o ∈ acc ∨ o ∈ V → o ∈ acc' := by
  induction V generalizing acc with
  | nil => exact ⟨acc, rfl, hn, hacc, by simp⟩
  | cons a V ih =>
    rw [List.foldl_cons, numStep_state N M own acc a (hV a (by simp))]
    obtain ⟨acc', h1, h2, h3, h4⟩ := ih (fun o ho => hV o (by simp [ho])) (if a ∈ acc then acc else acc ++ [a])
      (by
        split
        · exact hn
        · rename_i h
          rw [List.nodup_append]
          refine ⟨hn, by simp, ?_⟩
          intro x hx y hy hxy
          simp only [List.mem_singleton] at hy
          exact h (hy ▸ hxy ▸ hx))
      (by
        intro o ho
        split at ho
        · exact hacc o ho
        · rcases List.mem_append.mp ho with h | h
          · exact hacc o h
          · simp only [List.mem_singleton] at h
            rw [h]; exact hV a (by simp))
    refine ⟨acc', h1, h2, h3, ?_⟩
    intro o ho
    apply h4
    rcases ho with h | h
    · left; split
      · exact h
      · simp [h]
    · rcases List.mem_cons.mp h with h | h
      · left; subst h; split
        · assumption
        · simp
      · right; exact h

theorem numState_nil (N M : Nat) (own : Nat → Bool) : numState N M own [] = (List.replicate N none, 0, M) := by
  unfold numState
  simp

theorem renum_numOf (N : Nat) (own : Nat → Bool) (acc : List Nat) (hp : acc.Perm (List.range N)) :
    Renum N ((List.range N).countP own) own (numOf ((List.range N).countP own) own acc) := by
  have hM : (acc.filter own).length = (List.range N).countP own := by
    rw [← List.countP_eq_length_filter]; exact hp.countP_eq _
  have hN : (acc.filter own).length + (acc.filter fun o => !own o).length = N := by
    have := List.length_eq_length_filter_add (l := acc) own
    rw [hp.length_eq, List.length_range] at this
    omega
  rw [← hM]
  have hnd : acc.Nodup := hp.nodup_iff.mpr List.nodup_range
  have hmem : ∀ o, o < N → o ∈ acc := fun o ho => hp.mem_iff.mpr (List.mem_range.mpr ho)
  have hpos : ∀ o, o < N → own o = true → o ∈ acc.filter own := fun o ho h => List.mem_filter.mpr ⟨hmem o ho, h⟩
  have hneg : ∀ o, o < N → ¬ own o = true → o ∈ acc.filter fun o => !own o :=
    fun o ho h => List.mem_filter.mpr ⟨hmem o ho, by simpa using h⟩
  refine ⟨?_, ?_, ?_, ?_⟩
  · intro o ho
    unfold numOf
    split
    · rename_i h
      have := List.idxOf_lt_length_of_mem (hpos o ho h); omega
    · rename_i h
      have := List.idxOf_lt_length_of_mem (hneg o ho h); omega
  · intro a b ha hb h
    unfold numOf at h
    by_cases h1 : own a = true <;> by_cases h2 : own b = true
    · rw [if_pos h1, if_pos h2] at h
      exact (List.idxOf_inj (hpos a ha h1)).mp h
    · rw [if_pos h1, if_neg h2] at h
      have := List.idxOf_lt_length_of_mem (hpos a ha h1); omega
    · rw [if_neg h1, if_pos h2] at h
      have := List.idxOf_lt_length_of_mem (hpos b hb h2); omega
    · rw [if_neg h1, if_neg h2] at h
      exact (List.idxOf_inj (hneg a ha h1)).mp (by omega)
  · intro o ho
    unfold numOf
    by_cases h : own o = true
    · rw [if_pos h]
      have := List.idxOf_lt_length_of_mem (hpos o ho h)
      simp [h, this]
    · rw [if_neg h]
      simp [h]
  · intro x hx
    by_cases hxM : x < (acc.filter own).length
    · have hm := List.getElem_mem hxM
      obtain ⟨h1, h2⟩ := List.mem_filter.mp hm
      refine ⟨(acc.filter own)[x], List.mem_range.mp (hp.mem_iff.mp h1), ?_⟩
      unfold numOf
      rw [if_pos h2, (hnd.filter _).idxOf_getElem x hxM]
    · have hxN : x - (acc.filter own).length < (acc.filter fun o => !own o).length := by omega
      have hm := List.getElem_mem hxN
      obtain ⟨h1, h2⟩ := List.mem_filter.mp hm
      refine ⟨(acc.filter fun o => !own o)[x - (acc.filter own).length], List.mem_range.mp (hp.mem_iff.mp h1), ?_⟩
      unfold numOf
      rw [if_neg (by simpa using h2), (hnd.filter _).idxOf_getElem _ hxN]
      omega

/-- The two numbering loops number all dofs, owned ones first. -/
theorem numbering (N : Nat) (own : Nat → Bool) (V : List Nat) (hV : ∀ o ∈ V, o < N) :
    ∃ v, Renum N ((List.range N).countP own) own v ∧
      ((List.range N).foldl (numStep own) (V.foldl (numStep own)
        (List.replicate N none, 0, (List.range N).countP own))).1 = (List.range N).map fun o => some (v o) := by
  rw [← numState_nil N ((List.range N).countP own) own]
  obtain ⟨acc, h1, h2, h3, h4⟩ := numFold N ((List.range N).countP own) own V hV [] (by simp) (by simp)
  rw [h1]
  obtain ⟨acc', h1', h2', h3', h4'⟩ := numFold N ((List.range N).countP own) own (List.range N)
    (fun o ho => List.mem_range.mp ho) acc h2 h3
  rw [h1']
  have hp : acc'.Perm (List.range N) := by
    apply (List.perm_ext_iff_of_nodup h2' List.nodup_range).mpr
    intro o
    exact ⟨fun h => List.mem_range.mpr (h3' o h), fun h => h4' o (Or.inr h)⟩
  refine ⟨_, renum_numOf N own acc' hp, ?_⟩
  unfold numState
  apply List.map_congr_left
  intro o ho
  rw [if_pos (h4' o (Or.inr ho))]

/-- Renumbering the owned numbers by a permutation. -/
theorem renum_remap {N M : Nat} {own : Nat → Bool} {v : Nat → Nat} (h : Renum N M own v) (remap : List Nat)
    (hp : remap.Perm (List.range M)) (hMN : M ≤ N) :
    Renum N M own (fun o => if v o < M then remap.getD (v o) 0 else v o) := by
  have hlen : remap.length = M := by rw [hp.length_eq, List.length_range]
  have hnd : remap.Nodup := hp.nodup_iff.mpr List.nodup_range
  have hg : ∀ x (hx : x < M), remap.getD x 0 = remap[x]'(by omega) := by
    intro x hx
    rw [List.getD_eq_getElem?_getD, List.getElem?_eq_getElem (by omega)]; rfl
  have hlt : ∀ x, x < M → remap.getD x 0 < M := by
    intro x hx
    rw [hg x hx]
    exact List.mem_range.mp (hp.mem_iff.mp (List.getElem_mem _))
  refine ⟨?_, ?_, ?_, ?_⟩
  · intro o ho
    split
    · rename_i hx; have := hlt _ hx; omega
    · exact h.lt o ho
  · intro a b ha hb hab
    beta_reduce at hab
    apply h.inj a b ha hb
    by_cases h1 : v a < M <;> by_cases h2 : v b < M
    · rw [if_pos h1, if_pos h2, hg _ h1, hg _ h2] at hab
      exact hnd.getElem_inj_iff.mp hab
    · rw [if_pos h1, if_neg h2] at hab
      have := hlt _ h1; omega
    · rw [if_neg h1, if_pos h2] at hab
      have := hlt _ h2; omega
    · rw [if_neg h1, if_neg h2] at hab
      exact hab
  · intro o ho
    rw [← h.own_iff o ho]
    split
    · rename_i hx; exact iff_of_true (hlt _ hx) hx
    · rename_i hx; simp
  · intro x hx
    by_cases hxM : x < M
    · have hm : x ∈ remap := hp.mem_iff.mpr (List.mem_range.mpr hxM)
      obtain ⟨y, hy, hyx⟩ := List.getElem_of_mem hm
      obtain ⟨o, ho, hoy⟩ := h.surj y (by omega)
      refine ⟨o, ho, ?_⟩
      rw [hoy, if_pos (by omega), hg y (by omega), hyx]
    · obtain ⟨o, ho, hoy⟩ := h.surj x hx
      refine ⟨o, ho, ?_⟩
      rw [hoy, if_neg hxM]

/-! ## The graph -/

theorem cellEdges_cnt (l : List Nat) (v : Nat) : cnt Prod.fst (cellEdges l) v = l.count v * (l.length - 1) := by
  induction l with
  | nil => rfl
  | cons a l ih =>
    have h1 : cnt Prod.fst (l.flatMap fun b => [(a, b), (b, a)]) v = (if a = v then l.length else 0) + l.count v := by
      clear ih
      induction l with
      | nil => simp [cnt]
      | cons b l ih =>
        unfold cnt at ih ⊢
        rw [List.flatMap_cons, List.countP_append, ih]
        simp only [List.countP_cons, List.countP_nil, beq_iff_eq, List.length_cons, List.count_cons]
        split <;> split <;> omega
    unfold cnt at h1 ih ⊢
    rw [cellEdges, List.countP_append, h1, ih, List.count_cons, List.length_cons]
    simp only [beq_iff_eq, Nat.add_sub_cancel]
    cases l with
    | nil => simp
    | cons b l =>
      simp only [List.length_cons, Nat.add_sub_cancel]
      split
      · ring
      · ring

theorem modify_fold (l : List Nat) (n : Nat) (a : List Nat) (hl : ∀ v ∈ l, v < a.length) (v : Nat) (hv : v < a.length) :
    (l.foldl (fun a v => a.modify v (· + n)) a).getD v 0 = a.getD v 0 + l.count v * n ∧
      (l.foldl (fun a v => a.modify v (· + n)) a).length = a.length := by
  induction l generalizing a with
  | nil => simp
  | cons x l ih =>
    rw [List.foldl_cons]
    obtain ⟨h1, h2⟩ := ih (a.modify x (· + n)) (by simpa using fun y hy => hl y (by simp [hy])) (by simpa using hv)
    rw [h1, h2, List.length_modify]
    refine ⟨?_, rfl⟩
    rw [List.getD_eq_getElem?_getD, List.getD_eq_getElem?_getD, List.getElem?_modify, List.getElem?_eq_getElem hv]
    by_cases hx : x = v
    · subst hx; simp; ring
    · simp [hx]

theorem numEdges_get (m : Nat) (cells : List (List Nat)) (hc : ∀ l ∈ cells, ∀ v ∈ l, v < m) (v : Nat) (hv : v < m) :
    (numEdges m cells).getD v 0 = cnt Prod.fst (cells.flatMap cellEdges) v := by
  have key : ∀ (cells : List (List Nat)) (a : List Nat), (∀ l ∈ cells, ∀ v ∈ l, v < a.length) → v < a.length →
      (cells.foldl (fun a l => l.foldl (fun a v => a.modify v (· + (l.length - 1))) a) a).getD v 0 =
        a.getD v 0 + cnt Prod.fst (cells.flatMap cellEdges) v := by
    intro cells
    induction cells with
    | nil => intro a _ _; simp [cnt]
    | cons l cells ih =>
      intro a h1 h2
      obtain ⟨h3, h4⟩ := modify_fold l (l.length - 1) a (h1 l (by simp)) v h2
      rw [List.foldl_cons, ih _ (by rw [h4]; intro l' hl'; exact h1 l' (by simp [hl'])) (by rw [h4]; exact h2), h3,
        List.flatMap_cons]
      have h5 := cellEdges_cnt l v
      unfold cnt at h5 ⊢
      rw [List.countP_append, h5]
      omega
  unfold numEdges
  rw [key _ _ (by simpa using hc) (by simpa using hv)]
  simp [hv]

theorem mem_cellEdges (l : List Nat) (a b : Nat) : (a, b) ∈ cellEdges l → a ∈ l ∧ b ∈ l ∧ (b, a) ∈ cellEdges l := by
  induction l with
  | nil => simp [cellEdges]
  | cons x l ih =>
    intro h
    rw [cellEdges, List.mem_append] at h
    rw [cellEdges]
    rcases h with h | h
    · obtain ⟨y, hy, h⟩ := List.mem_flatMap.mp h
      simp only [List.mem_cons, Prod.mk.injEq, List.not_mem_nil, or_false] at h
      rcases h with ⟨rfl, rfl⟩ | ⟨rfl, rfl⟩
      · exact ⟨by simp, by simp [hy], List.mem_append_left _ (List.mem_flatMap.mpr ⟨b, hy, by simp⟩)⟩
      · exact ⟨by simp [hy], by simp, List.mem_append_left _ (List.mem_flatMap.mpr ⟨a, hy, by simp⟩)⟩
    · obtain ⟨h1, h2, h3⟩ := ih h
      exact ⟨by simp [h1], by simp [h2], List.mem_append_right _ h3⟩

theorem mem_cellEdges_iff (l : List Nat) (hn : l.Nodup) (a b : Nat) :
    (a, b) ∈ cellEdges l ↔ a ∈ l ∧ b ∈ l ∧ a ≠ b := by
  induction l with
  | nil => simp [cellEdges]
  | cons x l ih =>
    obtain ⟨hx, hn'⟩ := List.nodup_cons.mp hn
    rw [cellEdges, List.mem_append, ih hn', List.mem_flatMap]
    simp only [List.mem_cons, Prod.mk.injEq, List.not_mem_nil, or_false]
    constructor
    · rintro (⟨y, hy, ⟨rfl, rfl⟩ | ⟨rfl, rfl⟩⟩ | ⟨h1, h2, h3⟩)
      · exact ⟨Or.inl rfl, Or.inr hy, fun h => hx (h ▸ hy)⟩
      · exact ⟨Or.inr hy, Or.inl rfl, fun h => hx (h ▸ hy)⟩
      · exact ⟨Or.inr h1, Or.inr h2, h3⟩
    · rintro ⟨h1, h2, h3⟩
      rcases h1 with rfl | h1
      · rcases h2 with rfl | h2
        · exact absurd rfl h3
        · exact Or.inl ⟨b, h2, Or.inl ⟨rfl, rfl⟩⟩
      · rcases h2 with rfl | h2
        · exact Or.inl ⟨a, h1, Or.inr ⟨rfl, rfl⟩⟩
        · exact Or.inr ⟨h1, h2, h3⟩

theorem mem_dofGraph (m : Nat) (cells : List (List Nat)) (hc : ∀ l ∈ cells, ∀ v ∈ l, v < m) (a b : Nat) (ha : a < m) :
    b ∈ (dofGraph m cells).getD a [] ↔ (a, b) ∈ cells.flatMap cellEdges := by
  have hkey : ∀ x ∈ cells.flatMap cellEdges, x.1 < m := by
    rintro ⟨x, y⟩ hx
    obtain ⟨l, hl, h⟩ := List.mem_flatMap.mp hx
    exact hc l hl x (mem_cellEdges l x y h).1
  have hex : ∀ v, v ≤ m → excl (fun v => (numEdges m cells).getD v 0) v = excl (cnt Prod.fst (cells.flatMap cellEdges)) v := by
    intro v hv
    apply excl_congr
    intro i hi
    exact numEdges_get m cells hc i (by omega)
  have hedges : edges m cells = (List.range m).flatMap
      (fun b => ((cells.flatMap cellEdges).filter (fun x => x.1 == b)).map Prod.snd) := by
    unfold edges
    rw [hex m (Nat.le_refl m)]
    have htot := excl_cnt_total Prod.fst (cells.flatMap cellEdges) m hkey
    rw [htot]
    rw [← fill_eq_buckets Prod.fst Prod.snd (List.replicate (cells.flatMap cellEdges).length 0) _ m hkey (by simp)]
    -- the cursors only matter below `m`
    have hgen : ∀ (l : List (Nat × Nat)) (c c' : Nat → Nat) (buf : List Nat), (∀ x ∈ l, x.1 < m) →
        (∀ v, v < m → c v = c' v) → (fill Prod.fst Prod.snd c buf l).2 = (fill Prod.fst Prod.snd c' buf l).2 := by
      intro l
      induction l with
      | nil => intro c c' buf _ _; rfl
      | cons x l ih =>
        intro c c' buf h1 h2
        unfold fill
        rw [List.foldl_cons, List.foldl_cons]
        have hx := h1 x (by simp)
        unfold fillStep
        simp only
        rw [h2 x.1 hx]
        apply ih _ _ _ (fun y hy => h1 y (by simp [hy]))
        intro v hv
        rw [h2 v hv]
    exact hgen _ _ _ _ hkey (fun v hv => hex v (by omega))
  have hrow : (dofGraph m cells).getD a [] =
      unique (sortNat (((cells.flatMap cellEdges).filter (fun x => x.1 == a)).map Prod.snd)) := by
    unfold dofGraph
    rw [List.getD_eq_getElem?_getD, List.getElem?_map, List.getElem?_range ha]
    simp only [Option.map_some, Option.getD_some]
    congr 2
    rw [hex a (by omega), numEdges_get m cells hc a ha, hedges]
    have := Group.slice_flatMap_range
      (fun b => ((cells.flatMap cellEdges).filter (fun x => x.1 == b)).map Prod.snd) m a ha
    have hl : ∀ b, (((cells.flatMap cellEdges).filter (fun x => x.1 == b)).map Prod.snd).length =
        cnt Prod.fst (cells.flatMap cellEdges) b := by
      intro b; rw [List.length_map, cnt_eq_length]
    simp only [hl] at this
    rw [excl_succ, Nat.add_sub_cancel_left] at this
    exact this
  rw [hrow, mem_unique_sortNat, List.mem_map]
  constructor
  · rintro ⟨⟨x, y⟩, h, rfl⟩
    obtain ⟨h1, h2⟩ := List.mem_filter.mp h
    simp only [beq_iff_eq] at h2
    rw [← h2]; exact h1
  · intro h
    exact ⟨(a, b), List.mem_filter.mpr ⟨h, by simp⟩, rfl⟩

theorem dofGraph_length (m : Nat) (cells : List (List Nat)) : (dofGraph m cells).length = m := by
  unfold dofGraph; simp

/-- Links of the graph name owned dofs, and every link is mutual. -/
theorem dofGraph_symm (m : Nat) (cells : List (List Nat)) (hc : ∀ l ∈ cells, ∀ v ∈ l, v < m) :
    (∀ l ∈ dofGraph m cells, ∀ b ∈ l, b < m) ∧
    ∀ a b, b ∈ (dofGraph m cells).getD a [] → a ∈ (dofGraph m cells).getD b [] := by
  have hb : ∀ a b, b ∈ (dofGraph m cells).getD a [] → a < m ∧ b < m ∧ a ∈ (dofGraph m cells).getD b [] := by
    intro a b h
    have ha : a < m := by
      by_contra hn
      rw [List.getD_eq_getElem?_getD, List.getElem?_eq_none (by rw [dofGraph_length]; omega)] at h
      simp at h
    rw [mem_dofGraph m cells hc a b ha] at h
    obtain ⟨l, hl, h⟩ := List.mem_flatMap.mp h
    obtain ⟨h1, h2, h3⟩ := mem_cellEdges l a b h
    have hbm := hc l hl b h2
    exact ⟨ha, hbm, (mem_dofGraph m cells hc b a hbm).mpr (List.mem_flatMap.mpr ⟨l, hl, h3⟩)⟩
  refine ⟨?_, fun a b h => (hb a b h).2.2⟩
  intro l hl b hbl
  obtain ⟨i, hi, rfl⟩ := List.getElem_of_mem hl
  have := hb i b (by rw [List.getD_eq_getElem?_getD, List.getElem?_eq_getElem hi]; exact hbl)
  exact this.2.1

end Verif.Dofmap
