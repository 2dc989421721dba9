import Verif.Lemmas.NewVertices
import Verif.Lemmas.RefineNumbers
import Verif.Model.IntervalRefinement
import Verif.Spec.IntervalRefinement
import Verif.Props.C54_NewVertices
/-!
# C57: refinement of meshes of intervals
-/
namespace Verif.Props
open Verif.World Verif.Spec Verif.Spec.Intervals Verif.Spec.Vertices Verif.IntervalRef

theorem C57_aux_marks (we : World) (hw : we.Valid) (cells : Nat → Option (List Nat))
    (he : (∀ r < we.P, cells r = none) ∨ (∀ r < we.P, ∃ l, cells r = some l ∧ ∀ e ∈ l, e < we.size r + (we.ghosts r).length)) :
    ∃ m, IntervalRef.marks we cells = some m ∧ ∀ r < we.P, ∀ i g, globalOf we r i = some g → ((m r).getD i false = true ↔ Asked we cells g) := by
  have hok : RefMark.Ok we (fun _ => []) cells := ⟨hw, by simp, he⟩
  have hmust : ∀ g, Marks.Must we (fun _ => []) cells g → Asked we cells g := by
    intro g hm
    induction hm with
    | given r e g l hr hl hel hg => exact ⟨r, hr, e, hg, Or.inr ⟨l, hl, hel⟩⟩
    | all r e g hr hn hg => exact ⟨r, hr, e, hg, Or.inl hn⟩
    | long r face e g g' hr hf => cases hf
  have hs := RefMark.start_inv hok
  by_cases hall : (List.range we.P).all (fun r => (cells r).isNone) = true
  · refine ⟨_, by unfold IntervalRef.marks; rw [if_pos hall], fun r hr i g hg => ?_⟩
    have hnone : cells r = none := by
      rw [List.all_eq_true] at hall
      simpa using hall r (List.mem_range.mpr hr)
    exact ⟨fun hm => hmust g (hs.sound r hr i g hm hg), fun _ => hs.base r hr i (SubMap.globalOf_lt we r i g hg) (Or.inl hnone)⟩
  · obtain ⟨t, h1, h2, h3, h4, h5⟩ := RefMark.update_inv hok _ hs
    refine ⟨_, by unfold IntervalRef.marks; rw [if_neg hall, h1]; rfl, fun r hr i g hg => ?_⟩
    refine ⟨fun hm => hmust g (h2.sound r hr i g hm hg), ?_⟩
    rintro ⟨q, hq, j, hj, hb⟩
    exact h3 q hq r hr j i g hj hg (h2.base q hq j (SubMap.globalOf_lt we q j g hj) hb)

theorem C57_aux_rank (size : Nat) (adj : List Nat) (marks : List Bool) (new : List Nat × List Nat) (c2v : List (List Nat)) (rows : Nat → List (List Nat))
    (h : ∀ c < size, (c2v[c]?).bind (cellRows adj (marks.getD c false) (RefMark.links new.1 new.2 c)) = some (rows c)) :
    IntervalRef.refineRank size adj marks new c2v =
      some ((List.range size).flatMap rows, (List.range size).flatMap fun c => List.replicate (rows c).length c) := by
  unfold IntervalRef.refineRank
  rw [mapM_some _ _ rows fun c hc => h c (List.mem_range.mp hc)]
  simp only [Option.bind_eq_bind, Option.bind_some, Option.pure_def, Option.some.injEq, Prod.mk.injEq]
  refine ⟨by rw [List.flatMap_def], ?_⟩
  exact Refine.zipIdx_map_range size rows fun p => List.replicate p.1.length p.2

theorem C57_aux_range (f : Nat → Nat) (n : Nat) :
    List.range (Offsets.excl f n) = (List.range n).flatMap fun r => (List.range (f r)).map fun c => Offsets.excl f r + c := by
  induction n with
  | zero => rfl
  | succ n ih =>
    rw [Offsets.excl_succ, List.range_add, ih, List.range_succ, List.flatMap_append]
    simp

theorem C57_aux_sum (l : List Nat) (f : Nat → Nat) (p : Nat → Bool) (k : Nat) (h : ∀ g ∈ l, f g = if p g then k else 0) :
    (l.map f).sum = k * l.countP p := by
  induction l with
  | nil => simp
  | cons g l ih =>
    rw [List.map_cons, List.sum_cons, ih fun g hg => h g (List.mem_cons_of_mem _ hg), h g (List.mem_cons_self ..), List.countP_cons]
    split <;> ring

/-- Refining a mesh of intervals on any number of ranks divides exactly the requested cells, each at its own new vertex, and keeps
the others; the parents are the cells themselves.  Old vertices belong to as many cells as before, new ones to two. -/
theorem C57_intervals (we wv : World) (hw : we.Valid) (hv : wv.Valid) (hP : wv.P = we.P) (c2v : Nat → List (List Nat)) (ends : Nat → Nat × Nat)
    (hc : CellsOk we wv c2v ends) (cells : Nat → Option (List Nat))
    (he : (∀ r < we.P, cells r = none) ∨ (∀ r < we.P, ∃ l, cells r = some l ∧ ∀ e ∈ l, e < we.size r + (we.ghosts r).length)) :
    ∃ (m : Nat → List Bool) (old mid : Nat → Nat) (N : Nat) (out : List (List (List Nat) × List Nat)) (rows : Nat → Nat → List (List Nat)), IntervalRef.marks we cells = some m ∧ IntervalRef.refineMesh we wv c2v cells = some out ∧ out.length = we.P ∧
      old = NewVert.oldNum we wv m ∧ mid = NewVert.midNum we wv m ∧
      Numbering (wv.r0 wv.P) (we.r0 we.P) (Asked we cells) old mid N ∧
      (∀ r o, out[r]? = some o → o.1 = (List.range (we.size r)).flatMap (rows r) ∧
        o.2 = (List.range (we.size r)).flatMap fun c => List.replicate (rows r c).length c) ∧
      (∀ r < we.P, ∀ c < we.size r, Divided (Asked we cells (we.r0 r + c)) (old (ends (we.r0 r + c)).1) (old (ends (we.r0 r + c)).2)
        (mid (we.r0 r + c)) (rows r c)) ∧
      (∀ a < wv.r0 wv.P, (out.flatMap Prod.fst).countP (fun k => decide (old a ∈ k)) =
        (List.range (we.r0 we.P)).countP fun g => decide (a = (ends g).1 ∨ a = (ends g).2)) ∧
      (∀ g < we.r0 we.P, Asked we cells g → (out.flatMap Prod.fst).countP (fun k => decide (mid g ∈ k)) = 2) := by
  classical
  obtain ⟨m, hm, hM⟩ := C57_aux_marks we hw cells he
  obtain ⟨new, hn1, hn2⟩ := NewVert.newVertices_spec we hw wv m _ hM
  have hnum := NewVert.numbering we wv hP m _ hM
  set old := NewVert.oldNum we wv m with hold
  set mid := NewVert.midNum we wv m with hmid
  set rowG : Nat → List (List Nat) := fun g =>
    if Asked we cells g then [[old (ends g).1, mid g], [mid g, old (ends g).2]] else [[old (ends g).1, old (ends g).2]] with hrowG
  have hown : ∀ r < we.P, ∀ c < we.size r, globalOf we r c = some (we.r0 r + c) := fun r _ c hc => by unfold globalOf; rw [if_pos hc]
  have hcell : ∀ r < we.P, ∀ c < we.size r, ((c2v r)[c]?).bind (cellRows (NewVert.adjust we wv m r) ((m r).getD c false)
      (RefMark.links (new r).1 (new r).2 c)) = some (rowG (we.r0 r + c)) := by
    intro r hr c hcs
    obtain ⟨v0, v1, e1, e2, e3, _⟩ := hc r hr c hcs
    have a1 := NewVert.adjust_spec we wv hv m r (by omega) v0 _ e2
    have a2 := NewVert.adjust_spec we wv hv m r (by omega) v1 _ e3
    obtain ⟨n1, n2⟩ := hn2 r hr c _ (hown r hr c hcs)
    have hmk := hM r hr c _ (hown r hr c hcs)
    rw [e1, Option.bind_some]
    unfold cellRows
    simp only [Option.bind_eq_bind, Option.bind_some, a1, a2]
    by_cases hreq : Asked we cells (we.r0 r + c)
    · rw [hmk.mpr hreq, n1 hreq, if_pos rfl, hrowG]
      simp only
      rw [if_pos hreq]
    · have : (m r).getD c false = false := by
        rw [Bool.eq_false_iff]; exact fun hh => hreq (hmk.mp hh)
      rw [this, hrowG]
      simp only
      rw [if_neg hreq]
      simp
      exact ⟨rfl, rfl⟩
  have hout : IntervalRef.refineMesh we wv c2v cells = some ((List.range we.P).map fun r =>
      ((List.range (we.size r)).flatMap fun c => rowG (we.r0 r + c), (List.range (we.size r)).flatMap fun c => List.replicate (rowG (we.r0 r + c)).length c)) := by
    unfold IntervalRef.refineMesh
    rw [hm]
    simp only [Option.bind_eq_bind, Option.bind_some, hn1]
    exact mapM_some _ _ _ fun r hr => C57_aux_rank _ _ _ _ _ _ (hcell r (List.mem_range.mp hr))
  have hflat : ((List.range we.P).map fun r => ((List.range (we.size r)).flatMap fun c => rowG (we.r0 r + c),
      (List.range (we.size r)).flatMap fun c => List.replicate (rowG (we.r0 r + c)).length c)).flatMap Prod.fst = (List.range (we.r0 we.P)).flatMap rowG := by
    rw [List.flatMap_map]
    have : List.range (we.r0 we.P) = (List.range we.P).flatMap fun r => (List.range (we.size r)).map fun c => we.r0 r + c := C57_aux_range we.size we.P
    rw [this, List.flatMap_assoc]
    refine List.flatMap_congr fun r _ => ?_
    rw [List.flatMap_map]
  -- owned cells by global numbers
  have hends : ∀ g < we.r0 we.P, (ends g).1 < wv.r0 wv.P ∧ (ends g).2 < wv.r0 wv.P ∧ (ends g).1 ≠ (ends g).2 := by
    intro g hg
    have hmem : g ∈ (List.range we.P).flatMap fun r => (List.range (we.size r)).map fun c => we.r0 r + c := by
      have : List.range (we.r0 we.P) = (List.range we.P).flatMap fun r => (List.range (we.size r)).map fun c => we.r0 r + c := C57_aux_range we.size we.P
      rw [← this]; exact List.mem_range.mpr hg
    obtain ⟨r, hr, hmem⟩ := List.mem_flatMap.mp hmem
    obtain ⟨c, hcs, rfl⟩ := List.mem_map.mp hmem
    have hr := List.mem_range.mp hr
    obtain ⟨v0, v1, e1, e2, e3, e4⟩ := hc r hr c (List.mem_range.mp hcs)
    exact ⟨globalOf_lt_total wv hv r (by omega) _ _ e2, globalOf_lt_total wv hv r (by omega) _ _ e3, e4⟩
  refine ⟨m, old, mid, _, _, fun r c => rowG (we.r0 r + c), hm, hout, by simp, rfl, rfl, hnum, ?_, ?_, ?_, ?_⟩
  · intro r o ho
    rw [List.getElem?_map] at ho
    by_cases hr : r < we.P
    · rw [List.getElem?_range hr] at ho
      cases ho
      exact ⟨rfl, rfl⟩
    · rw [List.getElem?_eq_none (by simpa using hr)] at ho
      cases ho
  · intro r hr c hcs
    unfold Divided
    by_cases hreq : Asked we cells (we.r0 r + c)
    · left; refine ⟨hreq, ?_⟩; simp only [hrowG]; rw [if_pos hreq]
    · right; refine ⟨hreq, ?_⟩; simp only [hrowG]; rw [if_neg hreq]
  · intro a ha
    rw [hflat, List.countP_flatMap]
    refine (C57_aux_sum _ _ (fun g => decide (a = (ends g).1 ∨ a = (ends g).2)) 1 ?_).trans (Nat.one_mul _)
    intro g hg
    have hg := List.mem_range.mp hg
    obtain ⟨e1, e2, e3⟩ := hends g hg
    have i1 : old a = old (ends g).1 ↔ a = (ends g).1 := ⟨hnum.old_inj a ha _ e1, fun h => by rw [h]⟩
    have i2 : old a = old (ends g).2 ↔ a = (ends g).2 := ⟨hnum.old_inj a ha _ e2, fun h => by rw [h]⟩
    simp only [Function.comp, hrowG]
    by_cases hreq : Asked we cells g
    · have i3 : old a ≠ mid g := hnum.disj a ha g hg hreq
      rw [if_pos hreq]
      simp only [List.countP_cons, List.countP_nil, List.mem_cons, List.not_mem_nil, or_false, i1, i2, i3, false_or, decide_eq_true_eq]
      by_cases h1 : a = (ends g).1
      · have h2 : a ≠ (ends g).2 := fun h => e3 (h1.symm.trans h)
        simp [h1, e3]
      · simp [h1]
    · rw [if_neg hreq]
      simp only [List.countP_cons, List.countP_nil, List.mem_cons, List.not_mem_nil, or_false, i1, i2, decide_eq_true_eq, Nat.zero_add]
  · intro g hg hreq
    rw [hflat, List.countP_flatMap]
    refine (C57_aux_sum _ _ (fun g' => decide (g' = g)) 2 ?_).trans ?_
    · intro g' hg'
      have hg' := List.mem_range.mp hg'
      obtain ⟨e1, e2, e3⟩ := hends g' hg'
      have i1 : mid g ≠ old (ends g').1 := (hnum.disj _ e1 g hg hreq).symm
      have i2 : mid g ≠ old (ends g').2 := (hnum.disj _ e2 g hg hreq).symm
      simp only [Function.comp, hrowG]
      by_cases hreq' : Asked we cells g'
      · have i3 : mid g = mid g' ↔ g' = g := ⟨fun h => (hnum.mid_inj g hg hreq g' hg' hreq' h).symm, fun h => by rw [h]⟩
        rw [if_pos hreq']
        simp only [List.countP_cons, List.countP_nil, List.mem_cons, List.not_mem_nil, or_false, i1, i2, i3, false_or, decide_eq_true_eq]
        by_cases h : g' = g <;> simp [h]
      · have : g' ≠ g := fun h => hreq' (h ▸ hreq)
        rw [if_neg hreq']
        simp [i1, i2, this]
    · have : (List.range (we.r0 we.P)).countP (fun g' => decide (g' = g)) = 1 := by
        have h1 : (List.range (we.r0 we.P)).count g = 1 := List.count_eq_one_of_mem List.nodup_range (List.mem_range.mpr hg)
        rw [← h1, List.count]
        refine List.countP_congr fun x _ => ?_
        simp
      rw [this]

/-- The coordinates have at the number of an old vertex its position and at the number of a new one the middle of its cell. -/
theorem C57_positions {X : Type} (we wv : World) (hw : we.Valid) (hP : wv.P = we.P) (cells : Nat → Option (List Nat))
    (he : (∀ r < we.P, cells r = none) ∨ (∀ r < we.P, ∃ l, cells r = some l ∧ ∀ e ∈ l, e < we.size r + (we.ghosts r).length))
    (vpos : Nat → Nat) (closure : Nat → List Nat) (pos : Nat → X) (ends : Nat → Nat × Nat) (geo : Nat → NewVert.Cells X)
    (hg : ∀ r < we.P, Straight we wv vpos closure pos ends r (geo r)) (mean : List X → X) (hmean : ∀ x y, mean [x, y] = mean [y, x]) :
    ∃ m rows, IntervalRef.marks we cells = some m ∧ (List.range we.P).mapM (NewVert.newGeometry we wv m vpos closure mean geo) = some rows ∧
      (∀ a < wv.r0 wv.P, rows.flatten[NewVert.oldNum we wv m a]? = some (pos a)) ∧
      (∀ g < we.r0 we.P, Asked we cells g → rows.flatten[NewVert.midNum we wv m g]? = some (mean [pos (ends g).1, pos (ends g).2])) := by
  obtain ⟨m, hm, hM⟩ := C57_aux_marks we hw cells he
  obtain ⟨rows, g1, g2, g3⟩ := NewVert.geometry_spec geo hP hg mean hmean m _ hM
  exact ⟨m, rows, hm, g1, g2, g3⟩

/-! Example: three cells on two ranks; rank 1 ghosts cell 1 and asks for it. -/

def segCells : World where
  P := 2
  size := fun r => if r = 0 then 2 else 1
  ghosts := fun r => if r = 0 then [] else [1]
  owners := fun r => if r = 0 then [] else [0]

def segVerts : World where
  P := 2
  size := fun r => if r = 0 then 3 else 1
  ghosts := fun r => if r = 0 then [] else [2, 1]
  owners := fun r => if r = 0 then [] else [0, 0]

theorem segCells_valid : segCells.Valid := by
  refine ⟨?_, ?_, ?_⟩
  · intro r hr
    have hr : r < 2 := hr
    interval_cases r <;> rfl
  · intro r hr
    have hr : r < 2 := hr
    interval_cases r <;> decide
  · intro r hr k q g hq hg
    have hr : r < 2 := hr
    interval_cases r
    · have h1 : ([] : List Nat)[k]? = some q := hq
      simp at h1
    · have h1 : ([0] : List Nat)[k]? = some q := hq
      have h2 : ([1] : List Nat)[k]? = some g := hg
      match k, h1, h2 with
      | 0, h1, h2 => cases h1; cases h2; decide

theorem segVerts_valid : segVerts.Valid := by
  refine ⟨?_, ?_, ?_⟩
  · intro r hr
    have hr : r < 2 := hr
    interval_cases r <;> rfl
  · intro r hr
    have hr : r < 2 := hr
    interval_cases r <;> decide
  · intro r hr k q g hq hg
    have hr : r < 2 := hr
    interval_cases r
    · have h1 : ([] : List Nat)[k]? = some q := hq
      simp at h1
    · have h1 : ([0, 0] : List Nat)[k]? = some q := hq
      have h2 : ([2, 1] : List Nat)[k]? = some g := hg
      match k, h1, h2 with
      | 0, h1, h2 => cases h1; cases h2; decide
      | 1, h1, h2 => cases h1; cases h2; decide

def segC2v (r : Nat) : List (List Nat) := if r = 0 then [[0, 1], [1, 2]] else [[1, 0], [2, 1]]

example : CellsOk segCells segVerts segC2v (fun g => (g, g + 1)) := by
  intro r hr c hc
  have hr : r < 2 := hr
  interval_cases r
  · have hc : c < 2 := hc
    interval_cases c
    · exact ⟨0, 1, rfl, rfl, rfl, by decide⟩
    · exact ⟨1, 2, rfl, rfl, rfl, by decide⟩
  · have hc : c < 1 := hc
    interval_cases c
    exact ⟨1, 0, rfl, rfl, rfl, by decide⟩

example : IntervalRef.refineMesh segCells segVerts segC2v (fun r => some (if r = 0 then [] else [1])) =
    some [([[0, 1], [1, 3], [3, 2]], [0, 1, 1]), ([[2, 4]], [0])] := by decide +kernel

end Verif.Props
