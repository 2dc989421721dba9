import Verif.Lemmas.RefineTetCheck
/-! Consequences of the case analysis of `get_tetrahedra`. -/
namespace Verif.Refine
open Verif.Spec.Subdiv

theorem mem_les (le : List Nat) (hlen : le.length = 4) (h : ∀ f < 4, le.getD f 0 ∈ facetEdges f) : le ∈ les := by
  obtain ⟨a, b, c, d, rfl⟩ : ∃ a b c d, le = [a, b, c, d] := by
    match le, hlen with
    | [a, b, c, d], _ => exact ⟨a, b, c, d, rfl⟩
  unfold les
  simp only [List.mem_flatMap, List.mem_map]
  exact ⟨a, h 0 (by omega), b, h 1 (by omega), c, h 2 (by omega), d, h 3 (by omega), rfl⟩

theorem good_of (m : List Bool) (le : List Nat) (hm : m.length = 6) (hlen : le.length = 4)
    (h : ∀ f < 4, le.getD f 0 ∈ facetEdges f) (hn : noCycle le = true) (hc : closedL m le = true) : good m le = true := by
  have h1 := List.all_eq_true.mp all_good le (mem_les le hlen h)
  rw [hn, Bool.not_true, Bool.false_or] at h1
  have h2 := List.all_eq_true.mp h1 m (hm ▸ mem_boolLists m)
  rw [hc, Bool.not_true, Bool.false_or] at h2
  exact h2

theorem mem_ins (a x : Nat) (l : List Nat) : x ∈ ins a l ↔ x = a ∨ x ∈ l := by
  induction l with
  | nil => simp [ins]
  | cons b l ih =>
    unfold ins
    split
    · simp
    · simp only [List.mem_cons, ih]; tauto

theorem mem_srt (x : Nat) (l : List Nat) : x ∈ srt l ↔ x ∈ l := by
  unfold srt
  induction l with
  | nil => simp
  | cons b l ih => rw [List.foldr_cons, mem_ins, ih, List.mem_cons]

theorem srt_toFinset (l : List Nat) : (srt l).toFinset = l.toFinset := by
  ext x; simp [mem_srt]

theorem map_toFinset (t : List Nat) (a m : Nat) (ha : a ∈ t) :
    (t.map fun x => if x = a then m else x).toFinset = insert m (t.toFinset.erase a) := by
  ext x
  simp only [List.mem_toFinset, List.mem_map, Finset.mem_insert, Finset.mem_erase]
  constructor
  · rintro ⟨y, hy, rfl⟩
    split
    · exact Or.inl rfl
    · rename_i h; exact Or.inr ⟨h, hy⟩
  · rintro (rfl | ⟨h, hx⟩)
    · exact ⟨a, ha, by simp⟩
    · exact ⟨x, hx, by simp [h]⟩

theorem pick_some (m : List Bool) (le t : List Nat) (e : Nat) (h : pick m le t = some e) :
    e < 6 ∧ (tetEdge e).1 ∈ t ∧ (tetEdge e).2 ∈ t ∧ e + 4 ∉ t := by
  unfold pick at h
  have h1 := List.mem_filter.mp (List.mem_of_find?_eq_some h)
  obtain ⟨h2, h3⟩ := h1
  simp only [Bool.and_eq_true, List.contains_iff_mem, Bool.not_eq_true', ← Bool.not_eq_true] at h3
  exact ⟨List.mem_range.mp h2, h3.1.1.2, h3.1.2, h3.2⟩

theorem tetEdge_facts (e : Nat) (he : e < 6) : (tetEdge e).1 ≠ (tetEdge e).2 ∧ tetEnds (tetEdge e).1 = [(tetEdge e).1] ∧
    tetEnds (tetEdge e).2 = [(tetEdge e).2] ∧ tetEnds (e + 4) = [(tetEdge e).1, (tetEdge e).2] := by
  interval_cases e <;> decide

theorem bis_Bis (m : List Bool) (le : List Nat) (n : Nat) (t : List Nat) :
    Bis tetEnds t.toFinset ((bis m le n t).map List.toFinset) := by
  induction n generalizing t with
  | zero => exact Bis.leaf _
  | succ n ih =>
    unfold bis
    cases hp : pick m le t with
    | none => exact Bis.leaf _
    | some e =>
      obtain ⟨he, ha, hb, hm⟩ := pick_some m le t e hp
      obtain ⟨h1, h2, h3, h4⟩ := tetEdge_facts e he
      simp only [List.map_append]
      refine Bis.node _ (tetEdge e).1 (tetEdge e).2 (e + 4) _ _ (List.mem_toFinset.mpr ha) (List.mem_toFinset.mpr hb) h1
        (fun h => hm (List.mem_toFinset.mp h)) h2 h3 h4 ?_ ?_
      · rw [← map_toFinset t _ _ ha]; exact ih _
      · rw [← map_toFinset t _ _ hb]; exact ih _

theorem good_tiles {K : Type} [Field K] [LinearOrder K] [IsStrictOrderedRing K] (m : List Bool) (le : List Nat) (h : good m le = true) :
    Tiles K tetEnds {0, 1, 2, 3} ((getTetrahedra m le).map List.toFinset) := by
  unfold good at h
  simp only [Bool.and_eq_true] at h
  have hp := List.isPerm_iff.mp h.1.1.1.1
  have hb := bis_Bis m le 6 [0, 1, 2, 3]
  have ht := (bis_tiles (K := K) tetEnds _ _ hb (indep_vertices _ _ (by decide))).1
  have hmap : ((bis m le 6 [0, 1, 2, 3]).map List.toFinset) = ((bis m le 6 [0, 1, 2, 3]).map srt).map List.toFinset := by
    rw [List.map_map]
    exact List.map_congr_left fun l _ => (srt_toFinset l).symm
  rw [hmap] at ht
  exact Tiles.perm ht (hp.map _).symm

end Verif.Refine
