import Verif.Prelude
import Verif.Spec.ParentFacet
import Verif.Props.C09_DistributeData
import Mathlib.Data.Finset.Card
import Mathlib.Data.Finset.Image
/-! Parent facets. -/
namespace Verif.Refine
open Verif.Spec.SimplexMesh Verif.Spec.Subdiv

/-- Number of points of the reference cell. -/
def numPts (d : Nat) : Nat := d + 1 + (3 * d - 3)

theorem table_mem (d : Nat) (hd : d = 2 ∨ d = 3) (f : Nat) (hf : f < d + 1) (i : Nat) (hi : i < numPts d) :
    i ∈ facetTable d f ↔ f ∉ ptEnds d i := by
  have h2 : ∀ f < 3, ∀ i < 6, (i ∈ facetTable 2 f ↔ f ∉ ptEnds 2 i) := by decide
  have h3 : ∀ f < 4, ∀ i < 10, (i ∈ facetTable 3 f ↔ f ∉ ptEnds 3 i) := by decide
  rcases hd with rfl | rfl
  · exact h2 f hf i hi
  · exact h3 f hf i hi

theorem table_nodup (d : Nat) (hd : d = 2 ∨ d = 3) (f : Nat) (hf : f < d + 1) : (facetTable d f).Nodup := by
  have h2 : ∀ f < 3, (facetTable 2 f).Nodup := by decide
  have h3 : ∀ f < 4, (facetTable 3 f).Nodup := by decide
  rcases hd with rfl | rfl
  · exact h2 f hf
  · exact h3 f hf

theorem childFacet_eq (d : Nat) (hd : d = 2 ∨ d = 3) (t : List Nat) (ht : t.length = d + 1) (k : Nat) (hk : k < d + 1) :
    childFacet d t k = t.eraseIdx k := by
  rcases hd with rfl | rfl
  · match t, ht with
    | [a, b, c], _ => interval_cases k <;> rfl
  · match t, ht with
    | [a, b, c, e], _ => interval_cases k <;> rfl

theorem numCommon_iff (d : Nat) (hd : d = 2 ∨ d = 3) (t : List Nat) (ht : t.length = d + 1) (hn : t.Nodup) (hlt : ∀ i ∈ t, i < numPts d)
    (k : Nat) (hk : k < d + 1) (f : Nat) (hf : f < d + 1) : numCommon d t f k = d ↔ OnFacet d t k f := by
  unfold numCommon OnFacet
  rw [childFacet_eq d hd t ht k hk]
  have hn' : (t.eraseIdx k).Nodup := hn.sublist (List.eraseIdx_sublist t k)
  have hl' : (t.eraseIdx k).length = d := by rw [List.length_eraseIdx, if_pos (by omega)]; omega
  have hlt' : ∀ i ∈ t.eraseIdx k, i < numPts d := fun i hi => hlt i ((List.eraseIdx_sublist t k).subset hi)
  generalize t.eraseIdx k = s at *
  have hset : ((facetTable d f).filter fun x => s.contains x).toFinset = s.toFinset.filter fun x => x ∈ facetTable d f := by
    ext x; simp [and_comm]
  have hlen : ((facetTable d f).filter fun x => s.contains x).length = (s.toFinset.filter fun x => x ∈ facetTable d f).card := by
    rw [← hset, List.toFinset_card_of_nodup ((table_nodup d hd f hf).filter _)]
  have hcard : s.toFinset.card = d := by rw [List.toFinset_card_of_nodup hn', hl']
  rw [hlen]
  constructor
  · intro h
    refine ⟨hf, fun i hi => (table_mem d hd f hf i (hlt' i hi)).mp ?_⟩
    have : s.toFinset.filter (fun x => x ∈ facetTable d f) = s.toFinset :=
      Finset.eq_of_subset_of_card_le (Finset.filter_subset _ _) (by rw [h, hcard])
    have hm : i ∈ s.toFinset.filter fun x => x ∈ facetTable d f := by rw [this]; exact List.mem_toFinset.mpr hi
    exact (Finset.mem_filter.mp hm).2
  · rintro ⟨_, h⟩
    rw [Finset.filter_true_of_mem, hcard]
    intro i hi
    have hi := List.mem_toFinset.mp hi
    exact (table_mem d hd f hf i (hlt' i hi)).mpr (h i hi)

theorem fold_none (d : Nat) (t : List Nat) (k : Nat) (l : List Nat) (acc : Int) (h : ∀ f ∈ l, numCommon d t f k ≠ d) :
    l.foldlM (fun acc fpi => if numCommon d t fpi k = d then (if acc = -1 then some (fpi : Int) else none) else some acc) acc = some acc := by
  induction l with
  | nil => rfl
  | cons a l ih =>
    rw [List.foldlM_cons, if_neg (h a (by simp))]
    exact ih fun f hf => h f (by simp [hf])

theorem fold_one (d : Nat) (t : List Nat) (k : Nat) (l : List Nat) (hl : l.Nodup) (g : Nat) (hg : g ∈ l) (hc : numCommon d t g k = d)
    (h : ∀ f ∈ l, numCommon d t f k = d → f = g) :
    l.foldlM (fun acc fpi => if numCommon d t fpi k = d then (if acc = -1 then some (fpi : Int) else none) else some acc) (-1) = some (g : Int) := by
  induction l with
  | nil => simp at hg
  | cons a l ih =>
    rw [List.foldlM_cons]
    obtain ⟨ha, hl'⟩ := List.nodup_cons.mp hl
    by_cases hag : a = g
    · subst hag
      rw [if_pos hc, if_pos rfl]
      exact fold_none d t k l _ fun f hf hcf => ha (by rw [← h f (by simp [hf]) hcf]; exact hf)
    · rw [if_neg fun hca => hag (h a (by simp) hca)]
      exact ih hl' (by simpa [Ne.symm hag] using hg) fun f hf => h f (by simp [hf])

/-- If no facet of a new cell lies on two facets of the old cell, the parent facets are computed. -/
theorem parentFacet_spec (d : Nat) (hd : d = 2 ∨ d = 3) (t : List Nat) (ht : t.length = d + 1) (hn : t.Nodup) (hlt : ∀ i ∈ t, i < numPts d)
    (k : Nat) (hk : k < d + 1) (hu : ∀ f f', OnFacet d t k f → OnFacet d t k f' → f = f') :
    ∃ x, parentFacet d t k = some x ∧ FacetOf d t k x := by
  unfold parentFacet
  by_cases hex : ∃ f, OnFacet d t k f
  · obtain ⟨f, hf⟩ := hex
    refine ⟨f, fold_one d t k _ List.nodup_range f (List.mem_range.mpr hf.1) ((numCommon_iff d hd t ht hn hlt k hk f hf.1).mpr hf) ?_, ?_⟩
    · intro g hg hc
      exact hu g f ((numCommon_iff d hd t ht hn hlt k hk g (List.mem_range.mp hg)).mp hc) hf
    · exact Or.inl ⟨f, rfl, hf, fun f' hf' => hu f' f hf' hf⟩
  · refine ⟨-1, fold_none d t k _ _ ?_, Or.inr ⟨rfl, fun f hf => hex ⟨f, hf⟩⟩⟩
    intro f hf hc
    exact hex ⟨f, (numCommon_iff d hd t ht hn hlt k hk f (List.mem_range.mp hf)).mp hc⟩

/-- The value, for lists that are computed without failure. -/
def pfv (d : Nat) (t : List Nat) (k : Nat) : Int := (parentFacet d t k).getD 0

theorem parentFacets_spec (d : Nat) (hd : d = 2 ∨ d = 3) (T : List (List Nat))
    (h : ∀ t ∈ T, t.length = d + 1 ∧ t.Nodup ∧ (∀ i ∈ t, i < numPts d) ∧ ∀ k < d + 1, ∀ f f', OnFacet d t k f → OnFacet d t k f' → f = f') :
    parentFacets d T = some (T.map fun t => (List.range (d + 1)).map (pfv d t)) ∧
      ∀ t ∈ T, ∀ k < d + 1, FacetOf d t k (pfv d t k) := by
  have hval : ∀ t ∈ T, ∀ k < d + 1, parentFacet d t k = some (pfv d t k) ∧ FacetOf d t k (pfv d t k) := by
    intro t ht k hk
    obtain ⟨h1, h2, h3, h4⟩ := h t ht
    obtain ⟨x, hx, hx'⟩ := parentFacet_spec d hd t h1 h2 h3 k hk (h4 k hk)
    have : pfv d t k = x := by unfold pfv; rw [hx]; rfl
    rw [this]; exact ⟨hx, hx'⟩
  refine ⟨?_, fun t ht k hk => (hval t ht k hk).2⟩
  unfold parentFacets
  refine Props.mapM_some _ _ _ fun t ht => ?_
  exact Props.mapM_some _ _ _ fun k hk => (hval t ht k (List.mem_range.mp hk)).1

/-- The cell itself. -/
theorem pfv_cell (d : Nat) (hd : d = 2 ∨ d = 3) : (List.range (d + 1)).map (pfv d (List.range (d + 1))) = (List.range (d + 1)).map fun i => (i : Int) := by
  rcases hd with rfl | rfl <;> decide

end Verif.Refine
