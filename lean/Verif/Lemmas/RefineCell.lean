import Verif.Lemmas.ParentFacet
import Verif.Lemmas.ConformingTri
import Verif.Lemmas.RefineTet
/-! One cell of the refinement loop. -/
namespace Verif.Refine
open Verif.Spec.SimplexMesh Verif.Spec.Subdiv Verif.Spec.Conform

/-- New cells by local numbers. -/
def kidsIdx (d : Nat) (mk : List Bool) (le : List Nat) (u : Bool) : List (List Nat) :=
  if mk.any id then (if d = 2 then getTriangles mk (le.getD 0 0) u else getTetrahedra mk le) else [List.range (d + 1)]

theorem map_getD_range {α : Type} (l : List α) (n : Nat) (h : l.length = n) (z : α) : (List.range n).map (fun i => l.getD i z) = l := by
  refine List.ext_getElem? fun i => ?_
  rw [List.getElem?_map]
  by_cases hi : i < n
  · rw [List.getElem?_range hi]
    simp only [Option.map_some, List.getD_eq_getElem?_getD]
    rw [List.getElem?_eq_getElem (by omega)]; rfl
  · rw [List.getElem?_eq_none (by simpa using hi), List.getElem?_eq_none (by omega)]; rfl

theorem mapM_of_get {α β : Type} (l : List α) (z : α) (n : Nat) (hn : l.length = n) (f : α → Option β) (g : Nat → β)
    (h : ∀ i < n, f (l.getD i z) = some (g i)) : l.mapM f = some ((List.range n).map g) := by
  conv_lhs => rw [← map_getD_range l n hn z]
  rw [List.mapM_map]
  refine Props.mapM_some _ _ _ fun i hi => ?_
  exact h i (List.mem_range.mp hi)

theorem any_map_id {α : Type} (l : List α) (p : α → Bool) : (l.map p).any id = l.any p := by
  rw [List.any_map]; rfl

theorem zip_maps {α β γ : Type} (l : List α) (f : α → β) (g : α → γ) : (l.map f).zip (l.map g) = l.map fun a => (f a, g a) := by
  induction l with
  | nil => rfl
  | cons a l ih => simp [ih]

/-- What the loop makes of one cell; `nm i` are the numbers of its points. -/
theorem refineCell_spec (d : Nat) (hd : d = 2 ∨ d = 3) (adj : List Nat) (marks : List Bool) (new : List Nat × List Nat) (long : List Nat)
    (u : Bool) (vs es fs : List Nat) (nm le : Nat → Nat) (hvl : vs.length = d + 1) (hel : es.length = 3 * d - 3) (hfl : fs.length = numFaces d)
    (hv : ∀ i < d + 1, adj[vs.getD i 0]? = some (nm i))
    (he : ∀ j < 3 * d - 3, marks.getD (es.getD j 0) false = true → RefMark.links new.1 new.2 (es.getD j 0) = [nm (d + 1 + j)])
    (hl : ∀ k < numFaces d, (long[fs.getD k 0]?).map (cellLocal es) = some (le k))
    (hT : ∀ t ∈ kidsIdx d ((List.range (3 * d - 3)).map fun j => marks.getD (es.getD j 0) false) ((List.range (numFaces d)).map le) u,
      t.length = d + 1 ∧ t.Nodup ∧
      (∀ i ∈ t, i < d + 1 ∨ (i < numPts d ∧ ((List.range (3 * d - 3)).map fun j => marks.getD (es.getD j 0) false).getD (i - (d + 1)) false = true)) ∧
      ∀ k < d + 1, ∀ f f', OnFacet d t k f → OnFacet d t k f' → f = f') :
    refineCell d adj marks new long u vs es fs =
      some ((kidsIdx d ((List.range (3 * d - 3)).map fun j => marks.getD (es.getD j 0) false) ((List.range (numFaces d)).map le) u).map fun t =>
        (t.map fun i => (nm i : Int), (List.range (d + 1)).map (pfv d t))) ∧
    ∀ t ∈ kidsIdx d ((List.range (3 * d - 3)).map fun j => marks.getD (es.getD j 0) false) ((List.range (numFaces d)).map le) u,
      ∀ k < d + 1, FacetOf d t k (pfv d t k) := by
  have hmk : ∀ j < 3 * d - 3, ((List.range (3 * d - 3)).map fun j => marks.getD (es.getD j 0) false).getD j false = marks.getD (es.getD j 0) false := by
    intro j hj
    rw [List.getD_eq_getElem?_getD, List.getElem?_map, List.getElem?_range hj]; rfl
  have hlen : ((List.range (3 * d - 3)).map fun j => marks.getD (es.getD j 0) false).length = 3 * d - 3 := by simp
  have hany : (es.any fun e => marks.getD e false) = ((List.range (3 * d - 3)).map fun j => marks.getD (es.getD j 0) false).any id := by
    rw [any_map_id]
    conv_lhs => rw [← map_getD_range es _ hel 0]
    rw [List.any_map]; rfl
  have hiv : (vs.mapM fun v => (adj[v]?).map fun (x : Nat) => (x : Int)) = some ((List.range (d + 1)).map fun i => (nm i : Int)) := by
    refine mapM_of_get vs 0 _ hvl _ _ fun i hi => ?_
    rw [hv i hi]; rfl
  have hie : edgeIndices marks new es = some ((List.range (3 * d - 3)).map fun j =>
      if marks.getD (es.getD j 0) false then (nm (d + 1 + j) : Int) else -1) := by
    unfold edgeIndices
    refine mapM_of_get es 0 _ hel _ _ fun j hj => ?_
    by_cases hm : marks.getD (es.getD j 0) false = true
    · rw [if_pos hm, if_pos hm, he j hj hm]
    · rw [if_neg hm, if_neg hm]
  have hlong : (fs.mapM fun f => (long[f]?).map (cellLocal es)) = some ((List.range (numFaces d)).map le) :=
    mapM_of_get fs 0 _ hfl _ _ hl
  have hpf := parentFacets_spec d hd _ fun t ht => by
    obtain ⟨h1, h2, h3, h4⟩ := hT t ht
    refine ⟨h1, h2, fun i hi => ?_, h4⟩
    rcases h3 i hi with h | h
    · unfold numPts; omega
    · exact h.1
  refine ⟨?_, hpf.2⟩
  unfold refineCell
  simp only [hiv, hie, hlong, Option.bind_eq_bind, Option.bind_some]
  rw [hany]
  generalize hmks : ((List.range (3 * d - 3)).map fun j => marks.getD (es.getD j 0) false) = mk at *
  have hflags : ((((List.range (d + 1)).map fun i => (nm i : Int)) ++ (List.range (3 * d - 3)).map fun j =>
      if marks.getD (es.getD j 0) false then (nm (d + 1 + j) : Int) else -1).drop (d + 1)).map (fun i => decide (0 ≤ i)) = mk := by
    rw [List.drop_left' (by simp), List.map_map, ← hmks]
    refine List.map_congr_left fun j hj => ?_
    show decide (0 ≤ if marks.getD (es.getD j 0) false = true then (nm (d + 1 + j) : Int) else -1) = _
    cases hm : marks.getD (es.getD j 0) false
    · simp
    · simp
  by_cases ha : mk.any id = true
  · rw [if_pos ha]
    have hk : kidsIdx d mk ((List.range (numFaces d)).map le) u = getSimplices d (((List.range (d + 1)).map fun i => (nm i : Int)) ++ (List.range (3 * d - 3)).map fun j =>
        if marks.getD (es.getD j 0) false then (nm (d + 1 + j) : Int) else -1) ((List.range (numFaces d)).map le) (if d = 2 then u else false) := by
      unfold kidsIdx getSimplices
      rw [if_pos ha, hflags]
      by_cases h2 : d = 2
      · simp only [if_pos h2]
      · simp only [if_neg h2]
    rw [← hk, hpf.1]
    show some _ = some _
    congr 1
    · rw [zip_maps]
      refine List.map_congr_left fun t ht => ?_
      congr 1
      refine List.map_congr_left fun i hi => ?_
      rcases (hT t ht).2.2.1 i hi with h | ⟨h, hm⟩
      · rw [List.getD_eq_getElem?_getD, List.getElem?_append_left (by simpa using h), List.getElem?_map, List.getElem?_range h]; rfl
      · by_cases hi' : i < d + 1
        · rw [List.getD_eq_getElem?_getD, List.getElem?_append_left (by simpa using hi'), List.getElem?_map, List.getElem?_range hi']; rfl
        · have hj : i - (d + 1) < 3 * d - 3 := by unfold numPts at h; omega
          rw [List.getD_eq_getElem?_getD, List.getElem?_append_right (by simpa using hi'), List.getElem?_map]
          rw [show i - ((List.range (d + 1)).map fun i => (nm i : Int)).length = i - (d + 1) by simp, List.getElem?_range hj]
          simp only [Option.map_some, Option.getD_some]
          rw [hmk _ hj] at hm
          rw [if_pos hm, show d + 1 + (i - (d + 1)) = i by omega]
  · rw [if_neg ha]
    unfold kidsIdx
    rw [if_neg ha]
    simp only [List.map_cons, List.map_nil, pfv_cell d hd]
    rfl

/-! ## Facets of new cells -/

theorem patt_carries (m : List Bool) (f : Nat) (hf : f < 4) (e : Nat) (he : e ∈ facetEdges f) (s : List Nat) (hs : s ∈ pattIdx m f e)
    (w : Nat) (hw : w < 4) (hwf : w ≠ f) : ∃ i ∈ s, w ∈ tetEnds i := by
  obtain ⟨h1, ha, hb, hc, hac, hbc, hab, h8, h9⟩ := facetEdges_facts f hf e he
  have hmem : w = (tetEdge e).1 ∨ w = (tetEdge e).2 ∨ w = 6 - f - (tetEdge e).1 - (tetEdge e).2 := by
    have : w ∈ (List.range 4).toFinset.erase f := Finset.mem_erase.mpr ⟨hwf, List.mem_toFinset.mpr (List.mem_range.mpr hw)⟩
    rw [h8] at this
    simpa using this
  generalize hC : 6 - f - (tetEdge e).1 - (tetEdge e).2 = c at *
  have hself : ∀ x < 4, x ∈ tetEnds x := by decide
  have h4 : (tetEdge e).1 ∈ tetEnds (4 + e) ∧ (tetEdge e).2 ∈ tetEnds (4 + e) := by rw [h9]; simp
  have hx : ∀ x < 4, x ≠ c → c ∈ tetEnds (4 + eIdx x c) := by
    intro x hx hxc
    have := (eIdx_facts x hx c hc hxc).2
    have h : c ∈ (tetEnds (4 + eIdx x c)).toFinset := by rw [this]; simp
    exact List.mem_toFinset.mp h
  have hhalf : ∀ x < 4, x ≠ c → ∀ s ∈ pattHalf m e c x, ∃ i ∈ s, w ∈ tetEnds i := by
    intro x hx4 hxc s hs
    unfold pattHalf at hs
    split at hs
    · simp only [List.mem_cons, List.not_mem_nil, or_false] at hs
      rcases hs with rfl | rfl
      · rcases hmem with h | h | h
        · exact ⟨4 + e, by simp, by rw [h]; exact h4.1⟩
        · exact ⟨4 + e, by simp, by rw [h]; exact h4.2⟩
        · exact ⟨4 + eIdx x c, by simp, by rw [h]; exact hx x hx4 hxc⟩
      · rcases hmem with h | h | h
        · exact ⟨4 + e, by simp, by rw [h]; exact h4.1⟩
        · exact ⟨4 + e, by simp, by rw [h]; exact h4.2⟩
        · exact ⟨4 + eIdx x c, by simp, by rw [h]; exact hx x hx4 hxc⟩
    · simp only [List.mem_singleton] at hs
      subst hs
      rcases hmem with h | h | h
      · exact ⟨4 + e, by simp, by rw [h]; exact h4.1⟩
      · exact ⟨4 + e, by simp, by rw [h]; exact h4.2⟩
      · exact ⟨c, by simp, by rw [h]; exact hself c hc⟩
  unfold pattIdx at hs
  simp only [hC] at hs
  split at hs
  · rcases List.mem_append.mp hs with hs | hs
    · exact hhalf _ ha hac s hs
    · exact hhalf _ hb hbc s hs
  · simp only [List.mem_singleton] at hs
    subst hs
    rcases hmem with h | h | h
    · exact ⟨(tetEdge e).1, by simp, by rw [h]; exact hself _ ha⟩
    · exact ⟨(tetEdge e).2, by simp, by rw [h]; exact hself _ hb⟩
    · exact ⟨c, by simp, by rw [h]; exact hself _ hc⟩

theorem eraseIdx_mem (t : List Nat) (hn : t.Nodup) (k : Nat) (hk : k < t.length) (x : Nat) : x ∈ t.eraseIdx k ↔ x ∈ t.erase t[k] := by
  rw [List.Nodup.erase_getElem hn]

/-- No facet of a new tetrahedron lies on two facets of the old one. -/
theorem tet_facet_unique (m : List Bool) (le : List Nat) (hle : ∀ f < 4, le.getD f 0 ∈ facetEdges f) (h : GoodTet m le) (t : List Nat)
    (ht : t ∈ getTetrahedra m le) (k : Nat) (hk : k < 4) (f f' : Nat) (hf : OnFacet 3 t k f) (hf' : OnFacet 3 t k f') : f = f' := by
  obtain ⟨h1, h2, _⟩ := h.cells t ht
  have hkl : k < t.length := by omega
  have hon : ∀ f, OnFacet 3 t k f → f < 4 ∧ ∀ i ∈ t.erase t[k], f ∉ tetEnds i := by
    intro f hf
    exact ⟨hf.1, fun i hi => hf.2 i ((eraseIdx_mem t h2 k hkl i).mpr hi)⟩
  obtain ⟨a1, a2⟩ := hon f hf
  obtain ⟨b1, b2⟩ := hon f' hf'
  rcases h.facet t ht t[k] (List.getElem_mem hkl) with ⟨g, hg, s, hs, _, h4⟩ | ⟨h3, _⟩
  · have key : ∀ f < 4, (∀ i ∈ t.erase t[k], f ∉ tetEnds i) → f = g := by
      intro f hf hfi
      by_contra hne
      obtain ⟨i, hi, hw⟩ := patt_carries m g hg _ (hle g hg) s hs f hf hne
      exact hfi i (h4 hi) hw
    rw [key f a1 a2, key f' b1 b2]
  · obtain ⟨i, hi, hw⟩ := h3 f a1
    exact absurd hw (a2 i hi)

theorem tri_facet_unique (m : List Bool) (le : Nat) (u : Bool) (h : GoodTri m le u) (t : List Nat)
    (ht : t ∈ triCells m le u) (k : Nat) (hk : k < 3) (f f' : Nat) (hf : OnFacet 2 t k f) (hf' : OnFacet 2 t k f') : f = f' := by
  obtain ⟨h1, h2, _⟩ := h.cells t ht
  have hkl : k < t.length := by omega
  have hon : ∀ f, OnFacet 2 t k f → f < 3 ∧ ∀ i ∈ t.erase t[k], f ∉ triEnds i := by
    intro f hf
    exact ⟨hf.1, fun i hi => hf.2 i ((eraseIdx_mem t h2 k hkl i).mpr hi)⟩
  obtain ⟨a1, a2⟩ := hon f hf
  obtain ⟨b1, b2⟩ := hon f' hf'
  rcases h.facet t ht t[k] (List.getElem_mem hkl) with ⟨g, hg, s, hs, _, h4⟩ | ⟨h3, _⟩
  · have key : ∀ f < 3, (∀ i ∈ t.erase t[k], f ∉ triEnds i) → f = g := by
      intro f hf hfi
      by_contra hne
      have hc : ∃ i ∈ s, f ∈ triEnds i := by
        have hall : ∀ g < 3, ∀ f < 3, f ≠ g → (∀ s ∈ [[3 + g, (g + 1) % 3], [3 + g, (g + 2) % 3], [(g + 1) % 3, (g + 2) % 3]],
          ∃ i ∈ s, f ∈ triEnds i) := by decide
        refine hall g hg f hf hne s ?_
        unfold triPatt at hs
        split at hs <;> simp at hs ⊢ <;> tauto
      obtain ⟨i, hi, hw⟩ := hc
      exact hfi i (h4 hi) hw
    rw [key f a1 a2, key f' b1 b2]
  · obtain ⟨i, hi, hw⟩ := h3 f a1
    exact absurd hw (a2 i hi)

end Verif.Refine
