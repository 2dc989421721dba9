import Verif.Lemmas.TagTransfer
import Verif.Lemmas.RefineNumbers
import Verif.Spec.TagTransfer
import Mathlib.Data.List.InsertIdx
/-! Facets of a refined mesh on tagged facets. -/
namespace Verif.TagTransfer
open Verif.World Verif.Refine Verif.Spec Verif.Spec.SimplexMesh Verif.Spec.TagTransfer Verif.Spec.Vertices

variable {K : Type} [LinearOrder K] [Zero K] {d : Nat} {we wv : World} {ends : Nat → Finset Nat} {L : Finset Nat → K} {m : Nat → RankMesh K}
  {M : Nat → Prop} {name : Finset Nat → Nat} {N : Nat} {T : Nat → Nat → List (List Nat)} {out : List Refined}

/-- Numbers determine points. -/
theorem point_inj (hn : Numbering (wv.r0 wv.P) (we.r0 we.P) M (fun a => name {a}) (fun g => name (ends g)) N) (s t : Finset Nat)
    (hs : IsPoint we wv ends M s) (ht : IsPoint we wv ends M t) (he : name s = name t) : s = t := by
  rcases hs with ⟨a, ha, rfl⟩ | ⟨g, hg, hm, rfl⟩ <;> rcases ht with ⟨b, hb, rfl⟩ | ⟨g', hg', hm', rfl⟩
  · rw [hn.old_inj a ha b hb he]
  · exact absurd he (hn.disj a ha g' hg' hm')
  · exact absurd he.symm (hn.disj b hb g hg hm)
  · rw [hn.mid_inj g hg hm g' hg' hm' he]

/-- New cells of a rank with their parents. -/
def kidList (m : Nat → RankMesh K) (T : Nat → Nat → List (List Nat)) (r : Nat) : List (Nat × List Nat) :=
  (List.range (m r).c2v.length).flatMap fun c => (T r c).map fun t => (c, t)

theorem mem_kidList {r : Nat} {q : Nat × List Nat} (h : q ∈ kidList m T r) : q.1 < (m r).c2v.length ∧ q.2 ∈ T r q.1 := by
  obtain ⟨c, hc, hq⟩ := List.mem_flatMap.mp h
  obtain ⟨t, ht, rfl⟩ := List.mem_map.mp hq
  exact ⟨List.mem_range.mp hc, ht⟩

theorem kid_cells (name : Finset Nat → Nat) (r : Nat) :
    ((List.range (m r).c2v.length).flatMap fun c => (T r c).map fun t => t.map fun i => (name (point d wv m r c i) : Int)) =
      (kidList m T r).map fun q => q.2.map fun i => (name (point d wv m r q.1 i) : Int) := by
  unfold kidList
  rw [List.map_flatMap]
  refine List.flatMap_congr fun c _ => ?_
  rw [List.map_map]; rfl

theorem kid_parent (r : Nat) :
    ((List.range (m r).c2v.length).flatMap fun c => List.replicate (T r c).length c) = (kidList m T r).map Prod.fst := by
  unfold kidList
  rw [List.map_flatMap]
  refine List.flatMap_congr fun c _ => ?_
  rw [List.map_map]
  exact (List.map_const' ..).symm

theorem kid_facet (pf : List Nat → Nat → Int) (r : Nat) :
    ((List.range (m r).c2v.length).flatMap fun c => (T r c).map fun t => (List.range (d + 1)).map (pf t)) =
      (kidList m T r).map fun q => (List.range (d + 1)).map (pf q.2) := by
  unfold kidList
  rw [List.map_flatMap]
  refine List.flatMap_congr fun c _ => ?_
  rw [List.map_map]; rfl

theorem ptEnds_lt (hd : d = 2 ∨ d = 3) (i k : Nat) (h : k ∈ ptEnds d i) : k < d + 1 := by
  rcases hd with rfl | rfl
  · have key : ∀ i < 6, ∀ k ∈ ptEnds 2 i, k < 3 := by decide
    by_cases hi : i < 6
    · exact key i hi k h
    · have : ptEnds 2 i = [] := by
        show ([[0], [1], [2], [1, 2], [0, 2], [0, 1]] : List (List Nat)).getD i [] = []
        rw [List.getD_eq_getElem?_getD, List.getElem?_eq_none (by simp; omega)]; rfl
      rw [this] at h; cases h
  · have key : ∀ i < 10, ∀ k ∈ ptEnds 3 i, k < 4 := by decide
    by_cases hi : i < 10
    · exact key i hi k h
    · have : ptEnds 3 i = [] := by
        show ([[0], [1], [2], [3], [2, 3], [1, 3], [1, 2], [0, 3], [0, 2], [0, 1]] : List (List Nat)).getD i [] = []
        rw [List.getD_eq_getElem?_getD, List.getElem?_eq_none (by simp; omega)]; rfl
      rw [this] at h; cases h

variable (h : SimplexMesh.MeshOk d we wv ends L m)
include h

theorem gv_injOn {r : Nat} (hr : r < we.P) {c : Nat} (hc : c < (m r).c2v.length) (i j : Nat) (hi : i < d + 1) (hj : j < d + 1)
    (he : gv wv r ((m r).c2v.getD c []) i = gv wv r ((m r).c2v.getD c []) j) : i = j := by
  have hmem : (m r).c2v.getD c [] ∈ (m r).c2v := by
    rw [List.getD_eq_getElem?_getD, List.getElem?_eq_getElem hc]; exact List.getElem_mem hc
  obtain ⟨h1, h2, h3⟩ := h.verts r hr _ hmem
  exact gv_inj h.verts_valid r (h.ranks ▸ hr) _ h2 h3 i j (by omega) (by omega) he

theorem point_isPoint (hR : IsRefinement d we wv ends m M name N T out) {r : Nat} (hr : r < we.P) {c : Nat} (hc : c < (m r).c2v.length)
    {t : List Nat} (ht : t ∈ T r c) {i : Nat} (hi : i ∈ t) : IsPoint we wv ends M (point d wv m r c i) := by
  rcases (hR.points r hr c hc t ht).2.2 i hi with hlt | hg
  · left
    have hmem : (m r).c2v.getD c [] ∈ (m r).c2v := by
      rw [List.getD_eq_getElem?_getD, List.getElem?_eq_getElem hc]; exact List.getElem_mem hc
    obtain ⟨h1, h2, h3⟩ := h.verts r hr _ hmem
    refine ⟨gv wv r ((m r).c2v.getD c []) i, ?_, ptOf_vertex h.dim _ i hlt⟩
    exact Props.globalOf_lt_total wv h.verts_valid r (h.ranks ▸ hr) _ _ (gl_some wv r _ (h3 _ (getD_mem' _ i 0 (by omega))))
  · exact Or.inr hg

/-- A side of a new cell lies on an old facet only through its parent facet. -/
theorem side_on (hR : IsRefinement d we wv ends m M name N T out) {pf : List Nat → Nat → Int}
    (hpf : ∀ r < we.P, ∀ c < (m r).c2v.length, ∀ t ∈ T r c, ∀ k < d + 1, FacetOf d t k (pf t k)) {r : Nat} (hr : r < we.P) {nf : Nat}
    {c2f : List (List Nat)} {fv : Nat → Finset Nat} (hf : OldFacets d wv m r nf c2f fv) {p : Nat} (hp : p < (m r).c2v.length) {t : List Nat}
    (ht : t ∈ T r p) {j : Nat} (hj : j < d + 1) (f : Nat) :
    (f < nf ∧ ∀ y ∈ ((t.map fun i => (name (point d wv m r p i) : Int)).eraseIdx j).toFinset, LiesOn we wv ends M name y (fv f)) ↔
      pf t j ≠ -1 ∧ (c2f.getD p [])[(pf t j).toNat]? = some f := by
  have her : (t.map fun i => (name (point d wv m r p i) : Int)).eraseIdx j = (t.eraseIdx j).map fun i => (name (point d wv m r p i) : Int) :=
    List.eraseIdx_map ..
  rw [her]
  have hfo := hpf r hr p hp t ht j hj
  have hit : ∀ i ∈ t.eraseIdx j, i ∈ t := fun i hi => List.mem_of_mem_eraseIdx hi
  constructor
  · rintro ⟨hlt, hon⟩
    -- every point of the side is a subset of the facet
    have hsub : ∀ i ∈ t.eraseIdx j, point d wv m r p i ⊆ fv f := by
      intro i hi
      obtain ⟨s, hs, hsp, he⟩ := hon _ (List.mem_toFinset.mpr (List.mem_map.mpr ⟨i, hi, rfl⟩))
      have : point d wv m r p i = s := point_inj hR.numbering _ _ (point_isPoint h hR hr hp ht (hit i hi)) hsp (by exact_mod_cast he)
      rw [this]; exact hs
    -- vertices outside of the facet are not used
    have hout : ∀ k < d + 1, gv wv r ((m r).c2v.getD p []) k ∉ fv f → OnFacet d t j k := by
      intro k hk hkf
      refine ⟨hk, fun i hi hki => hkf (hsub i hi ?_)⟩
      exact Finset.mem_image_of_mem _ (List.mem_toFinset.mpr hki)
    have hex : ∃ k < d + 1, gv wv r ((m r).c2v.getD p []) k ∉ fv f := by
      by_contra hno
      push Not at hno
      have hcard : ((List.range (d + 1)).toFinset.image (gv wv r ((m r).c2v.getD p []))).card = d + 1 := by
        rw [Finset.card_image_of_injOn, List.card_toFinset, List.nodup_range.dedup, List.length_range]
        intro a ha b hb he
        rw [Finset.mem_coe, List.mem_toFinset, List.mem_range] at ha hb
        exact gv_injOn h hr hp a b ha hb he
      have hle := Finset.card_le_card (s := (List.range (d + 1)).toFinset.image (gv wv r ((m r).c2v.getD p []))) (t := fv f) (by
        intro y hy
        obtain ⟨k, hk, rfl⟩ := Finset.mem_image.mp hy
        exact hno k (by simpa using hk))
      rw [hcard, hf.card f hlt] at hle
      omega
    obtain ⟨k, hk, hkf⟩ := hex
    rcases hfo with ⟨f0, he, h1, h2⟩ | ⟨_, hno⟩
    · have hkk := h2 k (hout k hk hkf)
      obtain ⟨f', hf', hget, hset⟩ := hf.cell p hp f0 h1.1
      refine ⟨by rw [he]; omega, ?_⟩
      rw [he, Int.toNat_natCast, hget]
      congr 1
      refine hf.inj f' hf' f hlt ?_
      rw [hset]
      refine Finset.eq_of_subset_of_card_le ?_ ?_
      · intro y hy
        obtain ⟨k', hk', rfl⟩ := Finset.mem_image.mp hy
        simp only [Finset.mem_erase, List.mem_toFinset, List.mem_range] at hk'
        by_contra hno
        exact hk'.1 (h2 k' (hout k' hk'.2 hno))
      · rw [hf.card f hlt, ← hset, hf.card f' hf']
    · exact absurd (hout k hk hkf) (hno k)
  · rintro ⟨hne, hget⟩
    rcases hfo with ⟨f0, he, h1, h2⟩ | ⟨he, _⟩
    · obtain ⟨f', hf', hget', hset⟩ := hf.cell p hp f0 h1.1
      rw [he, Int.toNat_natCast, hget'] at hget
      cases hget
      refine ⟨hf', fun y hy => ?_⟩
      obtain ⟨i, hi, rfl⟩ := List.mem_map.mp (List.mem_toFinset.mp hy)
      refine ⟨point d wv m r p i, ?_, point_isPoint h hR hr hp ht (hit i hi), rfl⟩
      rw [hset]
      intro y hy
      obtain ⟨k, hk, rfl⟩ := Finset.mem_image.mp hy
      have hk := List.mem_toFinset.mp hk
      refine Finset.mem_image_of_mem _ ?_
      simp only [Finset.mem_erase, List.mem_toFinset, List.mem_range]
      refine ⟨?_, ptEnds_lt h.dim i k hk⟩
      rintro rfl
      exact h1.2 i hi hk
    · exact absurd he hne

/-- Pairs of old and new facets. -/
theorem facetLinks_mem (hR : IsRefinement d we wv ends m M name N T out) {pf : List Nat → Nat → Int}
    (hpf : ∀ r < we.P, ∀ c < (m r).c2v.length, ∀ t ∈ T r c, ∀ k < d + 1, FacetOf d t k (pf t k)) {r : Nat} (hr : r < we.P) {o : Refined}
    (ho : out[r]? = some o) (hpar : o.parent = ((List.range (m r).c2v.length).flatMap fun c => List.replicate (T r c).length c))
    (hfac : o.facet = (List.range (m r).c2v.length).flatMap fun c => (T r c).map fun t => (List.range (d + 1)).map (pf t)) {nf : Nat}
    {c2f0 c2f1 : List (List Nat)} {fv : Nat → Finset Nat} {fv1 : Nat → Finset Int} (hf : OldFacets d wv m r nf c2f0 fv) {orig : List Int} {off : Int}
    (hs : SameCells o orig off) (hnf : NewFacets d o orig off c2f1 fv1) {loc : List Nat} (hll : loc.length = orig.length)
    (hloc : ∀ i c : Nat, loc[c]? = some i ↔ orig[i]? = some (off + (c : Int))) (f x : Nat) :
    ((f, x) ∈ facetLinks d c2f0 c2f1 o.parent loc o.facet ↔
      f < nf ∧ (∃ l < orig.length, ∃ j < d + 1, (c2f1.getD l [])[j]? = some x) ∧ ∀ y ∈ fv1 x, LiesOn we wv ends M name y (fv f)) ∧
    ∀ f', (f, x) ∈ facetLinks d c2f0 c2f1 o.parent loc o.facet → (f', x) ∈ facetLinks d c2f0 c2f1 o.parent loc o.facet → f = f' := by
  have hcells := hR.cells r o ho
  rw [kid_cells] at hcells
  rw [kid_parent] at hpar
  rw [kid_facet] at hfac
  have hlen : o.parent.length = (kidList m T r).length := by rw [hpar, List.length_map]
  have hlen2 : orig.length = (kidList m T r).length := by rw [hs.1, hcells, List.length_map]
  -- one new cell
  have hone : ∀ c < (kidList m T r).length, ∃ q l, (kidList m T r)[c]? = some q ∧ q.1 < (m r).c2v.length ∧ q.2 ∈ T r q.1 ∧
      o.parent.getD c 0 = q.1 ∧ (∀ j < d + 1, (o.facet.getD c []).getD j 0 = pf q.2 j) ∧ loc.getD c 0 = l ∧ l < orig.length ∧
      orig[l]? = some (off + (c : Int)) ∧ ∀ j < d + 1, ∃ x, (c2f1.getD l [])[j]? = some x ∧
        fv1 x = ((q.2.map fun i => (name (point d wv m r q.1 i) : Int)).eraseIdx j).toFinset := by
    intro c hc
    obtain ⟨q, hq⟩ : ∃ q, (kidList m T r)[c]? = some q := ⟨_, List.getElem?_eq_getElem hc⟩
    obtain ⟨l, hl⟩ : ∃ l, loc[c]? = some l := ⟨_, List.getElem?_eq_getElem (by omega)⟩
    obtain ⟨h1, h2⟩ := mem_kidList (List.mem_of_getElem? hq)
    have hol := (hloc l c).mp hl
    refine ⟨q, l, hq, h1, h2, ?_, ?_, ?_, (List.getElem?_eq_some_iff.mp hol).1, hol, ?_⟩
    · rw [hpar, List.getD_eq_getElem?_getD, List.getElem?_map, hq]; rfl
    · intro j hj
      have e1 : o.facet.getD c [] = (List.range (d + 1)).map (pf q.2) := by
        rw [hfac, List.getD_eq_getElem?_getD, List.getElem?_map, hq]; rfl
      rw [e1, List.getD_eq_getElem?_getD, List.getElem?_map, List.getElem?_range hj]; rfl
    · rw [List.getD_eq_getElem?_getD, hl]; rfl
    · exact hnf l c _ hol (by rw [hcells, List.getElem?_map, hq]; rfl)
  have hmem : ∀ f, (f, x) ∈ facetLinks d c2f0 c2f1 o.parent loc o.facet ↔ ∃ c < (kidList m T r).length, ∃ j < d + 1, ∃ q l,
      (kidList m T r)[c]? = some q ∧ orig[l]? = some (off + (c : Int)) ∧ (c2f1.getD l [])[j]? = some x ∧ pf q.2 j ≠ -1 ∧
      (c2f0.getD q.1 [])[(pf q.2 j).toNat]? = some f := by
    intro f
    unfold facetLinks
    simp only [List.mem_flatMap, List.mem_range]
    constructor
    · rintro ⟨c, hc, j, hj, hx⟩
      rw [hlen] at hc
      obtain ⟨q, l, a1, a2, a3, a4, a5, a6, a7, a8, a9⟩ := hone c hc
      rw [a5 j hj] at hx
      split at hx
      · cases hx
      · rename_i hne
        rw [a4, a6, List.mem_singleton] at hx
        obtain ⟨x', hx', _⟩ := a9 j hj
        have hfo := hpf r hr q.1 a2 q.2 a3 j hj
        rcases hfo with ⟨f0, he, h1, h2⟩ | ⟨he, _⟩
        · obtain ⟨f', hf', hget', hset⟩ := hf.cell q.1 a2 f0 h1.1
          have e1 : (c2f1.getD l []).getD j 0 = x' := by rw [List.getD_eq_getElem?_getD, hx']; rfl
          have e2 : (c2f0.getD q.1 []).getD (pf q.2 j).toNat 0 = f' := by
            rw [he, Int.toNat_natCast, List.getD_eq_getElem?_getD, hget']; rfl
          rw [e1, e2] at hx
          cases hx
          exact ⟨c, hc, j, hj, q, l, a1, a8, hx', hne, by rw [he, Int.toNat_natCast]; exact hget'⟩
        · exact absurd he hne
    · rintro ⟨c, hc, j, hj, q, l, b1, b2, b3, b4, b5⟩
      refine ⟨c, by omega, j, hj, ?_⟩
      obtain ⟨q', l', a1, a2, a3, a4, a5, a6, a7, a8, a9⟩ := hone c hc
      rw [b1] at a1
      cases a1
      have hll' : l = l' := by
        have e1 := (hloc l c).mpr b2
        have e2 := (hloc l' c).mpr a8
        rw [e1] at e2
        exact Option.some.inj e2
      subst hll'
      rw [a5 j hj, if_neg b4, a4, a6, List.mem_singleton]
      rw [List.getD_eq_getElem?_getD, b5, List.getD_eq_getElem?_getD, b3]
      rfl
  have hside : ∀ c < (kidList m T r).length, ∀ j < d + 1, ∀ q l, (kidList m T r)[c]? = some q → orig[l]? = some (off + (c : Int)) →
      (c2f1.getD l [])[j]? = some x → ∀ f, ((f < nf ∧ ∀ y ∈ fv1 x, LiesOn we wv ends M name y (fv f)) ↔
        pf q.2 j ≠ -1 ∧ (c2f0.getD q.1 [])[(pf q.2 j).toNat]? = some f) := by
    intro c hc j hj q l b1 b2 b3 f
    obtain ⟨q', l', a1, a2, a3, a4, a5, a6, a7, a8, a9⟩ := hone c hc
    rw [b1] at a1
    cases a1
    have hll' : l = l' := by
      have e1 := (hloc l c).mpr b2
      have e2 := (hloc l' c).mpr a8
      rw [e1] at e2
      exact Option.some.inj e2
    subst hll'
    obtain ⟨x', c1, c2⟩ := a9 j hj
    rw [b3] at c1
    cases c1
    rw [c2]
    exact side_on h hR hpf hr hf a2 a3 hj f
  refine ⟨⟨?_, ?_⟩, ?_⟩
  · intro hl
    obtain ⟨c, hc, j, hj, q, l, b1, b2, b3, b4, b5⟩ := (hmem f).mp hl
    obtain ⟨e1, e2⟩ := (hside c hc j hj q l b1 b2 b3 f).mpr ⟨b4, b5⟩
    exact ⟨e1, ⟨l, (List.getElem?_eq_some_iff.mp b2).1, j, hj, b3⟩, e2⟩
  · rintro ⟨e1, ⟨l, hl, j, hj, b3⟩, e2⟩
    have hx : orig[l] ∈ (List.range orig.length).map fun (c : Nat) => off + (c : Int) := hs.2.mem_iff.mp (List.getElem_mem hl)
    obtain ⟨c, hc, hce⟩ := List.mem_map.mp hx
    have hc : c < (kidList m T r).length := by have := List.mem_range.mp hc; omega
    have b2 : orig[l]? = some (off + (c : Int)) := by rw [List.getElem?_eq_getElem hl]; exact congrArg some hce.symm
    have b1 : (kidList m T r)[c]? = some (kidList m T r)[c] := List.getElem?_eq_getElem hc
    obtain ⟨d1, d2⟩ := (hside c hc j hj _ l b1 b2 b3 f).mp ⟨e1, e2⟩
    exact (hmem f).mpr ⟨c, hc, j, hj, _, l, b1, b2, b3, d1, d2⟩
  · intro f' hl hl'
    obtain ⟨c, hc, j, hj, q, l, b1, b2, b3, b4, b5⟩ := (hmem f).mp hl
    obtain ⟨c', hc', j', hj', q', l', b1', b2', b3', b4', b5'⟩ := (hmem f').mp hl'
    have := (hside c hc j hj q l b1 b2 b3 f').mp ((hside c' hc' j' hj' q' l' b1' b2' b3' f').mpr ⟨b4', b5'⟩)
    rw [b5] at this
    exact Option.some.inj this.2

end Verif.TagTransfer
