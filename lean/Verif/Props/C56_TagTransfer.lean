import Verif.Lemmas.TagFacets
import Verif.Props.C55_Refinement
/-!
# C56: transfer of tags to a refined mesh
-/
namespace Verif.Props
open Verif.World Verif.Refine Verif.Spec Verif.Spec.SimplexMesh Verif.Spec.Marks Verif.Spec.TagTransfer Verif.TagTransfer Verif.Std

variable {K : Type} [LinearOrder K] [Zero K] {d : Nat} {we wv : World} {ends : Nat → Finset Nat} {L : Finset Nat → K} {m : Nat → RankMesh K}

/-- Cells get the tag of their parent; cells with an untagged parent get none. -/
theorem C56_cells (order : List Nat → List Nat) (ho : SortsKeys order) (tdim size : Nat) (tags : List (Nat × Int)) (orig : List Int) (off : Int)
    (cell : List Nat) (htags : (tags.map Prod.fst).Nodup) (hin : ∀ t ∈ tags, t.1 < size) (hcell : ∀ p ∈ cell, p < size)
    (hlen : orig.length = cell.length) (hs : orig.Perm ((List.range orig.length).map fun (c : Nat) => off + (c : Int))) :
    ∃ res, transferCells order tdim tdim size 0 tags orig off cell = .ok res ∧ (res.map Prod.fst).Pairwise (· < ·) ∧
      ∀ x v, (x, v) ∈ res ↔ ∃ c p : Nat, orig[x]? = some (off + (c : Int)) ∧ cell[c]? = some p ∧ (p, v) ∈ tags := by
  obtain ⟨loc, h1, h2, h3⟩ := localIndex_spec orig off hs
  have hz : ∀ y ∈ cell.zip loc, y.1 < size := fun y hy => hcell _ (List.of_mem_zip hy).1
  have hmem : ∀ p x, p < size → (x ∈ children (cell.zip loc) size p ↔ ∃ c : Nat, orig[x]? = some (off + (c : Int)) ∧ cell[c]? = some p) := by
    intro p x hp
    rw [children_eq _ size p hz hp]
    simp only [List.mem_map, List.mem_filter, beq_iff_eq]
    constructor
    · rintro ⟨⟨a, b⟩, ⟨hm, rfl⟩, rfl⟩
      obtain ⟨c, hc⟩ := List.mem_iff_getElem?.mp hm
      obtain ⟨e1, e2⟩ := List.getElem?_zip_eq_some.mp hc
      exact ⟨c, (h3 _ c).mp e2, e1⟩
    · rintro ⟨c, e1, e2⟩
      exact ⟨(p, x), ⟨List.mem_iff_getElem?.mpr ⟨c, (List.getElem?_zip_eq_some (z := (p, x))).mpr ⟨e2, (h3 x c).mpr e1⟩⟩, rfl⟩, rfl⟩
  have hnd : ∀ p, p < size → (children (cell.zip loc) size p).Nodup := by
    intro p hp
    rw [children_eq _ size p hz hp]
    have hl : loc.Nodup := by
      rw [List.nodup_iff_injective_getElem]
      intro a b hab
      have ha := (h3 loc[a] a).mp (List.getElem?_eq_getElem a.2)
      have hb := (h3 loc[b] b).mp (List.getElem?_eq_getElem b.2)
      have hab : loc[a] = loc[b] := hab
      rw [hab] at ha
      rw [ha] at hb
      have := Option.some.inj hb
      exact Fin.ext (by omega)
    have : ((cell.zip loc).map Prod.snd).Nodup := by
      rw [List.map_snd_zip (by omega)]; exact hl
    exact this.sublist (List.filter_sublist.map _)
  have hd : ∀ t ∈ tags, ∀ t' ∈ tags, ∀ x ∈ children (cell.zip loc) size t.1, x ∈ children (cell.zip loc) size t'.1 → t.1 = t'.1 := by
    intro t ht t' ht' x hx hx'
    obtain ⟨c, e1, e2⟩ := (hmem t.1 x (hin t ht)).mp hx
    obtain ⟨c', e1', e2'⟩ := (hmem t'.1 x (hin t' ht')).mp hx'
    rw [e1] at e1'
    have hcc : c = c' := by have := Option.some.inj e1'; omega
    subst hcc
    rw [e2] at e2'
    exact Option.some.inj e2'
  refine ⟨_, ?_, (sortPairs_spec order ho _ (keys_nodup tags (children (cell.zip loc) size) htags (fun t ht => hnd _ (hin t ht)) hd)).1, ?_⟩
  · unfold transferCells
    rw [if_neg (by simp), if_neg (by simp), if_neg (by simpa using hlen), h1]
    rfl
  · intro x v
    rw [(sortPairs_spec order ho _ (keys_nodup tags (children (cell.zip loc) size) htags (fun t ht => hnd _ (hin t ht)) hd)).2]
    simp only [List.mem_flatMap, List.mem_map]
    constructor
    · rintro ⟨t, ht, x', hx', he⟩
      cases he
      obtain ⟨c, e1, e2⟩ := (hmem t.1 x (hin t ht)).mp hx'
      exact ⟨c, t.1, e1, e2, ht⟩
    · rintro ⟨c, p, e1, e2, e3⟩
      exact ⟨(p, v), e3, x, (hmem p x (hin _ e3)).mpr ⟨c, e1, e2⟩, rfl⟩

/-- After a refinement: a facet of the refined mesh gets the tag of the old facet that it lies on, and no tag if there is no such
tagged facet. -/
theorem C56_facets (h : SimplexMesh.MeshOk d we wv ends L m) (edges : Nat → Option (List Nat))
    (he : (∀ r < we.P, edges r = none) ∨ (∀ r < we.P, ∃ l, edges r = some l ∧ ∀ e ∈ l, e < we.size r + (we.ghosts r).length))
    (order : List Nat → List Nat) (ho : SortsKeys order) :
    ∃ n, ∀ fuel, n ≤ fuel → ∃ name N T out, refineMesh d we wv m edges fuel = some out ∧
      IsRefinement d we wv ends m (Must we (ruleFaces d wv m) edges) name N T out ∧
      ∀ r o, out[r]? = some o → ∀ (orig : List Int) (off : Int) (nf : Nat) (c2f0 c2f1 : List (List Nat)) (fv0 : Nat → Finset Nat)
        (fv1 : Nat → Finset Int) (tags : List (Nat × Int)), SameCells o orig off → OldFacets d wv m r nf c2f0 fv0 →
        NewFacets d o orig off c2f1 fv1 → (tags.map Prod.fst).Nodup → (∀ t ∈ tags, t.1 < nf) →
        ∃ res, transferFacets order d 0 nf tags orig off (some c2f0) (some c2f1) o.parent o.facet = .ok res ∧
          (res.map Prod.fst).Pairwise (· < ·) ∧
          ∀ x v, (x, v) ∈ res ↔ (∃ l < orig.length, ∃ j < d + 1, (c2f1.getD l [])[j]? = some x) ∧
            ∃ f, (f, v) ∈ tags ∧ ∀ y ∈ fv1 x, LiesOn we wv ends (Must we (ruleFaces d wv m) edges) name y (fv0 f) := by
  obtain ⟨n, hn⟩ := C55_parents h edges he
  refine ⟨n, fun fuel hf => ?_⟩
  obtain ⟨name, N, T, out, h1, hR, pf, hpf, harr⟩ := hn fuel hf
  refine ⟨name, N, T, out, h1, hR, ?_⟩
  intro r o hro orig off nf c2f0 c2f1 fv0 fv1 tags hs hf0 hf1 htags hin
  have hr : r < we.P := by
    have := (List.getElem?_eq_some_iff.mp hro).1
    rw [hR.len] at this
    exact this
  obtain ⟨hpar, hfac⟩ := harr r o hro
  obtain ⟨loc, l1, l2, l3⟩ := localIndex_spec orig off hs.2
  have hlink := facetLinks_mem h hR hpf hr hro hpar hfac hf0 hs hf1 l2 l3
  have hz : ∀ y ∈ facetLinks d c2f0 c2f1 o.parent loc o.facet, y.1 < nf := fun y hy => ((hlink y.1 y.2).1.mp hy).1
  set row : Nat → List Nat := fun f => unique (sortNat (children (facetLinks d c2f0 c2f1 o.parent loc o.facet) nf f)) with hrow
  have hmem : ∀ f x, f < nf → (x ∈ row f ↔ (f, x) ∈ facetLinks d c2f0 c2f1 o.parent loc o.facet) := by
    intro f x hfn
    rw [hrow]
    simp only
    rw [mem_unique_sortNat, children_eq _ nf f hz hfn]
    simp only [List.mem_map, List.mem_filter, beq_iff_eq]
    constructor
    · rintro ⟨⟨a, b⟩, ⟨hm, rfl⟩, rfl⟩; exact hm
    · exact fun hm => ⟨(f, x), ⟨hm, rfl⟩, rfl⟩
  have hkeys := keys_nodup tags row htags (fun t _ => nodup_of_strict (unique_sortNat_sorted _)) (by
    intro t ht t' ht' x hx hx'
    exact (hlink t.1 x).2 t'.1 ((hmem _ _ (hin t ht)).mp hx) ((hmem _ _ (hin t' ht')).mp hx'))
  refine ⟨_, ?_, (sortPairs_spec order ho _ hkeys).1, ?_⟩
  · unfold transferFacets
    rw [if_neg (by simp)]
    simp only
    have hlen : orig.length = o.parent.length := by
      rw [hs.1, hR.cells r o hro, hpar, kid_cells, kid_parent, List.length_map, List.length_map]
    rw [if_neg (by simpa using hlen), l1]
  · intro x v
    rw [(sortPairs_spec order ho _ hkeys).2]
    simp only [List.mem_flatMap, List.mem_map]
    constructor
    · rintro ⟨t, ht, x', hx', e⟩
      cases e
      obtain ⟨_, e2, e3⟩ := (hlink t.1 x).1.mp ((hmem _ _ (hin t ht)).mp hx')
      exact ⟨e2, t.1, ht, e3⟩
    · rintro ⟨e2, f, ht, e3⟩
      exact ⟨(f, v), ht, x, (hmem f x (hin _ ht)).mpr ((hlink f x).1.mpr ⟨hin _ ht, e2, e3⟩), rfl⟩

/-- Tags that are not on cells, and ghosted meshes, are rejected. -/
theorem C56_rejects (order : List Nat → List Nat) (tagDim tdim size ghosts nf : Nat) (tags : List (Nat × Int)) (orig : List Int) (off : Int)
    (cell : List Nat) (c2f0 c2f1 : Option (List (List Nat))) (facet : List (List Int)) :
    (tagDim ≠ tdim → transferCells order tagDim tdim size ghosts tags orig off cell = .error .notCells) ∧
    (tagDim = tdim → 0 < ghosts → transferCells order tagDim tdim size ghosts tags orig off cell = .error .ghosted) ∧
    (0 < ghosts → transferFacets order tdim ghosts nf tags orig off c2f0 c2f1 cell facet = .error .ghosted) := by
  refine ⟨fun h => ?_, fun h hg => ?_, fun hg => ?_⟩
  · unfold transferCells; rw [if_pos h]
  · unfold transferCells; rw [if_neg (not_not.mpr h), if_pos hg]
  · unfold transferFacets; rw [if_pos hg]

/-! Example: the refined cells of the first rank of the example of C55, in the order 2, 0, 1. -/

/-- Positions in the order of the keys. -/
def tagOrder (l : List Nat) : List Nat := (sort (fun (a b : Nat × Nat) => decide (a.1 ≤ b.1)) l.zipIdx).map Prod.snd

theorem tagOrder_sorts : SortsKeys tagOrder := by
  intro l
  have hp := sort_perm (fun (a b : Nat × Nat) => decide (a.1 ≤ b.1)) l.zipIdx
  constructor
  · unfold tagOrder
    refine (hp.map Prod.snd).trans (List.Perm.of_eq ?_)
    rw [List.zipIdx_map_snd, List.range_eq_range']
  · have hs := sort_sorted (fun (a b : Nat × Nat) => decide (a.1 ≤ b.1)) (by simp; omega) (by simp; omega) l.zipIdx
    unfold tagOrder
    rw [List.map_map, List.pairwise_map]
    refine hs.imp_of_mem fun {a b} ha hb hab => ?_
    have ga := List.mem_zipIdx_iff_getElem?.mp (hp.mem_iff.mp ha)
    have gb := List.mem_zipIdx_iff_getElem?.mp (hp.mem_iff.mp hb)
    simp only [Function.comp, List.getD_eq_getElem?_getD, ga, gb, Option.getD_some]
    simpa using hab

def tagOut : Refined := ⟨[[3, 0, 2], [3, 0, 4], [3, 4, 1]], [0, 0, 0], [[1, 0, -1], [2, -1, -1], [2, 0, -1]]⟩

def tagVerts (x : Nat) : Finset Int := [{3, 1}, {4, 1}, {3, 4}, {2, 0}, {3, 2}, {3, 0}, {4, 0}].getD x ∅

def tagFacets : List (List Nat) := [[1, 0, 2], [3, 4, 5], [6, 2, 5]]

example : SameCells tagOut [12, 10, 11] 10 := ⟨rfl, by decide⟩

example : OldFacets 2 vertVertices twoTri 0 3 [[0, 1, 2]] twoEnds := by
  refine ⟨by decide, by decide, ?_⟩
  intro c hc k hk
  have hc : c < 1 := hc
  interval_cases c
  interval_cases k
  · exact ⟨0, by decide, rfl, by decide⟩
  · exact ⟨1, by decide, rfl, by decide⟩
  · exact ⟨2, by decide, rfl, by decide⟩

example : NewFacets 2 tagOut [12, 10, 11] 10 tagFacets tagVerts := by
  intro l c row h1 h2 j hj
  have hc : c < 3 := (List.getElem?_eq_some_iff.mp h2).1
  have hl : l < 3 := (List.getElem?_eq_some_iff.mp h1).1
  interval_cases l <;> interval_cases c <;> first | (exfalso; revert h1; decide) | (cases h2; interval_cases j <;> exact ⟨_, rfl, by decide⟩)

/-- Both parts of the old facet 0 get its tag. -/
example : transferFacets tagOrder 2 0 3 [(0, 7), (1, 5)] [12, 10, 11] 10 (some [[0, 1, 2]]) (some tagFacets) tagOut.parent tagOut.facet =
    .ok [(0, 7), (3, 5), (4, 7)] := by decide +kernel

example : transferCells tagOrder 2 2 1 0 [(0, 9)] [12, 10, 11] 10 tagOut.parent = .ok [(0, 9), (1, 9), (2, 9)] := by decide +kernel

end Verif.Props
