import Verif.Lemmas.Refinement
/-! Cells of a refined mesh. -/
namespace Verif.Refine
open Verif.World Verif.Spec Verif.Spec.SimplexMesh Verif.Spec.Subdiv Verif.Spec.Conform Verif.Spec.Marks

/-- Point `i` of the cell with vertices `v` as a set of vertices. -/
def ptOf (d : Nat) (v : Nat → Nat) (i : Nat) : Finset Nat := (ptEnds d i).toFinset.image v

/-- Parts of old facets. -/
def partOf (d : Nat) (R : Rule Nat) : Finset Nat → Finset (Finset Nat) → Prop := if d = 2 then EdgePart R else FacePart R

/-- Facts about the new cells `T` of one cell. -/
structure CellFacts (d : Nat) (R : Rule Nat) (v : Nat → Nat) (T : List (List Nat)) : Prop where
  pts : ∀ t ∈ T, t.length = d + 1 ∧ t.Nodup ∧ (∀ i ∈ t, i < d + 1 ∨ (i < numPts d ∧ R.mark (ptOf d v i) = true)) ∧
    ∀ k < d + 1, ∀ f f', OnFacet d t k f → OnFacet d t k f' → f = f'
  tiles : ∀ (F : Type) [Field F] [LinearOrder F] [IsStrictOrderedRing F], Tiles F (ptEnds d) (List.range (d + 1)).toFinset (T.map List.toFinset)
  loc : LocalOK d [()] (fun _ => (List.range (d + 1)).toFinset.image v) (fun _ => T.map fun t => t.toFinset.image (ptOf d v)) (partOf d R)

theorem ptOf3 (v : Nat → Nat) : ptOf 3 v = tetPt v := rfl

theorem ptOf2 (v : Nat → Nat) : ptOf 2 v = triPt v := rfl

theorem single {C : Type} (d : Nat) (c : C) (vs : C → Finset Nat) (kids : C → List (Finset (Finset Nat))) (Part : Finset Nat → Finset (Finset Nat) → Prop)
    (h : LocalOK d [c] vs kids Part) : LocalOK d [()] (fun _ => vs c) (fun _ => kids c) Part where
  card := fun _ _ => h.card c (by simp)
  one := fun _ _ => h.one c (by simp)
  carr := fun _ _ => h.carr c (by simp)
  inside := fun _ _ => h.inside c (by simp)
  facet := fun _ _ => h.facet c (by simp)

theorem cellFacts3 {Q : Type} [LinearOrder Q] (R : Rule Nat) (key : Finset Nat → Q) (v : Nat → Nat) (hv : Inj4 v)
    (hl : ∀ f < 4, Longest R key (tetFacet v f)) (hc : ∀ f < 4, Closed R (tetFacet v f)) :
    CellFacts 3 R v (getTetrahedra (tetMarks R v) (tetLong R v)) := by
  have hgood := tet_good R key hv hl hc
  have hg := goodTet _ _ hgood
  refine ⟨?_, ?_, ?_⟩
  · intro t ht
    obtain ⟨h1, h2, h3⟩ := hg.cells t ht
    refine ⟨h1, h2, ?_, ?_⟩
    · intro i hi
      rcases h3 i hi with h | ⟨h, hm⟩
      · exact Or.inl h
      · by_cases h4 : i < 4
        · exact Or.inl h4
        · refine Or.inr ⟨h, ?_⟩
          rw [tetMarks_get R v _ (by omega)] at hm
          have : tetEdgeSet v (i - 4) = ptOf 3 v i := by
            unfold tetEdgeSet; rw [ptOf3, show 4 + (i - 4) = i by omega]
          rw [← this]; exact hm
    · intro k hk f f' hf hf'
      exact tet_facet_unique _ _ (fun f hf => (tetLong_get R key hv f hf (hl f hf)).1) hg t ht k hk f f' hf hf'
  · intro F _ _ _
    exact good_tiles _ _ hgood
  · exact single 3 v tetVerts (tetKids R) (FacePart R) (tet_local R key [v] (by simpa using hv) (by simpa using hl) (by simpa using hc))

theorem tri_cell_tiles {F : Type} [Field F] [LinearOrder F] [IsStrictOrderedRing F] :
    Tiles F triEnds {0, 1, 2} (([[0, 1, 2]] : List (List Nat)).map List.toFinset) := by
  refine ⟨?_, ?_, ?_, ?_⟩
  · intro t ht lam h
    simp only [List.map_cons, List.map_nil, List.mem_singleton] at ht
    subst ht
    exact h
  · intro lam h
    exact ⟨_, by simp, h⟩
  · simp
  · intro t ht
    simp only [List.map_cons, List.map_nil, List.mem_singleton] at ht
    subst ht
    refine ⟨?_, rfl⟩
    intro mu nu h c hc
    have e : ∀ i < 3, ∀ j, coord F triEnds i j = if j = i then 1 else 0 := by
      intro i hi j; unfold coord
      interval_cases i <;> simp [triEnds]
    have hcc : c < 3 := by
      simp at hc; omega
    have := h c
    have hs : ([0, 1, 2] : List Nat).toFinset = {0, 1, 2} := rfl
    rw [hs, comb3 triEnds 0 1 2 (by omega) (by omega) (by omega), comb3 triEnds 0 1 2 (by omega) (by omega) (by omega),
      e 0 (by omega), e 1 (by omega), e 2 (by omega)] at this
    interval_cases c <;> simpa using this

theorem cellFacts2 (R : Rule Nat) (v : Nat → Nat) (u : Bool) (hv : Inj3 v) (hl : TriLong R v) (hc : Closed R (triVerts v)) :
    CellFacts 2 R v (triCells (triMarks R v) (triLong R v) u) := by
  have hgood := tri_good R hv hl hc u
  have hg := goodTri _ _ _ hgood
  obtain ⟨hl3, hlong⟩ := triLong_get R hv hl
  refine ⟨?_, ?_, ?_⟩
  · intro t ht
    obtain ⟨h1, h2, h3⟩ := hg.cells t ht
    refine ⟨h1, h2, ?_, ?_⟩
    · intro i hi
      rcases h3 i hi with h | ⟨h, hm⟩
      · exact Or.inl h
      · by_cases h4 : i < 3
        · exact Or.inl h4
        · refine Or.inr ⟨h, ?_⟩
          rw [triMarks_get R v _ (by omega)] at hm
          have : triFacet v (i - 3) = ptOf 2 v i := by
            unfold triFacet; rw [ptOf2, show 3 + (i - 3) = i by omega]
          rw [← this]; exact hm
    · intro k hk f f' hf hf'
      exact tri_facet_unique _ _ _ hg t ht k hk f f' hf hf'
  · intro F _ _ _
    unfold triCells
    split
    · next ha =>
      refine tri_tiles _ _ _ (by simp [triMarks]) hl3 ?_
      rw [triMarks_get R v _ hl3, hlong]
      obtain ⟨b, hb, hbt⟩ := List.any_eq_true.mp ha
      obtain ⟨e, he, heb⟩ := List.mem_map.mp hb
      have he := List.mem_range.mp he
      have hm : R.mark (triFacet v e) = true := by rw [heb]; exact hbt
      have hsub : triFacet v e ⊆ triVerts v ∧ (triFacet v e).card = 2 := by
        rw [triFacet_eq v e he]
        refine ⟨?_, Finset.card_pair fun h => ?_⟩
        · intro x hx
          simp only [Finset.mem_insert, Finset.mem_singleton] at hx
          unfold triVerts
          rcases hx with rfl | rfl
          · exact Finset.mem_image_of_mem _ (List.mem_toFinset.mpr (List.mem_range.mpr (by omega)))
          · exact Finset.mem_image_of_mem _ (List.mem_toFinset.mpr (List.mem_range.mpr (by omega)))
        · have := hv _ (by omega) _ (by omega) h
          omega
      exact hc _ hsub.1 hsub.2 hm
    · exact tri_cell_tiles
  · exact single 2 v triVerts (triKids R fun _ => u) (EdgePart R) (tri_local R (fun _ => u) [v] (by simpa using hv) (by simpa using hl) (by simpa using hc))

variable {K : Type} [LinearOrder K] [Zero K] {d : Nat} {we wv : World} {ends : Nat → Finset Nat} {L : Finset Nat → K} {m : Nat → RankMesh K}

/-- Flags of the edges of a cell. -/
def cellMarks (d : Nat) (marks : List Bool) (es : List Nat) : List Bool := (List.range (3 * d - 3)).map fun j => marks.getD (es.getD j 0) false

theorem marks_eq (h : MeshOk d we wv ends L m) (M : Nat → Prop) (lng : Finset Nat → Finset Nat) (marks : Nat → List Bool)
    (hM : ∀ r < we.P, ∀ i g, globalOf we r i = some g → ((marks r).getD i false = true ↔ M g))
    (r : Nat) (hr : r < we.P) (c : Nat) (vs es fs : List Nat) (hc : IsCell m r c vs es fs) :
    cellMarks d (marks r) es = (List.range (3 * d - 3)).map fun j => (ruleOf we ends M lng).mark (ptOf d (gv wv r vs) (d + 1 + j)) := by
  unfold cellMarks
  refine List.map_congr_left fun j hj => ?_
  obtain ⟨g, hg, he⟩ := (h.edges r hr c vs es hc.v hc.e).2 j (List.mem_range.mp hj)
  rw [Bool.eq_iff_iff, hM r hr _ g hg, ptOf, ← he, mark_ends h M lng g (edge_total h r hr _ g hg)]

theorem map_range_eq {α : Type} (l : List α) (n : Nat) (z : α) (f : Nat → α) (hl : l.length = n) (h : ∀ i < n, l.getD i z = f i) :
    l = (List.range n).map f := by
  rw [← map_getD_range l n hl z]
  exact List.map_congr_left fun i hi => h i (List.mem_range.mp hi)

/-- A suitable choice of longest edges. -/
theorem long_ex (h : MeshOk d we wv ends L m) : ∃ lng, LongSpec d we wv ends m lng ∧ (d = 3 → lng = maxEdge L) := by
  rcases h.dim with rfl | rfl
  · obtain ⟨lng, hl⟩ := long2 h
    exact ⟨lng, hl, by omega⟩
  · exact ⟨maxEdge L, long3 h, fun _ => rfl⟩

theorem cell_facts (h : MeshOk d we wv ends L m) (edges : Nat → Option (List Nat)) (lng : Finset Nat → Finset Nat) (marks : Nat → List Bool)
    (hM : ∀ r < we.P, ∀ i g, globalOf we r i = some g → ((marks r).getD i false = true ↔ Must we (ruleFaces d wv m) edges g))
    (hl : LongSpec d we wv ends m lng) (hl3 : d = 3 → lng = maxEdge L)
    (r : Nat) (hr : r < we.P) (c : Nat) (vs es fs : List Nat) (hc : IsCell m r c vs es fs) (u : Bool) :
    ∃ le : Nat → Nat, (∀ k < numFaces d, ((longEdges d wv r (m r))[fs.getD k 0]?).map (cellLocal es) = some (le k)) ∧
      CellFacts d (ruleOf we ends (Must we (ruleFaces d wv m) edges) lng) (gv wv r vs) (kidsIdx d (cellMarks d (marks r) es) ((List.range (numFaces d)).map le) u) := by
  have hlong := cell_long h lng hl r hr c vs es fs hc
  have hclosed := closed_of h edges lng hl r hr c vs es fs hc
  have hmarks := marks_eq h _ lng marks hM r hr c vs es fs hc
  have hinj := cell_inj h r hr vs (vs_mem hc)
  have hex : ∀ k, ∃ j, k < numFaces d → (j < 3 * d - 3 ∧ ((longEdges d wv r (m r))[fs.getD k 0]?).map (cellLocal es) = some j ∧
      lng ((faceVerts d k).image (gv wv r vs)) = (ptEnds d (d + 1 + j)).toFinset.image (gv wv r vs) ∧
      lng ((faceVerts d k).image (gv wv r vs)) ⊆ (faceVerts d k).image (gv wv r vs) ∧
      (lng ((faceVerts d k).image (gv wv r vs))).card = 2) := by
    intro k
    by_cases hk : k < numFaces d
    · obtain ⟨j, h1, h2⟩ := hlong k hk
      exact ⟨j, fun _ => ⟨h1, h2⟩⟩
    · exact ⟨0, fun h => absurd h hk⟩
  choose le hle using hex
  refine ⟨le, fun k hk => (hle k hk).2.1, ?_⟩
  rw [hmarks]
  generalize hR : ruleOf we ends (Must we (ruleFaces d wv m) edges) lng = R at *
  generalize hvv : gv wv r vs = v at *
  have hRl : R.long = lng := by rw [← hR]; rfl
  rcases h.dim with rfl | rfl
  · have hv : Inj3 v := fun i hi j hj he => hinj i j hi hj he
    obtain ⟨h1, h2, h3, h4, h5⟩ := hle 0 (by unfold numFaces; simp)
    have hface : (faceVerts 2 0).image v = triVerts v := rfl
    rw [hface] at h3 h4 h5
    have hTL : TriLong R v := by unfold TriLong; rw [hRl]; exact ⟨h4, h5⟩
    have hcl : Closed R (triVerts v) := hclosed 0 (by unfold numFaces; simp)
    have hk : kidsIdx 2 ((List.range (3 * 2 - 3)).map fun j => R.mark (ptOf 2 v (2 + 1 + j))) ((List.range (numFaces 2)).map le) u =
        triCells (triMarks R v) (triLong R v) u := by
      obtain ⟨t1, t2⟩ := triLong_get R hv hTL
      have : le 0 = triLong R v := by
        have he : triPt v (3 + le 0) = triPt v (3 + triLong R v) := by
          rw [show triPt v (3 + triLong R v) = triFacet v (triLong R v) from rfl, t2, hRl, h3]; rfl
        have := triPt_inj hv _ _ (by omega) (by omega) he
        omega
      unfold kidsIdx triCells
      rw [show ((List.range (3 * 2 - 3)).map fun j => R.mark (ptOf 2 v (2 + 1 + j))) = triMarks R v from rfl, if_pos rfl,
        show ((List.range (numFaces 2)).map le).getD 0 0 = le 0 from rfl, this]
      rfl
    rw [hk]
    exact cellFacts2 R v u hv hTL hcl
  · have hv : Inj4 v := fun i hi j hj he => hinj i j hi hj he
    have hlng := hl3 rfl
    have hLo : ∀ f < 4, Longest R (edgeKey L) (tetFacet v f) := by
      intro f hf
      rw [← hR, ← hvv, hlng]
      exact longest3 h _ r hr c vs es fs hc f hf
    have hcl : ∀ f < 4, Closed R (tetFacet v f) := fun f hf => hclosed f hf
    have hLe : tetLong R v = (List.range (numFaces 3)).map le := by
      refine map_range_eq _ _ 0 _ (by simp [tetLong, numFaces]) fun f hf => ?_
      have hf : f < 4 := hf
      obtain ⟨t1, t2⟩ := tetLong_get R (edgeKey L) hv f hf (hLo f hf)
      obtain ⟨h1, _, h3, _⟩ := hle f hf
      refine edgeSet_inj hv _ _ (facetEdges_facts f hf _ t1).1 h1 ?_
      rw [t2, hRl]; exact h3
    have hk : kidsIdx 3 ((List.range (3 * 3 - 3)).map fun j => R.mark (ptOf 3 v (3 + 1 + j))) ((List.range (numFaces 3)).map le) u =
        getTetrahedra (tetMarks R v) (tetLong R v) := by
      unfold kidsIdx
      rw [show ((List.range (3 * 3 - 3)).map fun j => R.mark (ptOf 3 v (3 + 1 + j))) = tetMarks R v from rfl, ← hLe]
      split
      · rw [if_neg (by omega)]
      · next ha =>
        have hm : tetMarks R v = [false, false, false, false, false, false] := by
          have h6 : (tetMarks R v).length = 6 := by simp [tetMarks]
          have : tetMarks R v = List.replicate 6 false := by
            rw [List.eq_replicate_iff]
            refine ⟨h6, fun b hb => ?_⟩
            by_contra hne
            exact ha (List.any_eq_true.mpr ⟨b, hb, by simpa using hne⟩)
          rw [this]; rfl
        rw [hm]
        refine (Props.C52_unmarked _ (by simp [tetLong]) fun f hf => ?_).symm
        have := (tetLong_get R (edgeKey L) hv f hf (hLo f hf)).1
        exact (Props.C52_aux_facet f hf _).mp this
    rw [hk]
    exact cellFacts3 R (edgeKey L) v hv hLo hcl

end Verif.Refine
