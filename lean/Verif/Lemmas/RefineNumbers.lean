import Verif.Lemmas.RefineMesh
import Verif.Spec.RefinedMesh
/-! Cells of a refined mesh by the new vertex numbers. -/
namespace Verif.Refine
open Verif.World Verif.Spec Verif.Spec.SimplexMesh Verif.Spec.Subdiv Verif.Spec.Conform Verif.Spec.Marks Verif.Spec.Vertices

variable {K : Type} [LinearOrder K] [Zero K] {d : Nat} {we wv : World} {ends : Nat → Finset Nat} {L : Finset Nat → K} {m : Nat → RankMesh K}

open Classical in
/-- Number of the point between the vertices `s`. -/
noncomputable def nameOf (ne : Nat) (ends : Nat → Finset Nat) (old mid : Nat → Nat) (s : Finset Nat) : Nat :=
  if h : ∃ g, g < ne ∧ ends g = s then mid h.choose else old (s.sum id)

theorem name_edge (h : MeshOk d we wv ends L m) (old mid : Nat → Nat) (g : Nat) (hg : g < we.r0 we.P) :
    nameOf (we.r0 we.P) ends old mid (ends g) = mid g := by
  have hex : ∃ g', g' < we.r0 we.P ∧ ends g' = ends g := ⟨g, hg, rfl⟩
  unfold nameOf
  rw [dif_pos hex, h.ends_inj _ hex.choose_spec.1 g hg hex.choose_spec.2]

theorem name_vertex (h : MeshOk d we wv ends L m) (old mid : Nat → Nat) (a : Nat) : nameOf (we.r0 we.P) ends old mid {a} = old a := by
  unfold nameOf
  rw [dif_neg]
  · simp
  · rintro ⟨g, hg, he⟩
    have := h.ends_two g hg
    rw [he] at this
    simp at this

/-- Row `c` of the vertices. -/
def rowV (m : Nat → RankMesh K) (r c : Nat) : List Nat := (m r).c2v.getD c []

/-- Global vertices of a cell. -/
def cellV (wv : World) (m : Nat → RankMesh K) (r c : Nat) : Nat → Nat := gv wv r (rowV m r c)

theorem isCell_of (h : MeshOk d we wv ends L m) (r : Nat) (hr : r < we.P) (c : Nat) (hc : c < (m r).c2v.length) :
    ∃ es fs, IsCell m r c (rowV m r c) es fs := by
  have h1 : c < (m r).c2e.length := by rw [h.len_e r hr]; exact hc
  have h2 : c < (m r).c2f.length := by rw [h.len_f r hr]; exact hc
  refine ⟨(m r).c2e[c], (m r).c2f[c], ?_, List.getElem?_eq_getElem h1, List.getElem?_eq_getElem h2⟩
  unfold rowV
  rw [List.getD_eq_getElem?_getD, List.getElem?_eq_getElem hc]; rfl

theorem ptOf_vertex (hd : d = 2 ∨ d = 3) (v : Nat → Nat) (i : Nat) (hi : i < d + 1) : ptOf d v i = {v i} := by
  rcases hd with rfl | rfl
  · exact triPt_vertex v i hi
  · exact tetPt_vertex v i hi

theorem pts_of (h : MeshOk d we wv ends L m) (M : Nat → Prop) (lng : Finset Nat → Finset Nat) (r : Nat) (hr : r < we.P) (vs : List Nat)
    (hvs : vs ∈ (m r).c2v) (i : Nat) (hi : i < d + 1 ∨ (i < numPts d ∧ (ruleOf we ends M lng).mark (ptOf d (gv wv r vs) i) = true)) :
    IsPoint we wv ends M (ptOf d (gv wv r vs) i) := by
  rcases hi with hi | ⟨_, hi⟩
  · left
    rw [ptOf_vertex h.dim _ i hi]
    obtain ⟨h1, _, h3⟩ := h.verts r hr vs hvs
    refine ⟨_, ?_, rfl⟩
    have hr' : r < wv.P := by rw [h.ranks]; exact hr
    exact Props.globalOf_lt_total wv h.verts_valid r hr' _ _ (gl_some wv r _ (h3 _ (getD_mem' vs i 0 (by omega))))
  · right
    unfold ruleOf at hi
    simp only [decide_eq_true_eq] at hi
    exact hi

theorem name_inj (h : MeshOk d we wv ends L m) (M : Nat → Prop) (old mid : Nat → Nat) (N : Nat)
    (hn : Numbering (wv.r0 wv.P) (we.r0 we.P) M old mid N) (s t : Finset Nat) (hs : IsPoint we wv ends M s) (ht : IsPoint we wv ends M t)
    (he : nameOf (we.r0 we.P) ends old mid s = nameOf (we.r0 we.P) ends old mid t) : s = t := by
  rcases hs with ⟨a, ha, rfl⟩ | ⟨g, hg, hm, rfl⟩ <;> rcases ht with ⟨b, hb, rfl⟩ | ⟨g', hg', hm', rfl⟩
  · rw [name_vertex h, name_vertex h] at he
    rw [hn.old_inj a ha b hb he]
  · rw [name_vertex h, name_edge h _ _ g' hg'] at he
    exact absurd he (hn.disj a ha g' hg' hm')
  · rw [name_vertex h, name_edge h _ _ g hg] at he
    exact absurd he.symm (hn.disj b hb g hg hm)
  · rw [name_edge h _ _ g hg, name_edge h _ _ g' hg'] at he
    rw [hn.mid_inj g hg hm g' hg' hm' he]

/-- Results of one rank for new cells `T c` with points numbered by `name`. -/
def rankOut (d : Nat) (name : Finset Nat → Nat) (wv : World) (m : Nat → RankMesh K) (T : Nat → Nat → List (List Nat)) (r : Nat) : Refined :=
  ⟨(List.range (m r).c2v.length).flatMap fun c => (T r c).map fun t => t.map fun i => (name (ptOf d (cellV wv m r c) i) : Int),
   (List.range (m r).c2v.length).flatMap fun c => List.replicate (T r c).length c,
   (List.range (m r).c2v.length).flatMap fun c => (T r c).map fun t => (List.range (d + 1)).map (pfv d t)⟩

theorem zipIdx_map_range {α β : Type} (n : Nat) (f : Nat → α) (g : α × Nat → List β) :
    ((List.range n).map f).zipIdx.flatMap g = (List.range n).flatMap fun c => g (f c, c) := by
  rw [List.zipIdx_eq_zip_range', List.length_map, List.length_range, ← List.range_eq_range']
  have : ((List.range n).map f).zip (List.range n) = (List.range n).map fun c => (f c, c) := by
    have := zip_maps (List.range n) f id
    rw [List.map_id] at this
    exact this
  rw [this, List.flatMap_map]

theorem refineRank_spec {K : Type} (d : Nat) (adj : List Nat) (marks : List Bool) (new : List Nat × List Nat) (long : List Nat) (m : RankMesh K)
    (kids : Nat → List (List Int × List Int))
    (h : ∀ c < m.c2v.length, ∃ vs es fs, m.c2v[c]? = some vs ∧ m.c2e[c]? = some es ∧ m.c2f[c]? = some fs ∧
      refineCell d adj marks new long (m.ratioOk c) vs es fs = some (kids c)) :
    refineRank d adj marks new long m = some ⟨(List.range m.c2v.length).flatMap fun c => (kids c).map Prod.fst,
      (List.range m.c2v.length).flatMap fun c => List.replicate (kids c).length c,
      (List.range m.c2v.length).flatMap fun c => (kids c).map Prod.snd⟩ := by
  unfold refineRank
  rw [Props.mapM_some (List.range m.c2v.length) _ kids]
  · simp only [Option.bind_eq_bind, Option.bind_some, Option.pure_def, Option.some.injEq, Refined.mk.injEq]
    refine ⟨?_, ?_, ?_⟩
    · rw [List.flatMap_map, List.map_flatMap]; rfl
    · exact zipIdx_map_range _ kids fun p => List.replicate p.1.length p.2
    · rw [List.flatMap_map, List.map_flatMap]; rfl
  · intro c hc
    obtain ⟨vs, es, fs, h1, h2, h3, h4⟩ := h c (List.mem_range.mp hc)
    simp only [h1, h2, h3, h4, Option.bind_eq_bind, Option.bind_some]

/-- Result of the whole refinement. -/
theorem refine_core (h : MeshOk d we wv ends L m) (edges : Nat → Option (List Nat))
    (he : (∀ r < we.P, edges r = none) ∨ (∀ r < we.P, ∃ l, edges r = some l ∧ ∀ e ∈ l, e < we.size r + (we.ghosts r).length)) :
    ∃ n, ∀ fuel, n ≤ fuel → ∃ (marks : Nat → List Bool) (lng : Finset Nat → Finset Nat) (T : Nat → Nat → List (List Nat)),
      RefMark.markEdges we (ruleFaces d wv m) edges fuel = some marks ∧
      (∀ r < we.P, ∀ i g, globalOf we r i = some g → ((marks r).getD i false = true ↔ Must we (ruleFaces d wv m) edges g)) ∧
      refineMesh d we wv m edges fuel = some ((List.range we.P).map
        (rankOut d (nameOf (we.r0 we.P) ends (NewVert.oldNum we wv marks) (NewVert.midNum we wv marks)) wv m T)) ∧
      ∀ r < we.P, ∀ c < (m r).c2v.length, CellFacts d (ruleOf we ends (Must we (ruleFaces d wv m) edges) lng) (cellV wv m r c) (T r c) ∧
        ∀ t ∈ T r c, ∀ k < d + 1, FacetOf d t k (pfv d t k) := by
  have hf : ∀ r < we.P, ∀ f ∈ ruleFaces d wv m r, f.2 < we.size r + (we.ghosts r).length ∧ ∀ e ∈ f.1, e < we.size r + (we.ghosts r).length := by
    intro r hr p hp
    obtain ⟨f, hfm, rfl⟩ := List.mem_map.mp hp
    obtain ⟨i, hi, h1, g, hg, _⟩ := face_long h r hr f hfm
    obtain ⟨hfl, _, _, _, h5⟩ := h.face r hr f hfm
    constructor
    · show faceLong d (m r).elen (gidx wv r) f.1 f.2 < _
      rw [h1]; exact SubMap.globalOf_lt we r _ g hg
    · intro e hef
      obtain ⟨j, hj, rfl⟩ := List.getElem_of_mem hef
      have hj : j < f.1.length := hj
      obtain ⟨g', hg', _⟩ := h5 j (by omega)
      have := SubMap.globalOf_lt we r _ g' hg'
      rw [List.getD_eq_getElem?_getD, List.getElem?_eq_getElem hj] at this
      exact this
  obtain ⟨n, hn⟩ := Props.C53_marks we h.edges_valid (ruleFaces d wv m) edges hf he
  refine ⟨n, fun fuel hfu => ?_⟩
  obtain ⟨marks, hmk, hspec⟩ := hn fuel hfu
  have hM : ∀ r < we.P, ∀ i g, globalOf we r i = some g → ((marks r).getD i false = true ↔ Must we (ruleFaces d wv m) edges g) :=
    fun r hr => (hspec r hr).2
  obtain ⟨new, hnew, hlinks⟩ := NewVert.newVertices_spec we h.edges_valid wv marks _ hM
  obtain ⟨lng, hl, hl3⟩ := long_ex h
  -- the longest edges of each cell
  have hex : ∀ r c, ∃ le : Nat → Nat, r < we.P → c < (m r).c2v.length → ∀ es fs, IsCell m r c (rowV m r c) es fs →
      (∀ k < numFaces d, ((longEdges d wv r (m r))[fs.getD k 0]?).map (cellLocal es) = some (le k)) ∧
      CellFacts d (ruleOf we ends (Must we (ruleFaces d wv m) edges) lng) (gv wv r (rowV m r c))
        (kidsIdx d (cellMarks d (marks r) es) ((List.range (numFaces d)).map le) ((m r).ratioOk c)) := by
    intro r c
    by_cases hrc : r < we.P ∧ c < (m r).c2v.length
    · obtain ⟨es, fs, hc⟩ := isCell_of h r hrc.1 c hrc.2
      obtain ⟨le, h1, h2⟩ := cell_facts h edges lng marks hM hl hl3 r hrc.1 c _ es fs hc ((m r).ratioOk c)
      refine ⟨le, fun _ _ es' fs' hc' => ?_⟩
      have e1 : es = es' := by have := hc.e.symm.trans hc'.e; simpa using this
      have e2 : fs = fs' := by have := hc.f.symm.trans hc'.f; simpa using this
      subst e1 e2
      exact ⟨h1, h2⟩
    · exact ⟨fun _ => 0, fun a b => absurd ⟨a, b⟩ hrc⟩
  choose le hle using hex
  let T : Nat → Nat → List (List Nat) := fun r c =>
    kidsIdx d (cellMarks d (marks r) ((m r).c2e.getD c [])) ((List.range (numFaces d)).map (le r c)) ((m r).ratioOk c)
  have hT : ∀ r c es, (m r).c2e[c]? = some es → T r c = kidsIdx d (cellMarks d (marks r) es) ((List.range (numFaces d)).map (le r c)) ((m r).ratioOk c) := by
    intro r c es hes
    show kidsIdx d (cellMarks d (marks r) ((m r).c2e.getD c [])) _ _ = _
    rw [List.getD_eq_getElem?_getD, hes]; rfl
  have hcell : ∀ r < we.P, ∀ c < (m r).c2v.length, ∃ vs es fs, (m r).c2v[c]? = some vs ∧ (m r).c2e[c]? = some es ∧ (m r).c2f[c]? = some fs ∧
      refineCell d (NewVert.adjust we wv marks r) (marks r) (new r) (longEdges d wv r (m r)) ((m r).ratioOk c) vs es fs =
        some ((T r c).map fun t => (t.map fun i => (nameOf (we.r0 we.P) ends (NewVert.oldNum we wv marks) (NewVert.midNum we wv marks)
          (ptOf d (cellV wv m r c) i) : Int), (List.range (d + 1)).map (pfv d t))) ∧
      ∀ t ∈ T r c, ∀ k < d + 1, FacetOf d t k (pfv d t k) := by
    intro r hr c hc
    obtain ⟨es, fs, hcell⟩ := isCell_of h r hr c hc
    obtain ⟨h1, h2⟩ := hle r c hr hc es fs hcell
    obtain ⟨hel, hed⟩ := h.edges r hr c _ es hcell.v hcell.e
    obtain ⟨hfl, _⟩ := h.cell_face r hr c _ fs hcell.v hcell.f
    obtain ⟨hvl, hvn, hvlt⟩ := h.verts r hr _ (vs_mem hcell)
    have hr' : r < wv.P := by rw [h.ranks]; exact hr
    rw [hT r c es hcell.e]
    refine ⟨rowV m r c, es, fs, hcell.v, hcell.e, hcell.f, ?_⟩
    refine refineCell_spec d h.dim _ (marks r) (new r) _ _ _ es fs
      (fun i => nameOf (we.r0 we.P) ends (NewVert.oldNum we wv marks) (NewVert.midNum we wv marks) (ptOf d (cellV wv m r c) i)) (le r c)
      hvl hel hfl ?_ ?_ h1 ?_
    · intro i hi
      beta_reduce
      rw [ptOf_vertex h.dim _ i hi, name_vertex h]
      exact NewVert.adjust_spec we wv h.verts_valid marks r hr' _ _ (gl_some wv r _ (hvlt _ (getD_mem' _ i 0 (by omega))))
    · intro j hj hmj
      obtain ⟨g, hg, hends⟩ := hed j hj
      beta_reduce
      rw [(hlinks r hr _ g hg).1 ((hM r hr _ g hg).mp hmj)]
      have : ptOf d (cellV wv m r c) (d + 1 + j) = ends g := hends.symm
      rw [this, name_edge h _ _ g (edge_total h r hr _ g hg)]
    · intro t ht
      obtain ⟨p1, p2, p3, p4⟩ := h2.pts t ht
      refine ⟨p1, p2, ?_, p4⟩
      intro i hi
      rcases p3 i hi with hlt | ⟨hlt, hm⟩
      · exact Or.inl hlt
      · by_cases hid : i < d + 1
        · exact Or.inl hid
        · refine Or.inr ⟨hlt, ?_⟩
          have hj : i - (d + 1) < 3 * d - 3 := by unfold numPts at hlt; omega
          have := marks_eq h _ lng marks hM r hr c _ es fs hcell
          unfold cellMarks at this
          rw [this, List.getD_eq_getElem?_getD, List.getElem?_map, List.getElem?_range hj]
          simp only [Option.map_some, Option.getD_some]
          rw [show d + 1 + (i - (d + 1)) = i by omega]
          exact hm
  refine ⟨marks, lng, T, hmk, hM, ?_, ?_⟩
  · unfold refineMesh
    simp only [hmk, hnew, Option.bind_eq_bind, Option.bind_some]
    refine Props.mapM_some _ _ _ fun r hr => ?_
    have hr := List.mem_range.mp hr
    rw [refineRank_spec d _ (marks r) (new r) _ (m r) (fun c => (T r c).map fun t => (t.map fun i => (nameOf (we.r0 we.P) ends (NewVert.oldNum we wv marks) (NewVert.midNum we wv marks)
          (ptOf d (cellV wv m r c) i) : Int), (List.range (d + 1)).map (pfv d t))) fun c hc => by
      obtain ⟨vs, es, fs, a1, a2, a3, a4, _⟩ := hcell r hr c hc
      exact ⟨vs, es, fs, a1, a2, a3, a4⟩]
    unfold rankOut
    simp only [List.map_map, List.length_map, Function.comp_def]
  · intro r hr c hc
    obtain ⟨es, fs, hcl⟩ := isCell_of h r hr c hc
    obtain ⟨vs, es', fs', a1, a2, a3, a4, a5⟩ := hcell r hr c hc
    refine ⟨?_, a5⟩
    rw [hT r c es hcl.e]
    exact (hle r c hr hc es fs hcl).2

/-- Cells of all ranks. -/
def allCells (we : World) (m : Nat → RankMesh K) : List (Nat × Nat) :=
  (List.range we.P).flatMap fun r => (List.range (m r).c2v.length).map fun c => (r, c)

theorem mem_allCells (we : World) (m : Nat → RankMesh K) (p : Nat × Nat) : p ∈ allCells we m ↔ p.1 < we.P ∧ p.2 < (m p.1).c2v.length := by
  unfold allCells
  simp only [List.mem_flatMap, List.mem_map, List.mem_range]
  constructor
  · rintro ⟨r, hr, c, hc, rfl⟩; exact ⟨hr, hc⟩
  · rintro ⟨h1, h2⟩; exact ⟨p.1, h1, p.2, h2, rfl⟩

/-- Vertices of a cell as a set. -/
def cellSet (d : Nat) (wv : World) (m : Nat → RankMesh K) (p : Nat × Nat) : Finset Nat := (List.range (d + 1)).toFinset.image (cellV wv m p.1 p.2)

theorem cellSets_eq (h : MeshOk d we wv ends L m) :
    ((List.range we.P).flatMap fun r => cellSets wv (m r) r) = (allCells we m).map (cellSet d wv m) := by
  unfold allCells
  rw [List.map_flatMap]
  refine List.flatMap_congr fun r hr => ?_
  have hr := List.mem_range.mp hr
  unfold cellSets
  rw [List.map_map]
  refine List.ext_getElem (by simp) fun c h1 h2 => ?_
  simp only [List.length_map, List.length_range] at h1
  simp only [List.getElem_map, List.getElem_range, Function.comp]
  unfold cellSet cellV
  have hrow : rowV m r c = (m r).c2v[c] := by unfold rowV; rw [List.getD_eq_getElem?_getD, List.getElem?_eq_getElem h1]; rfl
  rw [hrow]
  exact image_gv r _ (d + 1) (h.verts r hr _ (List.getElem_mem h1)).1

/-- Sides of new cells by sets of points. -/
theorem conform_sets (h : MeshOk d we wv ends L m) (R : Rule Nat) (T : Nat → Nat → List (List Nat))
    (hT : ∀ r < we.P, ∀ c < (m r).c2v.length, CellFacts d R (cellV wv m r c) (T r c)) (p : Nat × Nat) (hp : p ∈ allCells we m)
    (k : Finset (Finset Nat)) (hk : k ∈ (T p.1 p.2).map fun t => t.toFinset.image (ptOf d (cellV wv m p.1 p.2))) (x : Finset Nat) (hx : x ∈ k) :
    (∃ F ⊆ cellSet d wv m p, F.card = d ∧ carrier (k.erase x) = F ∧
      ((allCells we m).flatMap fun p => (T p.1 p.2).map fun t => t.toFinset.image (ptOf d (cellV wv m p.1 p.2))).countP (fun k' => decide (k.erase x ⊆ k')) =
        (allCells we m).countP fun q => decide (F ⊆ cellSet d wv m q)) ∨
    ((allCells we m).flatMap fun p => (T p.1 p.2).map fun t => t.toFinset.image (ptOf d (cellV wv m p.1 p.2))).countP (fun k' => decide (k.erase x ⊆ k')) = 2 := by
  have hloc : LocalOK d (allCells we m) (cellSet d wv m) (fun p => (T p.1 p.2).map fun t => t.toFinset.image (ptOf d (cellV wv m p.1 p.2))) (partOf d R) := by
    have hf : ∀ p ∈ allCells we m, CellFacts d R (cellV wv m p.1 p.2) (T p.1 p.2) := by
      intro p hp
      obtain ⟨h1, h2⟩ := (mem_allCells we m p).mp hp
      exact hT p.1 h1 p.2 h2
    exact ⟨fun p hp => (hf p hp).loc.card () (by simp), fun p hp => (hf p hp).loc.one () (by simp), fun p hp => (hf p hp).loc.carr () (by simp),
      fun p hp => (hf p hp).loc.inside () (by simp), fun p hp => (hf p hp).loc.facet () (by simp)⟩
  have hd : (allCells we m).Pairwise fun p q => cellSet d wv m p ≠ cellSet d wv m q := by
    have := h.distinct
    rw [cellSets_eq h, List.pairwise_map] at this
    exact this
  rcases conform_global d (allCells we m) (cellSet d wv m) _ (partOf d R) hloc hd p hp k hk x hx with ⟨F, h1, h2, h3, h4⟩ | ⟨_, h2⟩
  · exact Or.inl ⟨F, h1, h2, hloc.carr p hp F h1 h2 _ h3, h4⟩
  · exact Or.inr h2

theorem image_sub_of_inj {α β : Type} [DecidableEq α] [DecidableEq β] (f : α → β) (P : α → Prop) (hf : ∀ a b, P a → P b → f a = f b → a = b)
    (s t : Finset α) (hs : ∀ a ∈ s, P a) (ht : ∀ a ∈ t, P a) : s.image f ⊆ t.image f ↔ s ⊆ t := by
  constructor
  · intro h a ha
    obtain ⟨b, hb, hba⟩ := Finset.mem_image.mp (h (Finset.mem_image_of_mem f ha))
    rw [← hf b a (ht b hb) (hs a ha) hba]; exact hb
  · exact Finset.image_subset_image

theorem image_erase_of_inj {α β : Type} [DecidableEq α] [DecidableEq β] (f : α → β) (P : α → Prop) (hf : ∀ a b, P a → P b → f a = f b → a = b)
    (s : Finset α) (hs : ∀ a ∈ s, P a) (x : α) (hx : x ∈ s) : (s.image f).erase (f x) = (s.erase x).image f := by
  ext y
  simp only [Finset.mem_erase, Finset.mem_image]
  constructor
  · rintro ⟨hne, a, ha, rfl⟩
    exact ⟨a, ⟨fun h => hne (by rw [h]), ha⟩, rfl⟩
  · rintro ⟨a, ⟨hne, ha⟩, rfl⟩
    exact ⟨fun h => hne (hf a x (hs a ha) (hs x hx) h), a, ha, rfl⟩

/-- Sides of new cells by numbers. -/
theorem conform_numbers (h : MeshOk d we wv ends L m) (M : Nat → Prop) (lng : Finset Nat → Finset Nat) (T : Nat → Nat → List (List Nat))
    (hT : ∀ r < we.P, ∀ c < (m r).c2v.length, CellFacts d (ruleOf we ends M lng) (cellV wv m r c) (T r c)) (old mid : Nat → Nat) (N : Nat)
    (hn : Numbering (wv.r0 wv.P) (we.r0 we.P) M old mid N) (cells : List (List Int))
    (hcells : cells = ((List.range we.P).map (rankOut d (nameOf (we.r0 we.P) ends old mid) wv m T)).flatMap fun o => o.cells)
    (k : List Int) (hk : k ∈ cells) (x : Int) (hx : x ∈ k) :
    (∃ F : Finset Nat, F.card = d ∧ (∀ y ∈ k.toFinset.erase x, ∃ s ⊆ F, IsPoint we wv ends M s ∧ y = nameOf (we.r0 we.P) ends old mid s) ∧
      cells.countP (fun k' => decide (k.toFinset.erase x ⊆ k'.toFinset)) =
        ((List.range we.P).flatMap fun r => cellSets wv (m r) r).countP fun s => decide (F ⊆ s)) ∨
    cells.countP (fun k' => decide (k.toFinset.erase x ⊆ k'.toFinset)) = 2 := by
  set nm : Finset Nat → Int := fun s => (nameOf (we.r0 we.P) ends old mid s : Int) with hnm
  have hinj : ∀ s t, IsPoint we wv ends M s → IsPoint we wv ends M t → nm s = nm t → s = t := by
    intro s t hs ht he
    refine name_inj h M old mid N hn s t hs ht ?_
    simp only [hnm] at he
    exact_mod_cast he
  set kids : Nat × Nat → List (Finset (Finset Nat)) := fun p => (T p.1 p.2).map fun t => t.toFinset.image (ptOf d (cellV wv m p.1 p.2)) with hkids
  have hpts : ∀ p ∈ allCells we m, ∀ k ∈ kids p, ∀ s ∈ k, IsPoint we wv ends M s := by
    intro p hp k hk s hs
    obtain ⟨h1, h2⟩ := (mem_allCells we m p).mp hp
    obtain ⟨t, ht, rfl⟩ := List.mem_map.mp hk
    obtain ⟨i, hi, rfl⟩ := Finset.mem_image.mp hs
    obtain ⟨es, fs, hc⟩ := isCell_of h p.1 h1 p.2 h2
    exact pts_of h M lng p.1 h1 _ (vs_mem hc) i (((hT p.1 h1 p.2 h2).pts t ht).2.2.1 i (List.mem_toFinset.mp hi))
  have hcells2 : cells = (allCells we m).flatMap fun p => (T p.1 p.2).map fun t => t.map fun i => nm (ptOf d (cellV wv m p.1 p.2) i) := by
    rw [hcells, List.flatMap_map]
    unfold allCells
    rw [List.flatMap_assoc]
    refine List.flatMap_congr fun r _ => ?_
    rw [List.flatMap_map]
    rfl
  have hset : ∀ (p : Nat × Nat) (t : List Nat), (t.map fun i => nm (ptOf d (cellV wv m p.1 p.2) i)).toFinset =
      (t.toFinset.image (ptOf d (cellV wv m p.1 p.2))).image nm := by
    intro p t
    ext y
    simp only [List.mem_toFinset, List.mem_map, Finset.mem_image]
    constructor
    · rintro ⟨i, hi, rfl⟩; exact ⟨_, ⟨i, hi, rfl⟩, rfl⟩
    · rintro ⟨_, ⟨i, hi, rfl⟩, rfl⟩; exact ⟨i, hi, rfl⟩
  have hcount : ∀ S : Finset (Finset Nat), (∀ s ∈ S, IsPoint we wv ends M s) →
      cells.countP (fun k' => decide (S.image nm ⊆ k'.toFinset)) = ((allCells we m).flatMap kids).countP fun k' => decide (S ⊆ k') := by
    intro S hS
    have hmap : (allCells we m).flatMap kids = (allCells we m).flatMap fun p => (T p.1 p.2).map fun t => t.toFinset.image (ptOf d (cellV wv m p.1 p.2)) := rfl
    rw [hcells2, List.countP_flatMap, List.countP_flatMap]
    congr 1
    refine List.map_congr_left fun p hp => ?_
    simp only [Function.comp, hkids, List.countP_map]
    refine List.countP_congr fun t ht => ?_
    simp only [Function.comp, decide_eq_true_eq]
    rw [hset p t, image_sub_of_inj nm _ hinj S _ hS (hpts p hp _ (List.mem_map.mpr ⟨t, ht, rfl⟩))]
  rw [hcells2] at hk
  obtain ⟨p, hp, hk⟩ := List.mem_flatMap.mp hk
  obtain ⟨t, ht, rfl⟩ := List.mem_map.mp hk
  obtain ⟨i, hi, rfl⟩ := List.mem_map.mp hx
  have hkm : t.toFinset.image (ptOf d (cellV wv m p.1 p.2)) ∈ kids p := List.mem_map.mpr ⟨t, ht, rfl⟩
  have hxm : ptOf d (cellV wv m p.1 p.2) i ∈ t.toFinset.image (ptOf d (cellV wv m p.1 p.2)) := Finset.mem_image_of_mem _ (List.mem_toFinset.mpr hi)
  have hkp := hpts p hp _ hkm
  rw [hset p t, image_erase_of_inj nm _ hinj _ hkp _ hxm,
    hcount _ fun s hs => hkp s (Finset.mem_of_mem_erase hs)]
  rcases conform_sets h (ruleOf we ends M lng) T hT p hp _ hkm _ hxm with ⟨F, h1, h2, h3, h4⟩ | h2
  · left
    refine ⟨F, h2, ?_, ?_⟩
    · intro y hy
      obtain ⟨s, hs, rfl⟩ := Finset.mem_image.mp hy
      refine ⟨s, ?_, hkp s (Finset.mem_of_mem_erase hs), rfl⟩
      rw [← h3]
      exact Finset.subset_biUnion_of_mem id hs
    · rw [h4, cellSets_eq h, List.countP_map]; rfl
  · exact Or.inr h2

end Verif.Refine
