import Verif.Lemmas.RefineNumbers
import Verif.Spec.RefinedMesh
import Verif.Props.C54_NewVertices
/-!
# C55: refinement of a distributed mesh

`refineMesh` is the whole computation on all ranks: longest edges, marks, new vertices and the loop over the cells.
-/
namespace Verif.Props
open Verif.World Verif.Refine Verif.Spec Verif.Spec.SimplexMesh Verif.Spec.Marks Verif.Spec.Subdiv

variable {K : Type} [LinearOrder K] [Zero K] {d : Nat} {we wv : World} {ends : Nat → Finset Nat} {L : Finset Nat → K} {m : Nat → RankMesh K}

theorem C55_aux_refinement (h : SimplexMesh.MeshOk d we wv ends L m) (edges : Nat → Option (List Nat))
    (he : (∀ r < we.P, edges r = none) ∨ (∀ r < we.P, ∃ l, edges r = some l ∧ ∀ e ∈ l, e < we.size r + (we.ghosts r).length)) :
    ∃ n, ∀ fuel, n ≤ fuel → ∃ marks N T out, refineMesh d we wv m edges fuel = some out ∧
      RefMark.markEdges we (ruleFaces d wv m) edges fuel = some marks ∧
      (∀ r < we.P, ∀ i g, globalOf we r i = some g → ((marks r).getD i false = true ↔ Must we (ruleFaces d wv m) edges g)) ∧
      IsRefinement d we wv ends m (Must we (ruleFaces d wv m) edges)
        (nameOf (we.r0 we.P) ends (NewVert.oldNum we wv marks) (NewVert.midNum we wv marks)) N T out ∧
      out = (List.range we.P).map (rankOut d (nameOf (we.r0 we.P) ends (NewVert.oldNum we wv marks) (NewVert.midNum we wv marks)) wv m T) ∧
      ∀ r < we.P, ∀ c < (m r).c2v.length, ∀ t ∈ T r c, ∀ k < d + 1, FacetOf d t k (pfv d t k) := by
  obtain ⟨n, hn⟩ := refine_core h edges he
  refine ⟨n, fun fuel hf => ?_⟩
  obtain ⟨marks, lng, T, h1, hM, h2, h3⟩ := hn fuel hf
  have hnum := NewVert.numbering we wv h.ranks marks _ hM
  refine ⟨marks, Offsets.excl (NewVert.blockSize we wv marks) we.P, T, _, h2, h1, hM, ?_, rfl, fun r hr c hc => (h3 r hr c hc).2⟩
  refine ⟨?_, ?_, ?_, ?_, ?_, ?_⟩
  · have e1 : (fun a => nameOf (we.r0 we.P) ends (NewVert.oldNum we wv marks) (NewVert.midNum we wv marks) {a}) = NewVert.oldNum we wv marks :=
      funext fun a => name_vertex h _ _ a
    rw [e1]
    refine ⟨hnum.old_lt, ?_, hnum.old_inj, ?_, ?_, ?_⟩
    · intro g hg hm
      rw [name_edge h _ _ g hg]; exact hnum.mid_lt g hg hm
    · intro g hg hm g' hg' hm' he
      rw [name_edge h _ _ g hg, name_edge h _ _ g' hg'] at he
      exact hnum.mid_inj g hg hm g' hg' hm' he
    · intro g hg g' hg' hm'
      rw [name_edge h _ _ g' hg']; exact hnum.disj g hg g' hg' hm'
    · intro x hx
      rcases hnum.onto x hx with ha | ⟨g, hg, hm, hgx⟩
      · exact Or.inl ha
      · exact Or.inr ⟨g, hg, hm, by rw [name_edge h _ _ g hg]; exact hgx⟩
  · simp
  · intro r o ho
    rw [List.getElem?_map] at ho
    by_cases hr : r < we.P
    · rw [List.getElem?_range hr] at ho
      cases ho
      rfl
    · rw [List.getElem?_eq_none (by simpa using hr)] at ho
      cases ho
  · intro r hr c hc t ht
    obtain ⟨p1, p2, p3, _⟩ := (h3 r hr c hc).1.pts t ht
    refine ⟨p1, p2, fun i hi => ?_⟩
    rcases p3 i hi with hlt | ⟨_, hm⟩
    · exact Or.inl hlt
    · right
      unfold ruleOf at hm
      simp only [decide_eq_true_eq] at hm
      exact hm
  · intro r hr c hc F _ _ _
    exact (h3 r hr c hc).1.tiles F
  · intro k hk x hx
    exact conform_numbers h _ lng T (fun r hr c hc => (h3 r hr c hc).1) _ _ _ hnum _ rfl k hk x (List.mem_toFinset.1 hx)

/-- Refining a mesh of triangles or tetrahedra that is distributed in any way to any number of ranks, at given edges or at all
edges, ends and gives a mesh whose new vertices are the middles of the edges that must be split; its cells tile the old ones
and fit together, also across ranks. -/
theorem C55_refinement (h : SimplexMesh.MeshOk d we wv ends L m) (edges : Nat → Option (List Nat))
    (he : (∀ r < we.P, edges r = none) ∨ (∀ r < we.P, ∃ l, edges r = some l ∧ ∀ e ∈ l, e < we.size r + (we.ghosts r).length)) :
    ∃ n, ∀ fuel, n ≤ fuel → ∃ name N T out, refineMesh d we wv m edges fuel = some out ∧
      IsRefinement d we wv ends m (Must we (ruleFaces d wv m) edges) name N T out := by
  obtain ⟨n, hn⟩ := C55_aux_refinement h edges he
  refine ⟨n, fun fuel hf => ?_⟩
  obtain ⟨marks, N, T, out, h1, _, _, h4, _⟩ := hn fuel hf
  exact ⟨_, N, T, out, h1, h4⟩

/-- The arrays `parent_cell` and `parent_facet` belong to the same cells: the parent is the old cell, and the parent facet the one
facet of it that the facet of the new cell lies on, or -1. -/
theorem C55_parents (h : SimplexMesh.MeshOk d we wv ends L m) (edges : Nat → Option (List Nat))
    (he : (∀ r < we.P, edges r = none) ∨ (∀ r < we.P, ∃ l, edges r = some l ∧ ∀ e ∈ l, e < we.size r + (we.ghosts r).length)) :
    ∃ n, ∀ fuel, n ≤ fuel → ∃ name N T out, refineMesh d we wv m edges fuel = some out ∧
      IsRefinement d we wv ends m (Must we (ruleFaces d wv m) edges) name N T out ∧
      ∃ pf : List Nat → Nat → Int, (∀ r < we.P, ∀ c < (m r).c2v.length, ∀ t ∈ T r c, ∀ k < d + 1, FacetOf d t k (pf t k)) ∧
      ∀ r o, out[r]? = some o →
        o.parent = ((List.range (m r).c2v.length).flatMap fun c => List.replicate (T r c).length c) ∧
        o.facet = (List.range (m r).c2v.length).flatMap fun c => (T r c).map fun t => (List.range (d + 1)).map (pf t) := by
  obtain ⟨n, hn⟩ := C55_aux_refinement h edges he
  refine ⟨n, fun fuel hf => ?_⟩
  obtain ⟨marks, N, T, out, h1, _, _, h4, h5, h6⟩ := hn fuel hf
  refine ⟨_, N, T, out, h1, h4, pfv d, h6, ?_⟩
  intro r o ho
  rw [h5, List.getElem?_map] at ho
  by_cases hr : r < we.P
  · rw [List.getElem?_range hr] at ho
    cases ho
    exact ⟨rfl, rfl⟩
  · rw [List.getElem?_eq_none (by simpa using hr)] at ho
    cases ho

/-- With the same vertex numbers: the rows of coordinates passed on by the ranks, put together, have at the number of a point the
position of the old vertex, or the middle of the two ends. -/
theorem C55_positions {X : Type} (h : SimplexMesh.MeshOk d we wv ends L m) (edges : Nat → Option (List Nat))
    (he : (∀ r < we.P, edges r = none) ∨ (∀ r < we.P, ∃ l, edges r = some l ∧ ∀ e ∈ l, e < we.size r + (we.ghosts r).length))
    (vpos : Nat → Nat) (closure : Nat → List Nat) (pos : Nat → X) (epair : Nat → Nat × Nat) (geo : Nat → NewVert.Cells X)
    (hp : ∀ g < we.r0 we.P, ends g = {(epair g).1, (epair g).2})
    (hm : ∀ r < we.P, Vertices.Straight we wv vpos closure pos epair r (geo r)) (mean : List X → X) (hmean : ∀ x y, mean [x, y] = mean [y, x]) :
    ∃ n, ∀ fuel, n ≤ fuel → ∃ marks name N T out rows, refineMesh d we wv m edges fuel = some out ∧
      IsRefinement d we wv ends m (Must we (ruleFaces d wv m) edges) name N T out ∧
      RefMark.markEdges we (ruleFaces d wv m) edges fuel = some marks ∧
      (List.range we.P).mapM (NewVert.newGeometry we wv marks vpos closure mean geo) = some rows ∧
      (∀ a < wv.r0 wv.P, rows.flatten[name {a}]? = some (pos a)) ∧
      (∀ g < we.r0 we.P, Must we (ruleFaces d wv m) edges g → ∀ a b, ends g = {a, b} → rows.flatten[name (ends g)]? = some (mean [pos a, pos b])) := by
  obtain ⟨n, hn⟩ := C55_aux_refinement h edges he
  refine ⟨n, fun fuel hf => ?_⟩
  obtain ⟨marks, N, T, out, h1, h2, hM, h4, _⟩ := hn fuel hf
  obtain ⟨rows, g1, g2, g3⟩ := NewVert.geometry_spec geo h.ranks hm mean hmean marks _ hM
  refine ⟨marks, _, N, T, out, rows, h1, h4, h2, g1, ?_, ?_⟩
  · intro a ha
    rw [name_vertex h]; exact g2 a ha
  · intro g hg hmg a b hab
    rw [name_edge h _ _ g hg, g3 g hg hmg]
    have := hp g hg
    have h2 := h.ends_two g hg
    rw [hab] at this h2
    have hne : a ≠ b := by
      rintro rfl
      simp at h2
    have ha : a ∈ ({(epair g).1, (epair g).2} : Finset Nat) := by rw [← this]; simp
    have hb : b ∈ ({(epair g).1, (epair g).2} : Finset Nat) := by rw [← this]; simp
    simp only [Finset.mem_insert, Finset.mem_singleton] at ha hb
    rcases ha with ha | ha <;> rcases hb with hb | hb
    · exact absurd (ha.trans hb.symm) hne
    · rw [ha, hb]
    · rw [ha, hb, hmean]
    · exact absurd (ha.trans hb.symm) hne

/-! Example: two triangles on two ranks as for C54; the common edge is the longest one. -/

theorem vertVertices_valid : vertVertices.Valid := by
  refine ⟨?_, ?_, ?_⟩
  · intro r hr
    have hr : r < 2 := hr
    interval_cases r <;> rfl
  · intro r hr
    have hr : r < 2 := hr
    interval_cases r <;> decide
  · intro r hr k q g hq hg
    have hr : r < 2 := hr
    interval_cases r
    · have h1 : ([] : List Nat)[k]? = some q := hq
      simp at h1
    · have h1 : ([0, 0] : List Nat)[k]? = some q := hq
      have h2 : ([1, 2] : List Nat)[k]? = some g := hg
      match k, h1, h2 with
      | 0, h1, h2 => cases h1; cases h2; decide
      | 1, h1, h2 => cases h1; cases h2; decide

def twoTri (r : Nat) : RankMesh Nat :=
  if r = 0 then ⟨[[0, 1, 2]], [[0, 1, 2]], [[0]], [([0, 1, 2], [0, 1, 2])], fun e => if e = 0 then 14 else 10, fun _ => false⟩
  else ⟨[[1, 2, 0]], [[0, 1, 2]], [[0]], [([0, 1, 2], [1, 2, 0])], fun e => if e = 2 then 14 else 10, fun _ => false⟩

def twoEnds (g : Nat) : Finset Nat := {(vertEnds g).1, (vertEnds g).2}

theorem twoTri_ok : SimplexMesh.MeshOk 2 vertEdges vertVertices twoEnds (fun s => if s = {1, 2} then 14 else 10) twoTri where
  dim := by decide
  edges_valid := vertEdges_valid
  verts_valid := vertVertices_valid
  ranks := rfl
  ends_two := by decide
  ends_inj := by decide
  len_e := by decide
  len_f := by decide
  verts := by
    intro r hr
    have hr : r < 2 := hr
    interval_cases r <;> decide
  edges := by
    intro r hr c vs es h1 h2
    have hr : r < 2 := hr
    interval_cases r
    · have h1 : ([[0, 1, 2]] : List (List Nat))[c]? = some vs := h1
      have h2 : ([[0, 1, 2]] : List (List Nat))[c]? = some es := h2
      match c, h1, h2 with
      | 0, h1, h2 =>
        cases h1; cases h2
        refine ⟨rfl, fun j hj => ?_⟩
        have hj : j < 3 := hj
        interval_cases j
        · exact ⟨0, rfl, by decide⟩
        · exact ⟨1, rfl, by decide⟩
        · exact ⟨2, rfl, by decide⟩
    · have h1 : ([[1, 2, 0]] : List (List Nat))[c]? = some vs := h1
      have h2 : ([[0, 1, 2]] : List (List Nat))[c]? = some es := h2
      match c, h1, h2 with
      | 0, h1, h2 =>
        cases h1; cases h2
        refine ⟨rfl, fun j hj => ?_⟩
        have hj : j < 3 := hj
        interval_cases j
        · exact ⟨3, rfl, by decide⟩
        · exact ⟨4, rfl, by decide⟩
        · exact ⟨0, rfl, by decide⟩
  face := by
    intro r hr f hf
    have hr : r < 2 := hr
    interval_cases r
    · have hf : f ∈ [(([0, 1, 2] : List Nat), ([0, 1, 2] : List Nat))] := hf
      rw [List.mem_singleton] at hf
      subst hf
      refine ⟨rfl, rfl, by decide, by decide, fun j hj => ?_⟩
      interval_cases j
      · exact ⟨0, rfl, by decide⟩
      · exact ⟨1, rfl, by decide⟩
      · exact ⟨2, rfl, by decide⟩
    · have hf : f ∈ [(([0, 1, 2] : List Nat), ([1, 2, 0] : List Nat))] := hf
      rw [List.mem_singleton] at hf
      subst hf
      refine ⟨rfl, rfl, by decide, by decide, fun j hj => ?_⟩
      interval_cases j
      · exact ⟨3, rfl, by decide⟩
      · exact ⟨4, rfl, by decide⟩
      · exact ⟨0, rfl, by decide⟩
  cell_face := by
    intro r hr c vs fs h1 h2
    have hr : r < 2 := hr
    interval_cases r
    · have h1 : ([[0, 1, 2]] : List (List Nat))[c]? = some vs := h1
      have h2 : ([[0]] : List (List Nat))[c]? = some fs := h2
      match c, h1, h2 with
      | 0, h1, h2 =>
        cases h1; cases h2
        refine ⟨rfl, fun k hk => ?_⟩
        have hk : k < 1 := hk
        interval_cases k
        exact ⟨_, rfl, by decide⟩
    · have h1 : ([[1, 2, 0]] : List (List Nat))[c]? = some vs := h1
      have h2 : ([[0]] : List (List Nat))[c]? = some fs := h2
      match c, h1, h2 with
      | 0, h1, h2 =>
        cases h1; cases h2
        refine ⟨rfl, fun k hk => ?_⟩
        have hk : k < 1 := hk
        interval_cases k
        exact ⟨_, rfl, by decide⟩
  length := by
    intro r hr e g hg
    have hr : r < 2 := hr
    interval_cases r
    · have he : e < 3 := SubMap.globalOf_lt _ _ _ _ hg
      interval_cases e <;> cases hg <;> decide
    · have he : e < 3 := SubMap.globalOf_lt _ _ _ _ hg
      interval_cases e <;> cases hg <;> decide
  nonneg := fun _ _ => Nat.zero_le _
  distinct := by decide

/-- Edge 2 of the first cell is marked; so the longest edge is marked, and both cells are divided. -/
example : (refineMesh 2 vertEdges vertVertices twoTri (fun r => some (if r = 0 then [2] else [])) 9).map
    (fun l => l.map fun o => (o.cells, o.parent, o.facet)) =
    some [([[3, 0, 2], [3, 0, 4], [3, 4, 1]], [0, 0, 0], [[1, 0, -1], [2, -1, -1], [2, 0, -1]]),
      ([[3, 5, 2], [3, 5, 1]], [0, 0], [[0, 2, -1], [1, 2, -1]])] := by decide +kernel

/-! Example: two tetrahedra with a common face. -/

def tetsEdges : World where
  P := 1
  size := fun _ => 9
  ghosts := fun _ => []
  owners := fun _ => []

def tetsVertices : World where
  P := 1
  size := fun _ => 5
  ghosts := fun _ => []
  owners := fun _ => []

theorem tetsEdges_valid : tetsEdges.Valid := by
  refine ⟨fun _ _ => rfl, fun _ _ => List.nodup_nil, ?_⟩
  intro r hr k q g hq
  have h1 : ([] : List Nat)[k]? = some q := hq
  simp at h1

theorem tetsVertices_valid : tetsVertices.Valid := by
  refine ⟨fun _ _ => rfl, fun _ _ => List.nodup_nil, ?_⟩
  intro r hr k q g hq
  have h1 : ([] : List Nat)[k]? = some q := hq
  simp at h1

def tetsEnds (g : Nat) : Finset Nat :=
  [{0, 1}, {0, 2}, {0, 3}, {1, 2}, {1, 3}, {2, 3}, {1, 4}, {2, 4}, {3, 4}].getD g ∅

def twoTets (_ : Nat) : RankMesh Nat :=
  ⟨[[0, 1, 2, 3], [1, 2, 3, 4]], [[5, 4, 3, 2, 1, 0], [8, 7, 5, 6, 4, 3]], [[0, 1, 2, 3], [4, 5, 6, 0]],
    [([5, 4, 3], [1, 2, 3]), ([5, 2, 1], [0, 2, 3]), ([4, 2, 0], [0, 1, 3]), ([3, 1, 0], [0, 1, 2]), ([8, 7, 5], [2, 3, 4]),
      ([8, 6, 4], [1, 3, 4]), ([7, 6, 3], [1, 2, 4])],
    fun e => [1, 2, 3, 3, 4, 5, 5, 6, 7].getD e 0, fun _ => false⟩

theorem twoTets_ok : SimplexMesh.MeshOk 3 tetsEdges tetsVertices tetsEnds (fun s => s.sum id) twoTets where
  dim := by decide
  edges_valid := tetsEdges_valid
  verts_valid := tetsVertices_valid
  ranks := rfl
  ends_two := by decide
  ends_inj := by decide
  len_e := by decide
  len_f := by decide
  verts := by
    intro r hr
    have hr : r < 1 := hr
    interval_cases r; decide
  edges := by
    intro r hr c vs es h1 h2
    have hr : r < 1 := hr
    interval_cases r
    have h1 : ([[0, 1, 2, 3], [1, 2, 3, 4]] : List (List Nat))[c]? = some vs := h1
    have h2 : ([[5, 4, 3, 2, 1, 0], [8, 7, 5, 6, 4, 3]] : List (List Nat))[c]? = some es := h2
    match c, h1, h2 with
    | 0, h1, h2 =>
      cases h1; cases h2
      refine ⟨rfl, fun j hj => ?_⟩
      have hj : j < 6 := hj
      interval_cases j <;> exact ⟨_, rfl, by decide⟩
    | 1, h1, h2 =>
      cases h1; cases h2
      refine ⟨rfl, fun j hj => ?_⟩
      have hj : j < 6 := hj
      interval_cases j <;> exact ⟨_, rfl, by decide⟩
  face := by
    intro r hr f hf
    have hr : r < 1 := hr
    interval_cases r
    have key : ∀ f ∈ (twoTets 0).faces, f.1.length = 3 ∧ f.2.length = 3 ∧ f.2.Nodup ∧ (∀ v ∈ f.2, v < 5) ∧
        ∀ i < 3, f.1.getD i 0 < 9 ∧ tetsEnds (f.1.getD i 0) = {f.2.getD ((i + 1) % 3) 0, f.2.getD ((i + 2) % 3) 0} := by decide
    obtain ⟨k1, k2, k3, k4, k5⟩ := key f hf
    have hgl : ∀ v < 5, gl tetsVertices 0 v = v := by decide
    have hin : ∀ i < 3, f.2.getD i 0 < 5 := fun i hi => by
      rw [List.getD_eq_getElem _ _ (by omega)]
      exact k4 _ (List.getElem_mem _)
    refine ⟨k1, k2, k3, k4, fun i hi => ?_⟩
    obtain ⟨a, b⟩ := k5 i hi
    have hge : ∀ e < 9, globalOf tetsEdges 0 e = some e := by decide
    refine ⟨_, hge _ a, ?_⟩
    rw [b]
    unfold gv
    rw [hgl _ (hin _ (Nat.mod_lt _ (by decide))), hgl _ (hin _ (Nat.mod_lt _ (by decide)))]
  cell_face := by
    intro r hr c vs fs h1 h2
    have hr : r < 1 := hr
    interval_cases r
    have h1 : ([[0, 1, 2, 3], [1, 2, 3, 4]] : List (List Nat))[c]? = some vs := h1
    have h2 : ([[0, 1, 2, 3], [4, 5, 6, 0]] : List (List Nat))[c]? = some fs := h2
    match c, h1, h2 with
    | 0, h1, h2 =>
      cases h1; cases h2
      refine ⟨rfl, fun k hk => ?_⟩
      have hk : k < 4 := hk
      interval_cases k <;> exact ⟨_, rfl, by decide⟩
    | 1, h1, h2 =>
      cases h1; cases h2
      refine ⟨rfl, fun k hk => ?_⟩
      have hk : k < 4 := hk
      interval_cases k <;> exact ⟨_, rfl, by decide⟩
  length := by
    intro r hr e g hg
    have hr : r < 1 := hr
    interval_cases r
    have he : e < 9 := SubMap.globalOf_lt _ _ _ _ hg
    interval_cases e <;> cases hg <;> decide
  nonneg := fun _ _ => Nat.zero_le _
  distinct := by decide

/-- Edge 5 (vertices 2 and 3) is marked; the longest edge 8 of a face of it is marked too. -/
example : (refineMesh 3 tetsEdges tetsVertices twoTets (fun _ => some [5]) 9).map (fun l => l.map fun o => (o.cells, o.parent)) =
    some [([[0, 1, 2, 5], [0, 1, 3, 5], [1, 2, 4, 6], [1, 2, 6, 5], [1, 3, 6, 5]], [0, 0, 1, 1, 1])] := by decide +kernel

end Verif.Props
