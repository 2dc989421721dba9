import Verif.Lemmas.ConformingTri
/-!
# C52: refined cells tile the old cells and fit together

The theorems are about `getTriangles`, `getTetrahedra` and the loop over the cells in `compute_refinement`.
`Spec/Subdivision.lean` says what it means to tile a simplex, `Spec/Conforming.lean` how edges and faces are cut.
-/
namespace Verif.Props
open Verif.Refine Verif.Spec.Conform Verif.Spec.Subdiv

/-- The longest edge of a triangle is marked, the others may be: the new triangles tile the old one, over any ordered
field, for both patterns of subdivision. -/
theorem C52_triangles_tile {K : Type} [Field K] [LinearOrder K] [IsStrictOrderedRing K] (m : List Bool) (le : Nat) (u : Bool)
    (hm : m.length = 3) (hle : le < 3) (hc : m.getD le false = true) :
    Tiles K triEnds {0, 1, 2} ((getTriangles m le u).map List.toFinset) := tri_tiles m le u hm hle hc

/-- Every new triangle uses vertices and midpoints of marked edges only, and at most four are made. -/
theorem C52_triangles_points (m : List Bool) (le : Nat) (u : Bool) (hm : m.length = 3) (hle : le < 3) (hc : m.getD le false = true) :
    (getTriangles m le u).length ≤ 4 ∧ ∀ t ∈ getTriangles m le u, t.length = 3 ∧ ∀ i ∈ t, i < 3 ∨ (i < 6 ∧ m.getD (i - 3) false = true) := by
  have h := goodTri m le u (triGood_of m le u hm hle fun _ => hc)
  have hcells : triCells m le u = getTriangles m le u := by
    unfold triCells
    rw [if_pos]
    rw [List.any_eq_true]
    refine ⟨true, ?_, rfl⟩
    rw [← hc, List.getD_eq_getElem?_getD, List.getElem?_eq_getElem (by omega)]
    exact List.getElem_mem _
  rw [← hcells]
  exact ⟨h.len, fun t ht => ⟨(h.cells t ht).1, (h.cells t ht).2.2⟩⟩

/-- The edges of facet `f` of a tetrahedron are those without vertex `f`. -/
theorem C52_aux_facet (f : Nat) (hf : f < 4) (e : Nat) : e ∈ facetEdges f ↔ e < 6 ∧ f ∉ tetEnds (4 + e) := by
  have h1 : ∀ f < 4, ∀ e ∈ facetEdges f, e < 6 ∧ f ∉ tetEnds (4 + e) := by decide
  have h2 : ∀ f < 4, ∀ e < 6, f ∉ tetEnds (4 + e) → e ∈ facetEdges f := by decide
  exact ⟨h1 f hf e, fun h => h2 f hf e h.1 h.2⟩

theorem C52_aux_good {Q : Type} [LinearOrder Q] (m : List Bool) (le : List Nat) (key : Nat → Q) (hm : m.length = 6) (hl : le.length = 4)
    (hle : ∀ f < 4, le.getD f 0 < 6 ∧ f ∉ tetEnds (4 + le.getD f 0))
    (hk : ∀ f < 4, ∀ e < 6, f ∉ tetEnds (4 + e) → e ≠ le.getD f 0 → key e < key (le.getD f 0))
    (hc : ∀ f < 4, ∀ e < 6, f ∉ tetEnds (4 + e) → m.getD e false = true → m.getD (le.getD f 0) false = true) : good m le = true := by
  refine good_of m le hm hl (fun f hf => (C52_aux_facet f hf _).mpr (hle f hf)) (noCycle_of_key le key ?_) ?_
  · intro f hf e he hne
    obtain ⟨h1, h2⟩ := (C52_aux_facet f hf e).mp he
    exact hk f hf e h1 h2 hne
  · unfold closedL
    rw [List.all_eq_true]
    intro f hf
    have hf := List.mem_range.mp hf
    cases hany : (facetEdges f).any fun e => m.getD e false with
    | false => rfl
    | true =>
      obtain ⟨e, he, hme⟩ := List.any_eq_true.mp hany
      obtain ⟨h1, h2⟩ := (C52_aux_facet f hf e).mp he
      rw [hc f hf e h1 h2 hme]; rfl

/-- In a tetrahedron the longest edge of each facet is the largest one in some order of the six edges, and it is marked if
any edge of the facet is marked.  Then the new tetrahedra tile the old one. -/
theorem C52_tetrahedra_tile {K : Type} [Field K] [LinearOrder K] [IsStrictOrderedRing K] {Q : Type} [LinearOrder Q]
    (m : List Bool) (le : List Nat) (key : Nat → Q) (hm : m.length = 6) (hl : le.length = 4)
    (hle : ∀ f < 4, le.getD f 0 < 6 ∧ f ∉ tetEnds (4 + le.getD f 0))
    (hk : ∀ f < 4, ∀ e < 6, f ∉ tetEnds (4 + e) → e ≠ le.getD f 0 → key e < key (le.getD f 0))
    (hc : ∀ f < 4, ∀ e < 6, f ∉ tetEnds (4 + e) → m.getD e false = true → m.getD (le.getD f 0) false = true) :
    Tiles K tetEnds {0, 1, 2, 3} ((getTetrahedra m le).map List.toFinset) := good_tiles m le (C52_aux_good m le key hm hl hle hk hc)

/-- Every new tetrahedron uses vertices and midpoints of marked edges only, and at most eight are made: they fit into the
array of 32 entries that `get_simplices` returns. -/
theorem C52_tetrahedra_points {Q : Type} [LinearOrder Q] (m : List Bool) (le : List Nat) (key : Nat → Q) (hm : m.length = 6)
    (hl : le.length = 4) (hle : ∀ f < 4, le.getD f 0 < 6 ∧ f ∉ tetEnds (4 + le.getD f 0))
    (hk : ∀ f < 4, ∀ e < 6, f ∉ tetEnds (4 + e) → e ≠ le.getD f 0 → key e < key (le.getD f 0))
    (hc : ∀ f < 4, ∀ e < 6, f ∉ tetEnds (4 + e) → m.getD e false = true → m.getD (le.getD f 0) false = true) :
    4 * (getTetrahedra m le).length ≤ 32 ∧
      ∀ t ∈ getTetrahedra m le, t.length = 4 ∧ ∀ i ∈ t, i < 4 ∨ (i < 10 ∧ m.getD (i - 4) false = true) := by
  have h := goodTet m le (C52_aux_good m le key hm hl hle hk hc)
  refine ⟨?_, fun t ht => ⟨(h.cells t ht).1, (h.cells t ht).2.2⟩⟩
  have := h.len; omega

/-- A tetrahedron without marked edges is kept. -/
theorem C52_unmarked (le : List Nat) (hl : le.length = 4) (hle : ∀ f < 4, le.getD f 0 < 6 ∧ f ∉ tetEnds (4 + le.getD f 0)) :
    getTetrahedra [false, false, false, false, false, false] le = [[0, 1, 2, 3]] := by
  have hmem := mem_les le hl fun f hf => (C52_aux_facet f hf _).mpr (hle f hf)
  have hall : ∀ le ∈ les, getTetrahedra [false, false, false, false, false, false] le = [[0, 1, 2, 3]] := by decide +kernel
  exact hall le hmem

variable {V : Type} [DecidableEq V]

/-- Triangles that are cut one by one fit together.  Each side `K.erase p` of a new cell `K` either is a part of an old edge
`F`, cut as `EdgePart` says, and lies in as many new cells as there are old cells at `F`; or it is inside an old cell and
lies in exactly two new cells. -/
theorem C52_conforming_2d (R : Rule V) (u : (Nat → V) → Bool) (cells : List (Nat → V)) (hv : ∀ v ∈ cells, Inj3 v)
    (hd : cells.Pairwise fun v w => triVerts v ≠ triVerts w) (hl : ∀ v ∈ cells, TriLong R v) (hc : ∀ v ∈ cells, Closed R (triVerts v))
    (v : Nat → V) (hm : v ∈ cells) (K : Finset (Finset V)) (hK : K ∈ triKids R u v) (p : Finset V) (hp : p ∈ K) :
    (∃ F ⊆ triVerts v, F.card = 2 ∧ EdgePart R F (K.erase p) ∧
      (cells.flatMap (triKids R u)).countP (fun K' => decide (K.erase p ⊆ K')) = cells.countP fun w => decide (F ⊆ triVerts w)) ∨
    (carrier (K.erase p) = triVerts v ∧ (cells.flatMap (triKids R u)).countP (fun K' => decide (K.erase p ⊆ K')) = 2) :=
  conform_global 2 cells triVerts (triKids R u) (EdgePart R) (tri_local R u cells hv hl hc) hd v hm K hK p hp

/-- Tetrahedra that are cut one by one fit together: as before, with `FacePart` for the old faces.  Longest edges come from
one order of all edges. -/
theorem C52_conforming_3d {Q : Type} [LinearOrder Q] (R : Rule V) (key : Finset V → Q) (cells : List (Nat → V))
    (hv : ∀ v ∈ cells, Inj4 v) (hd : cells.Pairwise fun v w => tetVerts v ≠ tetVerts w)
    (hl : ∀ v ∈ cells, ∀ f < 4, Longest R key (tetFacet v f)) (hc : ∀ v ∈ cells, ∀ f < 4, Closed R (tetFacet v f))
    (v : Nat → V) (hm : v ∈ cells) (K : Finset (Finset V)) (hK : K ∈ tetKids R v) (p : Finset V) (hp : p ∈ K) :
    (∃ F ⊆ tetVerts v, F.card = 3 ∧ FacePart R F (K.erase p) ∧
      (cells.flatMap (tetKids R)).countP (fun K' => decide (K.erase p ⊆ K')) = cells.countP fun w => decide (F ⊆ tetVerts w)) ∨
    (carrier (K.erase p) = tetVerts v ∧ (cells.flatMap (tetKids R)).countP (fun K' => decide (K.erase p ⊆ K')) = 2) :=
  conform_global 3 cells tetVerts (tetKids R) (FacePart R) (tet_local R key cells hv hl hc) hd v hm K hK p hp

/-- The parts of the cut of a face or edge are all sides of new cells: each lies in exactly one new cell of every old cell
at the face. -/
theorem C52_parts_used {Q : Type} [LinearOrder Q] (R : Rule V) (key : Finset V → Q) (cells : List (Nat → V))
    (hv : ∀ v ∈ cells, Inj4 v) (hl : ∀ v ∈ cells, ∀ f < 4, Longest R key (tetFacet v f))
    (hc : ∀ v ∈ cells, ∀ f < 4, Closed R (tetFacet v f)) (v : Nat → V) (hm : v ∈ cells)
    (F : Finset V) (hF : F ⊆ tetVerts v) (h3 : F.card = 3) (S : Finset (Finset V)) (hS : FacePart R F S) :
    (tetKids R v).countP (fun K => decide (S ⊆ K)) = 1 := (tet_local R key cells hv hl hc).one v hm F hF h3 S hS

/-- Without an order of the edges the claim is wrong: four longest edges that beat each other in a circle, all marked,
make the cell vanish.  `face_long_edge` must therefore decide ties in the same way in all faces. -/
theorem C52_order_needed : ∃ m le, m.length = 6 ∧ le.length = 4 ∧ (∀ f < 4, le.getD f 0 < 6 ∧ f ∉ tetEnds (4 + le.getD f 0)) ∧
    (∀ f < 4, m.getD (le.getD f 0) false = true) ∧ getTetrahedra m le = [] :=
  ⟨[true, false, true, true, false, true], [0, 3, 5, 2], rfl, rfl, by decide, by decide, by decide +kernel⟩

/-! Examples. -/

/-- Two tetrahedra with a common face, vertices are powers of two. -/
def subdivCells : List (Nat → Nat) := [fun i => [1, 2, 4, 16].getD i 0, fun i => [2, 4, 16, 8].getD i 0]

/-- All edges at vertex 16 are marked; the longest edge of a face is the one without the smallest vertex. -/
def subdivRule : Rule Nat := ⟨fun e => decide (16 ∈ e), fun F => F.filter fun x => ∃ y ∈ F, y < x⟩

/-- Order of the edges. -/
def subdivKey (e : Finset Nat) : Nat := ∑ x ∈ e, x

example : (∀ v ∈ subdivCells, ∀ i < 4, ∀ j < 4, v i = v j → i = j) ∧
    (∀ v ∈ subdivCells, ∀ f < 4, subdivRule.long (tetFacet v f) ⊆ tetFacet v f ∧ (subdivRule.long (tetFacet v f)).card = 2 ∧
      ∀ e ∈ (tetFacet v f).powerset, e.card = 2 → e ≠ subdivRule.long (tetFacet v f) →
        subdivKey e < subdivKey (subdivRule.long (tetFacet v f))) ∧
    (∀ v ∈ subdivCells, ∀ f < 4, ∀ e ∈ (tetFacet v f).powerset, e.card = 2 → subdivRule.mark e = true →
      subdivRule.mark (subdivRule.long (tetFacet v f)) = true) ∧
    (subdivCells.flatMap (tetKids subdivRule)).length = 8 := by decide +kernel

example : Tiles ℚ tetEnds {0, 1, 2, 3} ((getTetrahedra [true, true, false, false, true, true] [0, 0, 1, 5]).map List.toFinset) :=
  C52_tetrahedra_tile _ _ (fun e => [7, 6, 1, 5, 2, 4].getD e 0) rfl rfl (by decide) (by decide) (by decide)

example : (getTetrahedra [true, true, false, false, true, true] [0, 0, 1, 5]).length = 6 := by decide +kernel

example : Tiles ℚ triEnds {0, 1, 2} ((getTriangles [true, false, true] 2 false).map List.toFinset) :=
  C52_triangles_tile _ _ _ rfl (by decide) (by decide)

/-- Two triangles with a common edge; the common edge is the longest of both and marked, also one more edge. -/
def subdivTri : List (Nat → Nat) := [fun i => [1, 4, 8].getD i 0, fun i => [8, 2, 4].getD i 0]

def subdivTriRule : Rule Nat := ⟨fun e => decide (e = {4, 8} ∨ e = {1, 8}), fun F => F.filter fun x => ∃ y ∈ F, y < x⟩

example : (∀ v ∈ subdivTri, ∀ i < 3, ∀ j < 3, v i = v j → i = j) ∧
    (∀ v ∈ subdivTri, subdivTriRule.long (triVerts v) ⊆ triVerts v ∧ (subdivTriRule.long (triVerts v)).card = 2 ∧
      ∀ e ∈ (triVerts v).powerset, e.card = 2 → subdivTriRule.mark e = true → subdivTriRule.mark (subdivTriRule.long (triVerts v)) = true) ∧
    (subdivTri.flatMap (triKids subdivTriRule fun _ => true)).length = 5 := by decide +kernel

end Verif.Props
