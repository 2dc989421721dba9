import Verif.Lemmas.RefineMarks
import Verif.Lemmas.LongEdge
/-!
# C53: marks for refinement are propagated completely and alike on all processes
-/
namespace Verif.Props
open Verif.World Verif.Spec Verif.Spec.Marks

/-- The loop of `enforce_rules` ends, and then every rank has marked exactly the edges that must be marked, owned or ghost:
those given on any rank and, with an edge of a face on any rank, the longest edge of the face.  `faces r` lists for each face
of rank `r` its edges and its longest edge. -/
theorem C53_marks (w : World) (hw : w.Valid) (faces : Nat → List (List Nat × Nat)) (edges : Nat → Option (List Nat))
    (hf : ∀ r < w.P, ∀ f ∈ faces r, f.2 < w.size r + (w.ghosts r).length ∧ ∀ e ∈ f.1, e < w.size r + (w.ghosts r).length)
    (he : (∀ r < w.P, edges r = none) ∨ (∀ r < w.P, ∃ l, edges r = some l ∧ ∀ e ∈ l, e < w.size r + (w.ghosts r).length)) :
    ∃ n, ∀ fuel, n ≤ fuel → ∃ m, RefMark.markEdges w faces edges fuel = some m ∧
      ∀ r < w.P, (m r).length = w.size r + (w.ghosts r).length ∧
        ∀ i g, globalOf w r i = some g → ((m r).getD i false = true ↔ Must w faces edges g) :=
  ⟨RefMark.allEdges w + 1, fun fuel h => RefMark.mark_spec ⟨hw, hf, he⟩ fuel (by omega)⟩

/-- All ranks with an edge have the same mark, and on every rank the longest edge of a face with a marked edge is marked. -/
theorem C53_consistent (w : World) (hw : w.Valid) (faces : Nat → List (List Nat × Nat)) (edges : Nat → Option (List Nat))
    (hf : ∀ r < w.P, ∀ f ∈ faces r, f.2 < w.size r + (w.ghosts r).length ∧ ∀ e ∈ f.1, e < w.size r + (w.ghosts r).length)
    (he : (∀ r < w.P, edges r = none) ∨ (∀ r < w.P, ∃ l, edges r = some l ∧ ∀ e ∈ l, e < w.size r + (w.ghosts r).length)) :
    ∃ n, ∀ fuel, n ≤ fuel → ∃ m, RefMark.markEdges w faces edges fuel = some m ∧
      (∀ r < w.P, ∀ q < w.P, ∀ i j g, globalOf w r i = some g → globalOf w q j = some g → (m r).getD i false = (m q).getD j false) ∧
      (∀ r < w.P, ∀ f ∈ faces r, (∃ e ∈ f.1, (m r).getD e false = true) → (m r).getD f.2 false = true) := by
  obtain ⟨n, h⟩ := C53_marks w hw faces edges hf he
  refine ⟨n, fun fuel hn => ?_⟩
  obtain ⟨m, h1, h2⟩ := h fuel hn
  refine ⟨m, h1, ?_, ?_⟩
  · intro r hr q hq i j g hi hj
    rw [Bool.eq_iff_iff, (h2 r hr).2 i g hi, (h2 q hq).2 j g hj]
  · rintro r hr f hfm ⟨e, hef, hm⟩
    obtain ⟨ge, hge⟩ := RefMark.globalOf_isSome w r e ((hf r hr f hfm).2 e hef)
    obtain ⟨gl, hgl⟩ := RefMark.globalOf_isSome w r f.2 (hf r hr f hfm).1
    exact ((h2 r hr).2 _ gl hgl).mpr (Must.long r f e ge gl hr hfm hef hge (((h2 r hr).2 e ge hge).mp hm) hgl)

/-- The length of an edge is that between the positions of its vertices, whichever cell the code looks at. -/
theorem C53_edge_length {K X : Type} (len : X → X → K) (x : Nat → X) (c2v xdof e2c e2v : Nat → List Nat) (pos : Nat → X) (e v0 v1 c : Nat)
    (cs : List Nat) (he : e2v e = [v0, v1]) (hc : e2c e = c :: cs) (hv0 : v0 ∈ c2v c) (hv1 : v1 ∈ c2v c)
    (hx : ∀ i v, (c2v c)[i]? = some v → x ((xdof c).getD i 0) = pos v) :
    Refine.edgeLength len x c2v xdof e2c e2v e = len (pos v0) (pos v1) := by
  unfold Refine.edgeLength
  rw [he, hc]
  show len (x ((xdof c).getD ((c2v c).idxOf v0) 0)) (x ((xdof c).getD ((c2v c).idxOf v1) 0)) = _
  rw [hx _ v0 (List.getElem?_idxOf hv0), hx _ v1 (List.getElem?_idxOf hv1)]

/-- In 3D the longest edge of a face, given by global vertex numbers, is the largest one in an order of all edges of the
mesh: by length, then by the reversed lexicographic order of the vertex pairs.  The result does not depend on the rank, on
local numbers or on the order of the vertices in the face; this is what `C52_tetrahedra_tile` and `C52_conforming_3d` need. -/
theorem C53_longest {K : Type} [LinearOrder K] [Zero K] (elen : Nat → K) (gidx : Nat → Nat) (edges verts : List Nat) (h0 : ∀ e, 0 ≤ elen e)
    (L : Finset Nat → K) (hinj : ∀ i < 3, ∀ j < 3, gidx (verts.getD i 0) = gidx (verts.getD j 0) → i = j)
    (hL : ∀ i < 3, elen (edges.getD i 0) = L {gidx (verts.getD ((i + 1) % 3) 0), gidx (verts.getD ((i + 2) % 3) 0)}) :
    ∃ i < 3, Refine.faceLong 3 elen gidx edges verts = edges.getD i 0 ∧ ∀ j < 3, j ≠ i →
      Refine.edgeKey L {gidx (verts.getD ((j + 1) % 3) 0), gidx (verts.getD ((j + 2) % 3) 0)} <
        Refine.edgeKey L {gidx (verts.getD ((i + 1) % 3) 0), gidx (verts.getD ((i + 2) % 3) 0)} :=
  Refine.long_largest elen gidx edges verts h0 L hinj hL

/-- In 2D the chosen edge is one of largest length. -/
theorem C53_longest_2d {K : Type} [LinearOrder K] [Zero K] (elen : Nat → K) (gidx : Nat → Nat) (edges verts : List Nat) (h0 : ∀ e, 0 ≤ elen e) :
    ∃ i < 3, Refine.faceLong 2 elen gidx edges verts = edges.getD i 0 ∧ ∀ j < 3, elen (edges.getD j 0) ≤ elen (edges.getD i 0) := by
  obtain ⟨i, hi, h1, h2⟩ := Refine.long_index 2 elen gidx edges verts h0
  exact ⟨i, hi, h1, fun j hj => (h2 j hj).1⟩

/-! Examples. -/

/-- Two ranks with three and two edges, one ghost each. -/
def markWorld : World where
  P := 2
  size := fun r => if r = 0 then 3 else 2
  ghosts := fun r => if r = 0 then [3] else [2]
  owners := fun r => if r = 0 then [1] else [0]

theorem markWorld_valid : markWorld.Valid := by
  refine ⟨?_, ?_, ?_⟩
  · intro r hr
    have hr : r < 2 := hr
    interval_cases r <;> rfl
  · intro r hr
    have hr : r < 2 := hr
    interval_cases r <;> decide
  · intro r hr k q g hq hg
    have hr : r < 2 := hr
    interval_cases r
    · have h1 : ([1] : List Nat)[k]? = some q := hq
      have h2 : ([3] : List Nat)[k]? = some g := hg
      match k, h1, h2 with
      | 0, h1, h2 => cases h1; cases h2; decide
    · have h1 : ([0] : List Nat)[k]? = some q := hq
      have h2 : ([2] : List Nat)[k]? = some g := hg
      match k, h1, h2 with
      | 0, h1, h2 => cases h1; cases h2; decide

/-- Faces with their longest edges. -/
def markFaces (r : Nat) : List (List Nat × Nat) := if r = 0 then [([1, 3], 1), ([0, 2], 2)] else [([0, 2, 1], 0)]

/-- The mark of edge 0 on rank 0 goes to edge 2, over to rank 1, to edge 3, back to rank 0 and to edge 1. -/
example : (RefMark.markEdges markWorld markFaces (fun r => some (if r = 0 then [0] else [])) 9).map (fun m => (m 0, m 1)) =
    some ([true, true, true, true], [true, false, true]) := by decide +kernel

example : (∀ r < markWorld.P, ∀ f ∈ markFaces r, f.2 < markWorld.size r + (markWorld.ghosts r).length ∧
    ∀ e ∈ f.1, e < markWorld.size r + (markWorld.ghosts r).length) := by
  intro r hr
  have hr : r < 2 := hr
  interval_cases r <;> decide

/-- Ties: two faces with the same three vertices in different orders choose the same edge. -/
example : Refine.faceLong (K := Nat) 3 (fun _ => 1) (fun v => 10 - v) [7, 8, 9] [3, 1, 2] = 8 ∧
    Refine.faceLong (K := Nat) 3 (fun _ => 1) (fun v => 10 - v) [8, 9, 7] [1, 2, 3] = 8 ∧
    Refine.faceLong (K := Nat) 2 (fun _ => 1) (fun v => 10 - v) [8, 9, 7] [1, 2, 3] = 8 := by decide

end Verif.Props
