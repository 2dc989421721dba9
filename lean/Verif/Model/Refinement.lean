import Verif.Model.NewVertices
import Verif.Model.LongEdge
import Verif.Model.RefineSimplex
/-!
# Refinement of a simplex mesh

`compute_refinement` (`cpp/dolfinx/refinement/plaza.h` L292-450) after `face_long_edge` and the marking loop, as called by
`compute_refinement_data` (L463-538), with `compute_parent_facets` (L38-106), on all ranks; `d` is the topological
dimension.

Simplifications: the flat arrays of vertices and of parent facets hold one list for each new cell.  A failed assertion is
`none`.  Only the topology is computed here, coordinates are in `Model/NewVertices.lean`.
-/
namespace Verif.Refine
open Verif.World

/-- What the code reads of the mesh on one rank: vertices, edges and faces of the owned cells, edges and vertices of the
faces (owned and ghosts), lengths of the edges (`edgeLength`), and `edge_ratio_ok`. -/
structure RankMesh (K : Type) where
  c2v : List (List Nat)
  c2e : List (List Nat)
  c2f : List (List Nat)
  faces : List (List Nat × List Nat)
  elen : Nat → K
  ratioOk : Nat → Bool

/-- `global_indices` in `face_long_edge`, plaza.h L217-222: global numbers of the vertices. -/
def gidx (wv : World) (r v : Nat) : Nat := ((wv.map r).localToGlobal v).getD 0

section
variable {K : Type} [LinearOrder K] [Zero K]

/-- `long_edge`, plaza.h L224-259. -/
def longEdges (d : Nat) (wv : World) (r : Nat) (m : RankMesh K) : List Nat :=
  m.faces.map fun f => faceLong d m.elen (gidx wv r) f.1 f.2

/-- Edges of the faces and their longest ones, the input of `enforce_rules`, plaza.h L528-530. -/
def ruleFaces (d : Nat) (wv : World) (m : Nat → RankMesh K) (r : Nat) : List (List Nat × Nat) :=
  (m r).faces.map fun f => (f.1, faceLong d (m r).elen (gidx wv r) f.1 f.2)
end

/-- Entries of `indices` for the edges, plaza.h L351-365: the new vertex or -1. -/
def edgeIndices (marks : List Bool) (new : List Nat × List Nat) (es : List Nat) : Option (List Int) :=
  es.mapM fun e =>
    if marks.getD e false then
      match RefMark.links new.1 new.2 e with
      | [v] => some (v : Int)
      | _ => none
    else some (-1)

/-- Longest edge in the numbering of the cell, plaza.h L388-403. -/
def cellLocal (es : List Nat) (p : Nat) : Nat := if p ∈ es then es.idxOf p else p

/-- `get_simplices`, plaza.cpp L251-272. -/
def getSimplices (d : Nat) (indices : List Int) (longest : List Nat) (uniform : Bool) : List (List Nat) :=
  let m := (indices.drop (d + 1)).map fun i => decide (0 ≤ i)
  if d = 2 then getTriangles m (longest.getD 0 0) uniform else getTetrahedra m longest

/-- `facet_table_2d` and `facet_table_3d`, plaza.h L51-58. -/
def facetTable (d f : Nat) : List Nat :=
  if d = 2 then [[1, 2, 3], [0, 2, 4], [0, 1, 5]].getD f []
  else [[1, 2, 3, 4, 5, 6], [0, 2, 3, 4, 7, 8], [0, 1, 3, 5, 7, 9], [0, 1, 2, 6, 8, 9]].getD f []

/-- Points of facet `fci` of a new cell, plaza.h L75-77 and L87-88; sorting them (L79, L90) only serves
`std::set_intersection`. -/
def childFacet (d : Nat) (t : List Nat) (fci : Nat) : List Nat :=
  (List.range d).map fun j => t.getD ((facetTable d fci).getD j 0) 0

/-- `num_common_vertices`, plaza.h L79-95: the size of the intersection. -/
def numCommon (d : Nat) (t : List Nat) (fpi fci : Nat) : Nat := ((facetTable d fpi).filter fun x => (childFacet d t fci).contains x).length

/-- One entry of `parent_facet`, plaza.h L61-103: written for every parent facet with `tdim` common points; the assertion
(L99) fails if there are two. -/
def parentFacet (d : Nat) (t : List Nat) (fci : Nat) : Option Int :=
  (List.range (d + 1)).foldlM (fun acc fpi =>
    if numCommon d t fpi fci = d then (if acc = -1 then some (fpi : Int) else none) else some acc) (-1)

/-- `compute_parent_facets`, plaza.h L37-106. -/
def parentFacets (d : Nat) (T : List (List Nat)) : Option (List (List Int)) :=
  T.mapM fun t => (List.range (d + 1)).mapM (parentFacet d t)

/-- Body of the loop over the cells, plaza.h L341-438: new cells and the parent facets of their facets. -/
def refineCell (d : Nat) (adj : List Nat) (marks : List Bool) (new : List Nat × List Nat) (long : List Nat) (uniform : Bool)
    (vs es fs : List Nat) : Option (List (List Int × List Int)) := do
  let iv ← vs.mapM fun v => (adj[v]?).map fun (x : Nat) => (x : Int)
  let ie ← edgeIndices marks new es
  if es.any fun e => marks.getD e false then
    let longest ← fs.mapM fun f => (long[f]?).map (cellLocal es)
    let T := getSimplices d (iv ++ ie) longest (if d = 2 then uniform else false)
    let pf ← parentFacets d T
    return (T.map fun t => t.map fun i => (iv ++ ie).getD i 0).zip pf
  else return [(iv, (List.range (d + 1)).map fun i => (i : Int))]

/-- Results on one rank: the rows of `cell_adj`, `parent_cell` and the rows of `parent_facet`. -/
structure Refined where
  cells : List (List Int)
  parent : List Nat
  facet : List (List Int)

/-- Loop over the owned cells, plaza.h L339-439. -/
def refineRank {K : Type} (d : Nat) (adj : List Nat) (marks : List Bool) (new : List Nat × List Nat) (long : List Nat) (m : RankMesh K) :
    Option Refined := do
  let rows ← (List.range m.c2v.length).mapM fun c => do
    let vs ← m.c2v[c]?
    let es ← m.c2e[c]?
    let fs ← m.c2f[c]?
    refineCell d adj marks new long (m.ratioOk c) vs es fs
  return ⟨(rows.flatMap id).map Prod.fst, rows.zipIdx.flatMap fun p => List.replicate p.1.length p.2, (rows.flatMap id).map Prod.snd⟩

/-- The whole refinement on all ranks, plaza.h L463-538; `edges r = none` means that all edges are refined. -/
def refineMesh {K : Type} [LinearOrder K] [Zero K] (d : Nat) (we wv : World) (m : Nat → RankMesh K) (edges : Nat → Option (List Nat)) (fuel : Nat) :
    Option (List Refined) := do
  let marks ← RefMark.markEdges we (ruleFaces d wv m) edges fuel
  let new ← NewVert.newVertices we wv marks
  (List.range we.P).mapM fun r => refineRank d (NewVert.adjust we wv marks r) (marks r) (new r) (longEdges d wv r (m r)) (m r)

end Verif.Refine
