import Verif.Model.Refinement
import Verif.Spec.GlobalIndex
import Verif.Spec.Subdivision
/-!
Specification: a mesh of triangles (`d = 2`) or tetrahedra (`d = 3`) that is distributed to ranks, and what its refinement
means.  Vertices and edges are named by global numbers.
-/
namespace Verif.Spec.SimplexMesh
open Verif.World Verif.Refine Verif.Spec Verif.Spec.Subdiv

/-- Global number of local vertex `v`. -/
def gl (wv : World) (r v : Nat) : Nat := (globalOf wv r v).getD 0

/-- Global number of vertex `i` of a cell or face with local vertices `vs`. -/
def gv (wv : World) (r : Nat) (vs : List Nat) (i : Nat) : Nat := gl wv r (vs.getD i 0)

/-- Vertices and midpoints of the reference cell. -/
def ptEnds (d : Nat) : Nat → List Nat := if d = 2 then triEnds else tetEnds

/-- Number of (two-dimensional) faces of a cell. -/
def numFaces (d : Nat) : Nat := if d = 2 then 1 else 4

/-- Vertices of face `k` of the reference cell: all of a triangle, those other than `k` of a tetrahedron. -/
def faceVerts (d k : Nat) : Finset Nat := if d = 2 then (List.range 3).toFinset else (List.range 4).toFinset.erase k

/-- Vertex sets of the owned cells of rank `r`. -/
def cellSets (wv : World) {K : Type} (m : RankMesh K) (r : Nat) : List (Finset Nat) := m.c2v.map fun vs => vs.toFinset.image (gl wv r)

/-- The connectivities on the ranks are those of one mesh.  `ends g` is the set of the two vertices of edge `g`, and `L` gives the
computed length of an edge by its vertices. -/
structure MeshOk {K : Type} [LinearOrder K] [Zero K] (d : Nat) (we wv : World) (ends : Nat → Finset Nat) (L : Finset Nat → K)
    (m : Nat → RankMesh K) : Prop where
  dim : d = 2 ∨ d = 3
  edges_valid : we.Valid
  verts_valid : wv.Valid
  ranks : wv.P = we.P
  ends_two : ∀ g < we.r0 we.P, (ends g).card = 2
  ends_inj : ∀ g < we.r0 we.P, ∀ g' < we.r0 we.P, ends g = ends g' → g = g'
  len_e : ∀ r < we.P, (m r).c2e.length = (m r).c2v.length
  len_f : ∀ r < we.P, (m r).c2f.length = (m r).c2v.length
  verts : ∀ r < we.P, ∀ vs ∈ (m r).c2v, vs.length = d + 1 ∧ vs.Nodup ∧ ∀ v ∈ vs, v < wv.size r + (wv.ghosts r).length
  edges : ∀ r < we.P, ∀ (c : Nat) (vs es : List Nat), (m r).c2v[c]? = some vs → (m r).c2e[c]? = some es →
    es.length = 3 * d - 3 ∧ ∀ j < 3 * d - 3, ∃ g, globalOf we r (es.getD j 0) = some g ∧ ends g = (ptEnds d (d + 1 + j)).toFinset.image (gv wv r vs)
  face : ∀ r < we.P, ∀ f ∈ (m r).faces, f.1.length = 3 ∧ f.2.length = 3 ∧ f.2.Nodup ∧ (∀ v ∈ f.2, v < wv.size r + (wv.ghosts r).length) ∧
    ∀ i < 3, ∃ g, globalOf we r (f.1.getD i 0) = some g ∧ ends g = {gv wv r f.2 ((i + 1) % 3), gv wv r f.2 ((i + 2) % 3)}
  cell_face : ∀ r < we.P, ∀ (c : Nat) (vs fs : List Nat), (m r).c2v[c]? = some vs → (m r).c2f[c]? = some fs →
    fs.length = numFaces d ∧ ∀ k < numFaces d, ∃ f, (m r).faces[fs.getD k 0]? = some f ∧ f.2.toFinset.image (gl wv r) = (faceVerts d k).image (gv wv r vs)
  length : ∀ r < we.P, ∀ e g, globalOf we r e = some g → (m r).elen e = L (ends g)
  nonneg : ∀ r e, 0 ≤ (m r).elen e
  distinct : ((List.range we.P).flatMap fun r => cellSets wv (m r) r).Pairwise fun s t => s ≠ t

end Verif.Spec.SimplexMesh
