import Mathlib.Order.Defs.LinearOrder
import Mathlib.Data.List.Basic
/-!
# The longest edge of each face

`face_long_edge`, `cpp/dolfinx/refinement/plaza.h` L147-262, on one rank.

Numbers are elements of a linear order `K` with a zero; `len` is the length of an edge between two points as the code computes
it (square root of the sum of squares, L212-214), it may round in any way.  Not modelled: `edge_ratio_ok` (L229, L235, L256),
which only selects between two subdivisions of a triangle.
-/
namespace Verif.Refine

variable {K X : Type} [LinearOrder K] [Zero K]

/-- `edge_length[e]`, plaza.h L187-214: `e2c`, `e2v`, `c2v` are the connectivities, `xdof` the geometry dofmap. -/
def edgeLength (len : X → X → K) (x : Nat → X) (c2v xdof e2c e2v : Nat → List Nat) (e : Nat) : K :=
  let c := (e2c e).headD 0
  let local0 := (c2v c).idxOf ((e2v e).getD 0 0)
  let local1 := (c2v c).idxOf ((e2v e).getD 1 0)
  len (x ((xdof c).getD local0 0)) (x ((xdof c).getD local1 0))

/-- One edge of a face, plaza.h L234-251; the state is `imax` and `max_len`. -/
def longStep (tdim : Nat) (elen : Nat → K) (gidx : Nat → Nat) (edges verts : List Nat) (s : Nat × K) (i : Nat) : Nat × K :=
  let eLen := elen (edges.getD i 0)
  if s.2 < eLen then (i, eLen)
  else if tdim = 3 ∧ eLen = s.2 then
    if gidx (verts.getD s.1 0) < gidx (verts.getD i 0) then (i, s.2) else s
  else s

/-- `long_edge[f]`, plaza.h L224-259, from the edges and vertices of the face. -/
def faceLong (tdim : Nat) (elen : Nat → K) (gidx : Nat → Nat) (edges verts : List Nat) : Nat :=
  edges.getD ([0, 1, 2].foldl (longStep tdim elen gidx edges verts) (0, 0)).1 0

end Verif.Refine
