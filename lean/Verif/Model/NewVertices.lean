import Verif.Model.RefineMarks
/-!
# New vertices of a refined mesh

`create_new_vertices` (`cpp/dolfinx/refinement/utils.h` L148-279), `adjust_indices` (`utils.cpp` L102-151) and
`create_new_geometry` (`utils.h` L54-113), on all ranks.  `we` is the index map of the edges, `wv` that of the vertices.

Simplifications: `values_to_send` is one list of (neighbour, edge, vertex) in the order of the insertions.  A failed
assertion is `none`.  Points are items of a type `X` instead of `gdim` consecutive numbers.
-/
namespace Verif.NewVert
open Verif.Std Verif.Exchange Verif.World Verif.Shared Verif.RefMark

/-- `marked_edge_list`: owned marked edges, utils.h L158-165. -/
def markedList (we : World) (marks : Nat → List Bool) (r : Nat) : List Nat :=
  (List.range (we.size r)).filter fun e => (marks r).getD e false

/-- `num_local` and its `MPI_Exscan`, utils.h L172-174; also utils.cpp L108-110 (the count of plaza.h L322-324 is the same
number). -/
def scan (we : World) (marks : Nat → List Bool) (r : Nat) : Nat := Offsets.excl (fun q => (markedList we marks q).length) r

/-- `local_edge_to_new_vertex`, utils.h L175-178. -/
def newOwned (we wv : World) (marks : Nat → List Bool) (r : Nat) : List Nat :=
  (List.range (markedList we marks r).length).map fun k => scan we marks r + (wv.r0 r + wv.size r) + k

/-- `values_to_send`, utils.h L191-203. -/
def values (we wv : World) (marks : Nat → List Bool) (r : Nat) : Option (List (Nat × Nat × Nat)) := do
  let rows ← ((markedList we marks r).zip (newOwned we wv marks r)).mapM fun p =>
    ((we.map r).localToGlobal p.1).map fun g => (edgeRanks we r p.1).map fun i => (i, g, p.2)
  return rows.flatten

/-- `send_buffer` as blocks, utils.h L213-220. -/
def blocks (we : World) (r : Nat) (vals : List (Nat × Nat × Nat)) : List (List Nat) :=
  (List.range (ranks we r).length).map fun i => (vals.filter fun x => x.1 = i).flatMap fun x => [x.2.1, x.2.2]

/-- Entries at even and odd places, utils.h L243-258. -/
def pairs (l : List Nat) : List (Nat × Nat) := (List.range (l.length / 2)).map fun i => (l.getD (2 * i) 0, l.getD (2 * i + 1) 0)

/-- Marked edges with their vertices, owned and received, utils.h L240-259. -/
def entries (we wv : World) (marks : Nat → List Bool) (r : Nat) (recv : List Nat) : Option (List (Nat × Nat)) := do
  let l ← (pairs recv).mapM fun p => (localOf we r p.1).map fun e => (e, p.2)
  return (markedList we marks r).zip (newOwned we wv marks r) ++ l

/-- `data` in ascending order of the edges, utils.h L264-270; the edges are different, so the result does not depend on
the sorting algorithm. -/
def sortedData (l : List (Nat × Nat)) : List Nat :=
  (sort (fun i j => decide ((l.map Prod.fst).getD i 0 ≤ (l.map Prod.fst).getD j 0)) (List.range l.length)).map fun i => (l.map Prod.snd).getD i 0

/-- Flags `offset[m + 1] = 1`, utils.h L273-276. -/
def flags (n : Nat) (l : List (Nat × Nat)) : List Nat := (l.map Prod.fst).foldl (fun o m => o.set (m + 1) 1) (List.replicate (n + 1) 0)

/-- `offset` after the inclusive `partial_sum`, utils.h L277. -/
def offs (n : Nat) (l : List (Nat × Nat)) : List Nat := (List.range (n + 1)).map fun i => Offsets.excl (fun j => (flags n l).getD j 0) (i + 1)

/-- `create_new_vertices` on all ranks: `new_vertex_map` of each rank as data and offsets. -/
def newVertices (we wv : World) (marks : Nat → List Bool) : Option (Nat → List Nat × List Nat) := do
  let vals ← (List.range we.P).mapM fun r => values we wv marks r
  let out ← (List.range we.P).mapM fun r =>
    (entries we wv marks r (neighborAlltoallv (ranks we) (ranks we) (fun q => blocks we q (vals.getD q [])) r)).map fun l =>
      (sortedData l, offs (numEdges we r) l)
  return fun r => out.getD r ([], [])

/-- `adjust_indices`, utils.cpp L102-151. -/
def adjust (we wv : World) (marks : Nat → List Bool) (r : Nat) : List Nat :=
  let offsets := (wv.src r).map (scan we marks)
  ((List.range (wv.size r)).map fun i => wv.r0 r + i + scan we marks r) ++
    ((wv.ghosts r).zip (wv.owners r)).map fun p => p.1 + offsets.getD (lowerBound (fun x => decide (x < p.2)) (wv.src r)) 0

/-- Cells of a rank: vertices, edges and geometry dofs of each cell (owned and ghost), and the first cell of each edge. -/
structure Cells (X : Type) where
  c2v : List (List Nat)
  c2e : List (List Nat)
  xdof : List (List Nat)
  e2c : Nat → List Nat
  x : Nat → X

/-- `vertex_to_x`, utils.h L65-80; `vpos i` is `entity_dofs_all[0][i][0]`. -/
def vertexToX {X : Type} (n : Nat) (vpos : Nat → Nat) (m : Cells X) : List Nat :=
  ((m.c2v.zip m.xdof).flatMap fun p => p.1.zipIdx.map fun q => (q.1, p.2.getD (vpos q.2) 0)).foldl (fun l p => l.set p.1 p.2) (List.replicate n 0)

/-- `compute_midpoints` for one edge, `mesh/utils.h` L608-636 with `entities_to_geometry` L956-979: the first cell, the place
of the edge in it, and the geometry dofs of its closure (`closure j`). -/
def midpoint {X : Type} (mean : List X → X) (closure : Nat → List Nat) (m : Cells X) (e : Nat) : Option X := do
  let c ← (m.e2c e).head?
  let es ← m.c2e[c]?
  let dofs ← m.xdof[c]?
  if e ∈ es then some (mean ((closure (es.idxOf e)).map fun k => m.x (dofs.getD k 0))) else none

/-- `create_new_geometry`, utils.h L54-113: rows of `new_vertex_coords`. -/
def newGeometry {X : Type} (we wv : World) (marks : Nat → List Bool) (vpos : Nat → Nat) (closure : Nat → List Nat) (mean : List X → X)
    (m : Nat → Cells X) (r : Nat) : Option (List X) := do
  let mids ← (markedList we marks r).mapM (midpoint mean closure (m r))
  return ((List.range (wv.size r)).map fun v => (m r).x ((vertexToX (wv.size r + (wv.ghosts r).length) vpos (m r)).getD v 0)) ++ mids

end Verif.NewVert
