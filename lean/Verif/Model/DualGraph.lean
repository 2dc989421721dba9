import Verif.Model.LocalRange
import Verif.Model.EntityNumbering
import Verif.Model.Group
import Verif.Model.Offsets
/-!
# Dual graph of a distributed mesh

Model of `build_dual_graph`, `cpp/dolfinx/mesh/graphbuild.cpp` L902-924, and of the functions it calls:
`build_local_dual_graph` L566-900 and `compute_nonlocal_dual_graph` L55-560, on all ranks of a communicator.

Vertices are naturals, `-1` is the padding value.  The cell arrays are given by rows.  The columns of the facet table and
its last column (the cell) are one array of pairs.  The threads that fill the table (L725-753) are modelled by their lists
of writes, executed in any interleaving.  The sort of L761-791 and the sort of L330-331 are parameters: any list of the
rows in ascending order (that `sort_by_perm` returns one is C04).  Counting loops are `Offsets.cnt`.
-/
namespace Verif.DualGraph
open Verif.Std Verif.Exchange Verif.Group Verif.Offsets Verif.LocalRange

/-- Cells of one type, and the cell vertices of each of their facets (`get_entity_vertices`). -/
structure CellList where
  cells : List (List Nat)
  facets : List (List Nat)

/-- Arguments on every rank: the cells, `max_facet_to_cell_links`, the number of threads, the order in which the writes of
all threads are executed, and the two orders found by sorting. -/
structure Input where
  P : Nat
  types : Nat → List CellList
  limit : Option Nat
  threads : Nat → Nat
  sched : Nat → List (Nat × (List Int × Nat)) → List (Nat × (List Int × Nat))
  order : Nat → List Nat
  orderPO : Nat → List Nat

/-! ## Local part -/

/-- Sorting of the vertices of a facet, L672-703: networks of compare-exchange steps for 2, 3 and 4 vertices. -/
def sortFacet : List Int → List Int
  | [a, b] => [min a b, max a b]
  | [a, b, c] =>
    let a1 := min a b
    let b1 := max a b
    let b2 := min b1 c
    let c2 := max b1 c
    [min a1 b2, max a1 b2, c2]
  | [a, b, c, d] =>
    let a1 := min a b
    let b1 := max a b
    let c1 := min c d
    let d1 := max c d
    let a2 := min a1 c1
    let c2 := max a1 c1
    let b2 := min b1 d1
    let d2 := max b1 d1
    [a2, min b2 c2, max b2 c2, d2]
  | l => sort (fun a b => decide (a ≤ b)) l

/-- Vertices of facet `f` of cell `c`, L661-666. -/
def CellList.verts (cl : CellList) (c f : Nat) : List Int :=
  (cl.facets.getD f []).map fun j => (((cl.cells.getD c []).getD j 0 : Nat) : Int)

/-- `row`, L657-705: sorted vertices and padding. -/
def facetRow (m : Nat) (vs : List Int) : List Int := sortFacet vs ++ List.replicate (m - vs.length) (-1)

/-- `max_vertices_per_facet`, L606-626. -/
def maxVerts (ls : List CellList) : Nat :=
  ls.foldl (fun m cl => cl.facets.foldl (fun m f => max m f.length) m) 0

/-- `cell_offsets[j]`, L603-616. -/
def cellOffset (ls : List CellList) (j : Nat) : Nat := ((ls.take j).map fun cl => cl.cells.length).sum

/-- `facet_offset` of cell type `j`, L725 and L752; of the last one, `facet_count`. -/
def facetOffset (ls : List CellList) (j : Nat) : Nat := ((ls.take j).map fun cl => cl.cells.length * cl.facets.length).sum

/-- Writes of one call of `build_facets_fn`, L649-714, for the cells `rng`. -/
def threadWrites (m : Nat) (cl : CellList) (cellOff facetOff : Nat) (rng : Nat × Nat) : List (Nat × (List Int × Nat)) :=
  (List.range (rng.2 - rng.1)).flatMap fun c => (List.range cl.facets.length).map fun f =>
    (facetOff + rng.1 * cl.facets.length + c * cl.facets.length + f, (facetRow m (cl.verts (rng.1 + c) f), c + (cellOff + rng.1)))

/-- Writes of all threads for all cell types, L725-753. -/
def allWrites (threads : Nat) (ls : List CellList) : List (Nat × (List Int × Nat)) :=
  ls.zipIdx.flatMap fun p => (List.range threads).flatMap fun t =>
    threadWrites (maxVerts ls) p.1 (cellOffset ls p.2) (facetOffset ls p.2) (localRange t p.1.cells.length threads)

/-- Runs of positions with the same row: the loop L821-830 (and L337-354).  `fuel` bounds the number of runs. -/
def runsAux (key : Nat → List Int) : Nat → List Nat → List (List Nat)
  | 0, _ => []
  | _ + 1, [] => []
  | fuel + 1, i0 :: rest =>
    ((i0 :: rest).takeWhile fun i => decide (key i0 = key i)) ::
      runsAux key fuel ((i0 :: rest).dropWhile fun i => decide (key i0 = key i))

def runs (key : Nat → List Int) (order : List Nat) : List (List Nat) := runsAux key order.length order

/-- All pairs of a run, the earlier one first: L849-859 and L356-374. -/
def pairs : List Nat → List (Nat × Nat)
  | [] => []
  | a :: l => (l.map fun b => (a, b)) ++ pairs l

variable (I : Input)

/-- `facets`, L716-753. -/
def table (r : Nat) : List (List Int × Nat) :=
  EntityNumbering.runWrites (List.replicate (facetOffset (I.types r) (I.types r).length) ([], 0))
    (I.sched r (allWrites (I.threads r) (I.types r)))

/-- Row and cell of a facet. -/
def fkey (r i : Nat) : List Int := ((table I r).getD i ([], 0)).1
def fcell (r i : Nat) : Nat := ((table I r).getD i ([], 0)).2

/-- The runs of equal facets. -/
def localRuns (r : Nat) : List (List Nat) := runs (fkey I r) (I.order r)

/-- Positions of the facets stored in `unmatched_facets` and `local_cells`, L832-844. -/
def unmatched (r : Nat) : List Nat :=
  ((localRuns I r).filter fun l => match I.limit with | none => true | some m => decide (l.length < m)).flatten

/-- `edges`, L846-859. -/
def localEdges (r : Nat) : List (Nat × Nat) :=
  (localRuns I r).flatMap fun l => (pairs l).map fun p => (fcell I r p.1, fcell I r p.2)

/-- Links in both directions: the writes of L887-892. -/
def localLinks (r : Nat) : List (Nat × Nat) := (localEdges I r).flatMap fun e => [(e.1, e.2), (e.2, e.1)]

/-- Number of cells. -/
def numCells (r : Nat) : Nat := cellOffset (I.types r) (I.types r).length

/-- Offsets and data of the local graph, L876-892. -/
def localOffset (r a : Nat) : Nat := excl (cnt Prod.fst (localLinks I r)) a
def localData (r : Nat) : List Nat :=
  (fill Prod.fst Prod.snd (localOffset I r) (List.replicate (localOffset I r (numCells I r)) 0) (localLinks I r)).2

/-- Links of cell `a` in the local graph. -/
def localRow (r a : Nat) : List Nat :=
  ((localData I r).drop (localOffset I r a)).take (localOffset I r (a + 1) - localOffset I r a)

/-- `shape1` as returned: zero for a rank without cells, L577-586. -/
def localShape (r : Nat) : Nat := if numCells I r = 0 then 0 else maxVerts (I.types r)

/-! ## Non-local part -/

/-- `cell_offset`, L124-131. -/
def cellStart (r : Nat) : Nat := excl (numCells I) r

/-- First vertex of an unmatched facet. -/
def firstVertex (r i : Nat) : Nat := ((fkey I r i).headD 0).toNat

/-- `vertex_range` on a rank, L138-148. -/
def localMin (r : Nat) : Nat :=
  match (unmatched I r).map (firstVertex I r) with
  | [] => 0
  | a :: l => l.foldl min a
def localMax (r : Nat) : Nat := ((unmatched I r).map (firstVertex I r)).foldl max 0

/-- `vertex_range` and `max_vertices_per_facet`, L150-165. -/
def rangeMin : Nat := (List.range I.P).foldl (fun a r => min a (localMin I r)) (localMin I 0)
def rangeMax : Nat := (List.range I.P).foldl (fun a r => max a (localMax I r)) 0 + 1
def shape : Nat := (List.range I.P).foldl (fun a r => max a (localShape I r)) 0

/-- `dest_to_index` before sorting, L178-187: post office, and the number of the facet in `unmatched_facets`. -/
def items (r : Nat) : List (Nat × Nat) :=
  (unmatched I r).zipIdx.map fun p => (indexOwner I.P (firstVertex I r p.1 - rangeMin I) (rangeMax I - rangeMin I), p.2)

/-- `dest_to_index` cut into runs, L188-227. -/
def destRuns (r : Nat) : List (Nat × List (Nat × Nat)) := Group.runs Prod.fst (sortBy Prod.fst (items I r))
def dest (r : Nat) : List Nat := (destRuns I r).map Prod.fst
def numPerDest (r : Nat) : List Nat := (destRuns I r).map fun p => p.2.length

/-- `pos_to_neigh_rank`, L174 and L220-223. -/
def posToNeigh (r : Nat) : List Nat :=
  EntityNumbering.runWrites (List.replicate (unmatched I r).length 0)
    ((destRuns I r).zipIdx.flatMap fun p => p.1.2.map fun e => (e.2, p.2))

/-- `src`, L233-234: the in-edges found by NBX (C07). -/
def src (r : Nat) : List Nat := (List.range I.P).filter fun q => decide (r ∈ dest I q)

/-- `send_disp`, L249-251. -/
def sendDisp (r b : Nat) : Nat := ((numPerDest I r).take b).sum

/-- `send_indx_to_pos`, L257-276. -/
def sendIndex (r : Nat) : List Nat :=
  (fill (fun f => (posToNeigh I r).getD f 0) id (sendDisp I r) (List.replicate (numPerDest I r).sum 0)
    (List.range (unmatched I r).length)).2

/-- `send_buffer`, L258-276: rows padded to the common width, and the global cell. -/
def sendBuffer (r : Nat) : List (List Int × Nat) :=
  (fill (fun f => (posToNeigh I r).getD f 0)
    (fun f =>
      let i := (unmatched I r).getD f 0
      (fkey I r i ++ List.replicate (shape I - localShape I r) (-1), fcell I r i + cellStart I r))
    (sendDisp I r) (List.replicate (numPerDest I r).sum ([], 0)) (List.range (unmatched I r).length)).2

/-- `num_items_recv`, L278-283. -/
def numRecv (r : Nat) : List Nat := neighborAlltoall (dest I) (src I) (numPerDest I) r

/-- `recv_buffer`, L290-298. -/
def recvBuffer (r : Nat) : List (List Int × Nat) :=
  neighborAlltoallv (dest I) (src I) (fun q => chunks (numPerDest I q) (sendBuffer I q)) r

/-- Row and cell of a received facet. -/
def rkey (r i : Nat) : List Int := ((recvBuffer I r).getD i ([], 0)).1
def rcell (r i : Nat) : Nat := ((recvBuffer I r).getD i ([], 0)).2

/-- Writes into `dedge_send_data`, L333-404: (received facet, cell). -/
def answerLinks (r : Nat) : List (Nat × Nat) :=
  (runs (rkey I r) (I.orderPO r)).flatMap fun l => (pairs l).flatMap fun p => [(p.1, rcell I r p.2), (p.2, rcell I r p.1)]

/-- `dedge_send_count`, L307 and L379-387. -/
def answerCount (r : Nat) : List Nat := (List.range (recvBuffer I r).length).map (cnt Prod.fst (answerLinks I r))

/-- `dedge_send_data`, L389-404. -/
def answerData (r : Nat) : List Nat :=
  (fill Prod.fst Prod.snd (excl (cnt Prod.fst (answerLinks I r))) (List.replicate (answerCount I r).sum 0) (answerLinks I r)).2

/-- `dedge_recv_count`, L414-420. -/
def recvCount (r : Nat) : List Nat :=
  neighborAlltoallv (src I) (dest I) (fun q => chunks (numRecv I q) (answerCount I q)) r

/-- `dedge_send_count_pp`, L427-442. -/
def answerCountPP (r : Nat) : List Nat := (chunks (numRecv I r) (answerCount I r)).map List.sum

/-- `recv_dual_edges`, L463-470. -/
def recvData (r : Nat) : List Nat :=
  neighborAlltoallv (src I) (dest I) (fun q => chunks (answerCountPP I q) (answerData I q)) r

/-- Attached cell of a sent facet: `cells[send_indx_to_pos[i]]`. -/
def sentCell (r i : Nat) : Nat := fcell I r ((unmatched I r).getD ((sendIndex I r).getD i 0) 0)

/-- `num_edges`, L478-489. -/
def numEdges (r : Nat) : List Nat :=
  (recvCount I r).zipIdx.foldl (fun a p => a.modify (sentCell I r p.2) (· + p.1))
    ((List.range (numCells I r)).map fun c => (localRow I r c).length)

/-- `offsets`, L491-493. -/
def offset (r c : Nat) : Nat := excl (fun c => (numEdges I r).getD c 0) c

/-- Links written to `data`, L501-524: first the local ones, then those received. -/
def links (r : Nat) : List (Nat × Nat) :=
  ((List.range (numCells I r)).flatMap fun c => (localRow I r c).map fun x => (c, x + cellStart I r)) ++
    (chunks (recvCount I r) (recvData I r)).zipIdx.flatMap fun p => p.1.map fun x => (sentCell I r p.2, x)

/-- `data`, L497-524. -/
def data (r : Nat) : List Nat :=
  (fill Prod.fst Prod.snd (offset I r) (List.replicate (offset I r (numCells I r)) 0) (links I r)).2

/-- Copy a list into an array. -/
def writeAt : List Nat → Nat → List Nat → List Nat
  | a, _, [] => a
  | a, p, x :: l => writeAt (a.set p x) (p + 1) l

/-- One iteration of the loop L536-554: data, `write_pos`, and the offsets of the nodes before.  The sorted links left at
the old place are not read again. -/
def dedupStep (off : Nat → Nat) (s : List Nat × Nat × List Nat) (c : Nat) : List Nat × Nat × List Nat :=
  let l := unique (sortNat ((s.1.drop (off c)).take (off (c + 1) - off c)))
  (writeAt s.1 s.2.1 l, s.2.1 + l.length, s.2.2 ++ [s.2.1])

/-- Data and offsets returned, L535-559. -/
def dedup (off : Nat → Nat) (n : Nat) (data : List Nat) : List Nat × List Nat :=
  let s := (List.range n).foldl (dedupStep off) (data, 0, [])
  (s.1.take s.2.1, s.2.2 ++ [s.2.1])

/-- `build_dual_graph`: data and offsets on rank `r`; on one rank the local graph, L77-85. -/
def dualGraph (r : Nat) : List Nat × List Nat :=
  if I.P = 1 then (localData I r, (List.range (numCells I r + 1)).map (localOffset I r))
  else dedup (offset I r) (numCells I r) (data I r)

end Verif.DualGraph
