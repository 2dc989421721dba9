import Verif.Model.DualGraph
import Verif.Model.GraphDistribute
/-!
# Model: destination ranks of cells, with a layer of ghost cells

`compute_destination_ranks`, `cpp/dolfinx/graph/partitioners.cpp` L42-231, the part of the SCOTCH partitioner that adds ghost
cells (L477-533), `create_cell_partitioner` (`cpp/dolfinx/mesh/utils.cpp` L102-123) and the part of `create_mesh` that sends
cells to their destinations (`cpp/dolfinx/mesh/utils.h` L1101-1154), on all ranks of a communicator.

Simplifications: an adjacency list is the list of its rows; one pair of numbers is one item of the exchange; conversions to
`int` are exact.  The partition computed by the graph library (`part`) is a parameter, as are the order in which a hash set is
traversed and the order of the ranks returned by `compute_graph_edges_pcx` (C08).  `none` stands for an access outside of an
array.
-/
namespace Verif.GhostLayer
open Verif.Std Verif.Exchange Verif.Group Verif.Offsets

/-- Arguments on every rank: links of the nodes of the graph (global numbers), destination of the nodes; further, the orders
in which the elements of the two hash sets are traversed and the in-edges. -/
structure Input where
  P : Nat
  links : Nat → List (List Nat)
  part : Nat → List Nat
  setA : Nat → List (Nat × Nat × Nat) → List (Nat × Nat × Nat)
  setB : Nat → List (Nat × Nat) → List (Nat × Nat)
  src : Nat → List Nat

/-- `std::upper_bound` on numbers. -/
def upperBound (l : List Nat) (x : Nat) : Nat := lowerBound (fun y => decide (y ≤ x)) l

variable (I : Input)

/-- Number of nodes of a rank. -/
def numNodes (r : Nat) : Nat := (I.links r).length

/-- `node_disp`, partitioners.cpp L607-612 and L678-679, refine.h L78-83. -/
def nodeDisp : List Nat := (List.range (I.P + 1)).map (excl (numNodes I))

/-- `remote_rank` or `rank`, L64-73. -/
def rankOf (r node1 : Nat) : Nat :=
  if node1 < (nodeDisp I).getD r 0 ∨ node1 ≥ (nodeDisp I).getD (r + 1) 0 then upperBound (nodeDisp I) node1 - 1 else r

/-- `node_to_dest`, L57-75. -/
def nodeToDest (r : Nat) : List (Nat × Nat × Nat) :=
  (I.links r).zipIdx.flatMap fun p => p.1.map fun node1 => (rankOf I r node1, node1, (I.part r).getD p.2 0)

/-- After removal of duplicates and sorting, L84-98. -/
def sortedDest (r : Nat) : List (Nat × Nat × Nat) := sortBy Prod.fst (I.setA r (nodeToDest I r))

/-- `dest` and `send_sizes`, L101-123. -/
def dest (r : Nat) : List Nat := (runs Prod.fst (sortedDest I r)).map Prod.fst
@[inherit_doc dest] def sendSizes (r : Nat) : List Nat := (runs Prod.fst (sortedDest I r)).map fun p => p.2.length

/-- `recv_sizes`, L144-148: the array has as many entries as there are destinations, and is filled with one number from each
source. -/
def recvSizes (r : Nat) : Option (List Nat) :=
  let sizes := neighborAlltoall (dest I) I.src (sendSizes I) r
  if (dest I r).length < sizes.length then none
  else some (sizes ++ List.replicate ((dest I r).length - sizes.length) 0)

/-- `recv_buffer`, L150-160, of size `recv_disp.back()`. -/
def recvBuffer (r : Nat) : Option (List (Nat × Nat)) := do
  let sizes ← recvSizes I r
  let buf := neighborAlltoallv (dest I) I.src
    (fun q => chunks (sendSizes I q) ((sortedDest I q).map fun t => (t.2.1, t.2.2))) r
  if sizes.sum = buf.length then some buf else none

/-- `local_node_to_dest` before removal of duplicates, L165-179. -/
def localDest (r : Nat) : Option (List (Nat × Nat)) := do
  let buf ← recvBuffer I r
  let recv ← buf.mapM fun (p : Nat × Nat) =>
    if p.1 < (nodeDisp I).getD r 0 ∨ numNodes I r ≤ p.1 - (nodeDisp I).getD r 0 then none
    else some (p.1 - (nodeDisp I).getD r 0, p.2)
  return (I.part r).zipIdx.map (fun p => (p.2, p.1)) ++ recv

/-- The rows of the adjacency list, L187-219. -/
def rows (r : Nat) (l : List (Nat × Nat)) : List (List Nat) :=
  let s := sortBy Prod.fst (I.setB r l)
  let offsets := excl (cnt Prod.fst s)
  let data := (fill Prod.fst Prod.snd offsets (List.replicate (offsets (numNodes I r)) 0) s).2
  (List.range (numNodes I r)).map fun i => (data.drop (offsets i)).take (offsets (i + 1) - offsets i)

/-- `std::iter_swap(d.begin(), std::find(d.begin(), d.end(), x))`, L224-227. -/
def swapFront (d : List Nat) (x : Nat) : Option (List Nat) :=
  match d[d.idxOf x]?, d[0]? with
  | some a, some b => some ((d.set 0 a).set (d.idxOf x) b)
  | _, _ => none

/-- `compute_destination_ranks`, L42-231. -/
def destinations (r : Nat) : Option (List (List Nat)) := do
  let l ← localDest I r
  (rows I r l).zipIdx.mapM fun p => do
    let x ← (I.part r)[p.2]?
    swapFront p.1 x

/-- Destination of a node given by its global number. -/
def partOf (node : Nat) : Nat :=
  (I.part (upperBound (nodeDisp I) node - 1)).getD (node - (nodeDisp I).getD (upperBound (nodeDisp I) node - 1) 0) 0

/-- The rows with ghosts of the SCOTCH partitioner, L477-533: `SCOTCH_dgraphHalo` makes the destinations of the linked nodes
known (library). -/
def scotchDestinations (r : Nat) : List (List Nat) :=
  (I.links r).zipIdx.map fun p =>
    let own := (I.part r).getD p.2 0
    own :: unique (sortNat ((p.1.map (partOf I)).filter fun d => decide (d ≠ own)))

/-- The rows without ghosts, L534-541, L645-646 and L702-703. -/
def plainDestinations (r : Nat) : List (List Nat) := (I.part r).map fun d => [d]

/-! ## Cells of a mesh -/

/-- Cells of one type on one rank: nodes per cell, positions of the vertices among the nodes, facets, and the array of nodes. -/
structure Cells where
  nodes : Nat
  vertices : List Nat
  facets : List (List Nat)
  array : List Nat

/-- Number of cells. -/
def Cells.num (c : Cells) : Nat := c.array.length / c.nodes

/-- Nodes of a cell. -/
def Cells.row (c : Cells) (k : Nat) : List Nat := (c.array.drop (k * c.nodes)).take c.nodes

/-- `extract_topology`, mesh/utils.cpp L30-60. -/
def Cells.topology (c : Cells) : DualGraph.CellList :=
  ⟨(List.range c.num).map fun k => c.vertices.map fun j => (c.row k).getD j 0, c.facets⟩

/-- Arguments of `create_mesh` on all ranks, and what the dual graph and the destination ranks depend on besides. -/
structure MeshInput where
  P : Nat
  cells : Nat → List Cells
  dual : DualGraph.Input
  part : Nat → List Nat
  setA : Nat → List (Nat × Nat × Nat) → List (Nat × Nat × Nat)
  setB : Nat → List (Nat × Nat) → List (Nat × Nat)
  src : Nat → List Nat

/-- The partitioner that is used. -/
inductive Method where
  | none
  | ranks
  | scotch

variable (M : MeshInput)

/-- The graph that is partitioned, mesh/utils.cpp L112-114. -/
def graph : Input where
  P := M.P
  links := fun r =>
    let g := DualGraph.dualGraph { M.dual with P := M.P, types := fun r => (M.cells r).map Cells.topology } r
    (List.range (g.2.length - 1)).map fun c => (g.1.drop (g.2.getD c 0)).take (g.2.getD (c + 1) 0 - g.2.getD c 0)
  part := M.part
  setA := M.setA
  setB := M.setB
  src := M.src

/-- `dest`, mesh/utils.h L1105-1118. -/
def cellDest (m : Method) (r : Nat) : Option (List (List Nat)) :=
  match m with
  | .none => some (plainDestinations (graph M) r)
  | .ranks => destinations (graph M) r
  | .scotch => some (scotchDestinations (graph M) r)

/-- `cell_offset` of cell type `i`, L1120 and L1144. -/
def typeOffset (r i : Nat) : Nat := (((M.cells r).take i).map Cells.num).sum

/-- The rows of the adjacency list for one cell type, L1122-1143; an array of the wrong size is an error. -/
def typeDest (m : Method) (r i : Nat) : Option (List (List Nat)) := do
  let d ← cellDest M m r
  let c ← (M.cells r)[i]?
  if c.array.length % c.nodes ≠ 0 ∨ d.length < typeOffset M r i + c.num then none
  else return (d.drop (typeOffset M r i)).take c.num

/-- Cells of type `i` after the distribution, L1146-1153.  If one rank fails, no rank has a result. -/
def distributed (m : Method) (i r : Nat) : Option GraphDist.FResult := do
  let d ← (List.range M.P).mapM fun q => typeDest M m q i
  let c ← (M.cells r)[i]?
  return GraphDist.distributeFixed M.P c.nodes
    (fun q => (((M.cells q)[i]?.map Cells.array).getD []).map fun (v : Nat) => (v : Int)) (fun q => d.getD q []) r

end Verif.GhostLayer
