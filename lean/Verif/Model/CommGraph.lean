import Verif.Model.Scatterer
import Verif.Model.AdjacencyList
/-!
# Communication graphs

Model of `IndexMap::weights_src`, `weights_dest` and `rank_type` (`common/IndexMap.cpp` L1341-1408), of
`graph::comm_graph` and `graph::comm_to_json` (`graph/utils.cpp` L19-143), of `comm_graph_data`
(`python/dolfinx/wrappers/graph.cpp` L93-128) and of `comm_graph` in Python (`python/dolfinx/graph.py` L150-183).

Simplifications: numbers are naturals (`int32`, `size_t` and `int8` in C++); `MPI_Comm_split_type` is given by a function
`node` from ranks to memory regions, and keeps the order of the ranks (its `key` is 0); receive buffers of `MPI_Gather` and
`MPI_Gatherv` are left as they are on ranks other than the root.
-/
namespace Verif.CommGraph
open Verif.Std Verif.Exchange Verif.World Verif.AdjList

/-- `weights_src`, IndexMap.cpp L1341-1354. -/
def weightsSrc (w : World) (r : Nat) : List Nat :=
  (w.owners r).foldl (fun ws o => ws.modify (lowerBound (fun x => decide (x < o)) (w.src r)) (· + 1))
    (List.replicate (w.src r).length 0)

/-- `weights_dest`, IndexMap.cpp L1356-1378: the graph has `_dest` as sources and `_src` as destinations. -/
def weightsDest (w : World) (r : Nat) : List Nat := neighborAlltoall w.src w.dest (weightsSrc w) r

/-- `std::set_intersection` of sorted lists. -/
def setIntersection : List Nat → List Nat → List Nat
  | [], _ => []
  | _ :: _, [] => []
  | a :: l, b :: m =>
    if a < b then setIntersection l (b :: m)
    else if b < a then setIntersection (a :: l) m
    else a :: setIntersection l m
termination_by l m => l.length + m.length

/-- `ranks_s`, IndexMap.cpp L1384-1396: the ranks of the caller's memory region. -/
def ranksS (P : Nat) (node : Nat → Nat) (r : Nat) : List Nat := (List.range P).filter fun q => decide (node q = node r)

/-- `rank_type`, IndexMap.cpp L1380-1408: destination and source ranks. -/
def rankType (w : World) (node : Nat → Nat) (r : Nat) : List Nat × List Nat :=
  (setIntersection (w.dest r) (ranksS w.P node r), setIntersection (w.src r) (ranksS w.P node r))

/-- `MPI_Gather` of one number of each rank into an array of zeros. -/
def gather (P root : Nat) (x : Nat → Nat) (r : Nat) : List Nat :=
  if r = root then (List.range P).map x else List.replicate P 0

/-- Write a block at a displacement of a buffer. -/
def place {α : Type} (buf : List α) (d : Nat) (b : List α) : List α := buf.take d ++ b ++ buf.drop (d + b.length)

/-- `MPI_Gatherv` into a buffer. -/
def gatherv {α : Type} (P root : Nat) (blocks : Nat → List α) (disp : List Nat) (buf : List α) (r : Nat) : List α :=
  if r = root then (List.range P).foldl (fun buf q => place buf (disp.getD q 0) (blocks q)) buf else buf

/-- `std::partial_sum` after a leading zero, graph/utils.cpp L41-43. -/
def displacements (counts : List Nat) : List Nat := counts.foldl (fun o c => o ++ [o.getLast?.getD 0 + c]) [0]

/-- Markers of the edges, graph/utils.cpp L83-92. -/
def markers (localDest dest : List Nat) : List Nat :=
  dest.map fun r => if localDest[lowerBound (fun x => decide (x < r)) localDest]? = some r then 1 else 0

/-- Data of an edge: target, weight, marker. -/
abbrev Edge := Nat × Nat × Nat

/-- `AdjacencyList` with node data (owned size, number of ghosts). -/
structure Graph where
  adj : AdjList Edge
  node : List (Nat × Nat)
deriving DecidableEq

/-- Exceptions of the constructor of `AdjacencyList` with node data, AdjacencyList.h L101-114. -/
inductive Err where
  | nodeData
  | lastOffset
deriving DecidableEq

/-- The constructor, AdjacencyList.h L101-114. -/
def mkGraph (data : List Edge) (offsets : List Nat) (node : List (Nat × Nat)) : Except Err Graph :=
  if node.length ≠ offsets.length - 1 then .error .nodeData
  else if offsets.getLast?.getD 0 ≠ data.length then .error .lastOffset
  else .ok ⟨⟨data, offsets⟩, node⟩

/-- `comm_graph`, graph/utils.cpp L19-104, on rank `r`. -/
def commGraph (w : World) (node : Nat → Nat) (root r : Nat) : Except Err Graph :=
  let numEdges := gather w.P root (fun q => (w.dest q).length) r
  let disp := displacements numEdges
  let zero := List.replicate (disp.getLast?.getD 0) 0
  let edges := gatherv w.P root w.dest disp zero r
  let weights := gatherv w.P root (weightsDest w) disp zero r
  let sizes := (gather w.P root w.size r).zip (gather w.P root (fun q => (w.ghosts q).length) r)
  let marks := gatherv w.P root (fun q => markers (rankType w node q).1 (w.dest q)) disp zero r
  mkGraph ((List.range edges.length).map fun i => (edges.getD i 0, weights.getD i 0, marks.getD i 0)) disp sizes

/-- `comm_graph` of Python, graph.py L183: `root` is not passed on, and is 0 by default (wrappers/graph.cpp L90). -/
def pyCommGraph (w : World) (node : Nat → Nat) (_root r : Nat) : Except Err Graph := commGraph w node 0 r

/-- Attributes of an edge and of a node. -/
structure EdgeData where
  source : Nat
  target : Nat
  isLocal : Nat
  weight : Nat
deriving DecidableEq

structure NodeData where
  id : Nat
  weight : Nat
  numGhosts : Nat
deriving DecidableEq

/-- `comm_graph_data`, wrappers/graph.cpp L93-128. -/
def commGraphData (g : Graph) : List EdgeData × List NodeData :=
  ((List.range g.adj.numNodes).flatMap fun n => ((g.adj.links n).getD []).map fun e => ⟨n, e.1, e.2.2, e.2.1⟩,
   g.node.zipIdx.map fun p => ⟨p.2, p.1.1, p.1.2⟩)

/-- A number in decimal notation (`{}` of `std::format`). -/
def decimal (n : Nat) : List Char :=
  if n < 10 then [Char.ofNat (48 + n)] else decimal (n / 10) ++ [Char.ofNat (48 + n % 10)]
termination_by n

/-- Items with `", "` between them (the tests `n != num_nodes() - 1`, `edge != links.size() - 1`). -/
def sep (items : List (List Char)) : List Char :=
  items.zipIdx.flatMap fun p => p.1 ++ (if p.2 ≠ items.length - 1 then ", ".toList else [])

/-- A node, graph/utils.cpp L117-120. -/
def nodeText (n : Nat) (d : Nat × Nat) : List Char :=
  "{\"num_ghosts\": ".toList ++ decimal d.2 ++ ", \"weight\": ".toList ++ decimal d.1 ++ ",  \"id\": ".toList ++ decimal n ++ "}".toList

/-- An edge, graph/utils.cpp L131-133. -/
def edgeText (e : Edge) : List Char :=
  "{\"local\": ".toList ++ decimal e.2.2 ++ ", \"weight\": ".toList ++ decimal e.2.1 ++ ", \"id\": ".toList ++ decimal e.1 ++ "}".toList

/-- `comm_to_json`, graph/utils.cpp L106-143. -/
def commToJson (g : Graph) : List Char :=
  "{\"directed\": true, \"multigraph\": false, \"graph\": [], \"nodes\": [".toList ++
  sep ((List.range g.adj.numNodes).map fun n => nodeText n (g.node.getD n (0, 0))) ++
  "], \"adjacency\": [".toList ++
  sep ((List.range g.adj.numNodes).map fun n => "[".toList ++ sep (((g.adj.links n).getD []).map edgeText) ++ "]".toList) ++
  "]}".toList

end Verif.CommGraph
