import Verif.Model.SharingRanks
import Verif.Model.GhostIndices
/-!
# Vertex numbering of a distributed mesh

Model of `create_topology`, `cpp/dolfinx/mesh/Topology.cpp` L1134-1500, and of the functions it calls:
`vertex_ownership_groups` L313-391, `exchange_indexing` L411-515, `exchange_ghost_indexing` L549-725 and
`convert_to_local_indexing` L742-811, on all ranks of a communicator.

Vertices and indices are naturals, `-1` is `none`.  `radix_sort` and `block_indirect_sort` sort (C03).  Three
consecutive entries of a message are one triple.  Hash maps are functions to `Option`, and `emplace` keeps an existing
entry.  Vectors of cell types are functions of the position of the type.  The debug-only check L375-388 is left out.
A lookup that fails an assertion yields `none`, or `0` where a number has to be sent.
-/
namespace Verif.CreateTopology
open Verif.World Verif.Std Verif.Exchange Verif.Group Verif.Shared Verif.LocalRange Verif.GhostIdx

/-- Arguments on every rank (first argument) and for every cell type (second argument), the numbers drawn by
`determine_sharing_ranks`, and the result of the neighbour discovery in `compute_ghost_indices`. -/
structure Input where
  P : Nat
  nt : Nat
  nv : Nat → Nat
  cells : Nat → Nat → List Nat
  orig : Nat → Nat → List Nat
  gown : Nat → Nat → List Nat
  boundary : Nat → List Nat
  threads : Nat
  pick : Nat → Nat → Nat → Nat
  inEdges : Nat → Nat → List Nat

variable (I : Input)

/-- `num_local_cells`, L1168-1169. -/
def numLocal (r t : Nat) : Nat := (I.cells r t).length / I.nv t - (I.gown r t).length

/-- `owned_cells`, L1170. -/
def ownedCells (r t : Nat) : List Nat := (I.cells r t).take (numLocal I r t * I.nv t)

/-- `ghost_cells`, L1171. -/
def ghostCells (r t : Nat) : List Nat := (I.cells r t).drop ((I.cells r t).length - (I.gown r t).length * I.nv t)

/-- `local_vertex_set`, L322-340. -/
def localSet (r : Nat) : List Nat := unique (sortNat ((List.range I.nt).flatMap (ownedCells I r)))

/-- `ghost_vertex_set`, L343-361. -/
def ghostSet (r : Nat) : List Nat := unique (sortNat ((List.range I.nt).flatMap (ghostCells I r)))

/-- `std::ranges::set_difference`: the second range advances past smaller values, and an equal value consumes one of
each. -/
def setDifference : List Nat → List Nat → List Nat
  | [], _ => []
  | a :: l, m =>
    match m.dropWhile fun b => decide (b < a) with
    | [] => a :: setDifference l []
    | b :: m' => if b = a then setDifference l m' else a :: setDifference l (b :: m')

/-- `owned_vertices` of `vertex_ownership_groups`, L363-367. -/
def owned0 (r : Nat) : List Nat := setDifference (localSet I r) (I.boundary r)

/-- `unowned_vertices` of `vertex_ownership_groups`, L369-373. -/
def unowned0 (r : Nat) : List Nat := setDifference (ghostSet I r) (localSet I r)

/-- Arguments of `determine_sharing_ranks`, L1190-1191. -/
def sharing : Sharing.Input where
  P := I.P
  ind := I.boundary
  pick := I.pick
  threaded := decide (I.threads > 1)

/-- `global_vertex_to_ranks`, L1190-1191: the vertices on the boundary with their ranks. -/
def vertexRanks (r : Nat) : List (Nat × List Nat) := (I.boundary r).zip (Sharing.sharingRanks (sharing I) r)

/-- `owned_vertices`, L1198-1221. -/
def owned (r : Nat) : List Nat :=
  sortNat (owned0 I r ++ ((vertexRanks I r).filter fun p => decide (p.2.head? = some r)).map Prod.fst)

/-- `unowned_vertices`, L1198-1216. -/
def unowned (r : Nat) : List Nat :=
  sortNat (unowned0 I r ++ ((vertexRanks I r).filter fun p => decide (p.2.head? ≠ some r)).map Prod.fst)

/-- `is_identity`, L1234-1237 and L754-757, on the values. -/
def isIdentity (l : List Nat) : Bool :=
  decide (l ≠ []) && decide (l.head? = some 0) && decide (l.getLast? = some (l.length - 1))

/-- Position of a vertex in `owned_vertices`, L1240-1285: the vertex itself, or from a hash map. -/
def ownedPos (r v : Nat) : Option Nat :=
  if isIdentity (owned I r) then (if v < (owned I r).length then some v else none)
  else emplaceAll (owned I r).zipIdx v

/-- Body of the loops L1248-1257 and L1273-1284; the state is `local_vertex_indices` and `v`. -/
def numberStep (pos : Nat → Option Nat) (s : List (Option Nat) × Nat) (v : Nat) : List (Option Nat) × Nat :=
  match pos v with
  | some p => if s.1.getD p none = none then (s.1.set p (some s.2), s.2 + 1) else s
  | none => s

/-- All cells of rank `r`, type after type. -/
def allCells (r : Nat) : List Nat := (List.range I.nt).flatMap (I.cells r)

/-- `local_vertex_indices`, L1225-1287. -/
def localIndices (r : Nat) : List (Option Nat) :=
  ((allCells I r).foldl (numberStep (ownedPos I r)) (List.replicate (owned I r).length none, 0)).1

/-- `global_offset_v`, L1291-1295. -/
def offset (r : Nat) : Nat := Offsets.excl (fun q => (owned I q).length) r

/-- Arguments of `compute_ghost_indices` for cell type `t`, L1302-1305. -/
def ghostInput (t : Nat) : GhostIdx.Input where
  P := I.P
  owned r := (I.orig r t).take (numLocal I r t)
  ghosts r := (I.orig r t).drop ((I.orig r t).length - (I.gown r t).length)
  owners r := I.gown r t
  inEdges := I.inEdges t
  threaded := decide (I.threads > 1)

/-- `index_map_c`, L1308-1310. -/
def cellWorld (t : Nat) : World where
  P := I.P
  size r := numLocal I r t
  ghosts r := ((ghostInput I t).result r).getD []
  owners r := I.gown r t

/-! ## `exchange_indexing` -/

/-- `src`, L420-433. -/
def src (r : Nat) : List Nat :=
  unique (sortNat ((vertexRanks I r).filterMap fun p => if p.2.head? = some r then none else p.2.head?))

/-- `dest`, L420-427 and L435-439. -/
def dest (r : Nat) : List Nat :=
  unique (sortNat ((vertexRanks I r).flatMap fun p => if p.2.head? = some r then p.2.tail else []))

/-- `idx_new`, L451-455. -/
def newIndex (r v : Nat) : Nat :=
  ((localIndices I r).getD (lowerBound (fun x => decide (x < v)) (owned I r)) none).getD 0 + offset I r

/-- The insertions L459-469 in order: (target rank, (old index, new index, owner)). -/
def sends (r : Nat) : List (Nat × (Nat × Nat × Nat)) :=
  (vertexRanks I r).flatMap fun p =>
    if p.2.head? = some r then p.2.tail.map fun q => (q, (p.1, newIndex I r p.1, r)) else []

/-- `send_buffer`, L443-472; the position is found by `lower_bound`. -/
def sendLists (r : Nat) : List (List (Nat × Nat × Nat)) :=
  (sends I r).foldl (fun v p => v.modify (lowerBound (fun x => decide (x < p.1)) (dest I r)) (· ++ [p.2]))
    (List.replicate (dest I r).length [])

/-- `unowned_vertex_data`, L474-514. -/
def recvBoundary (r : Nat) : List (Nat × Nat × Nat) := neighborAlltoallv (dest I) (src I) (sendLists I) r

/-! ## Numbering of vertices owned by other ranks -/

/-- `local_vertex_indices_unowned`, `global_to_local_vertices`, `ghost_vertices`, `ghost_vertex_owners` and `v`. -/
structure State where
  li : List (Option Nat)
  g2l : List (Nat × Option Nat)
  ghosts : List Nat
  owners : List Nat
  v : Nat

/-- Order of `std::pair<std::int64_t, std::int32_t>`; `none` is `-1`. -/
def pairLe (a b : Nat × Option Nat) : Bool :=
  decide (a.1 < b.1 ∨ (a.1 = b.1 ∧ a.2.elim 0 (· + 1) ≤ b.2.elim 0 (· + 1)))

/-- `global_to_local_vertices` before any update, L1341-1354. -/
def g2lInit (r : Nat) : List (Nat × Option Nat) :=
  sort pairLe ((owned I r).zip (localIndices I r) ++ (unowned I r).map fun v => (v, none))

/-- State before the first loop, L1329-1354 and L1370. -/
def init (r : Nat) : State where
  li := List.replicate (unowned I r).length none
  g2l := g2lInit I r
  ghosts := []
  owners := []
  v := (owned I r).length

/-- `patch_global_to_local`, L1356-1365. -/
def patch (l : List (Nat × Option Nat)) (k v : Nat) : List (Nat × Option Nat) :=
  l.modify (lowerBound (fun e => decide (e.1 < k)) l) fun e => (e.1, some v)

/-- Common part of L1378-1382 and L1416-1420. -/
def place (s : State) (pos : Nat) (d : Nat × Nat × Nat) : State where
  li := s.li.set pos (some s.v)
  g2l := patch s.g2l d.1 s.v
  ghosts := s.ghosts ++ [d.2.1]
  owners := s.owners ++ [d.2.2]
  v := s.v + 1

/-- Body of the loop L1371-1383. -/
def step1 (r : Nat) (s : State) (d : Nat × Nat × Nat) : State :=
  place s (lowerBound (fun x => decide (x < d.1)) (unowned I r)) d

/-- State after the first loop. -/
def stage1 (r : Nat) : State := (recvBoundary I r).foldl (step1 I r) (init I r)

/-! ## `exchange_ghost_indexing` -/

/-- Cell indices received, one list per rank in `dest`, L574-632.  The messages are those of `index_to_dest_ranks`. -/
def requests (r t : Nat) : List (List Nat) := chunks (recvSizes (cellWorld I t) r) (recvGhosts (cellWorld I t) r)

/-- Vertices of a cell, L644-646. -/
def cellVertices (r t g : Nat) : List Nat :=
  ((I.cells r t).drop ((g - (cellWorld I t).r0 r) * I.nv t)).take (I.nv t)

/-- `shared_vertices_fwd`, L634-654. -/
def sharedFwd (r t : Nat) : List (List Nat) :=
  (requests I r t).map fun l => unique (sortNat (l.flatMap (cellVertices I r t)))

/-- Index and owner of a vertex, L683-697. -/
def lookup (r v : Nat) : Nat × Nat :=
  match (stage1 I r).g2l[lowerBound (fun e => decide (e.1 < v)) (stage1 I r).g2l]? with
  | some (_, some i) =>
    if i < (owned I r).length then (i + offset I r, r)
    else ((stage1 I r).ghosts.getD (i - (owned I r).length) 0, (stage1 I r).owners.getD (i - (owned I r).length) 0)
  | _ => (0, 0)

/-- Order of `std::array<std::int64_t, 3>`. -/
def tripleLe (a b : Nat × Nat × Nat) : Bool :=
  decide (a.1 < b.1 ∨ (a.1 = b.1 ∧ (a.2.1 < b.2.1 ∨ (a.2.1 = b.2.1 ∧ a.2.2 ≤ b.2.2))))

/-- `exchange_ghost_indexing`, L656-724. -/
def recvGhostData (r t : Nat) : List (Nat × Nat × Nat) :=
  unique (sort tripleLe (neighborAlltoallv (cellWorld I t).dest (cellWorld I t).src
    (fun q => (sharedFwd I q t).map fun l => l.map fun v => (v, lookup I q v)) r))

/-- Body of the loop L1406-1423. -/
def step2 (r : Nat) (s : State) (d : Nat × Nat × Nat) : State :=
  let pos := lowerBound (fun x => decide (x < d.1)) (unowned I r)
  if (unowned I r)[pos]? = some d.1 ∧ s.li.getD pos none = none then place s pos d else s

/-- State after the second loop, L1391-1423. -/
def final (r : Nat) : State := ((List.range I.nt).flatMap (recvGhostData I r)).foldl (step2 I r) (stage1 I r)

/-- `index_map_v`, L1485-1487. -/
def vertexWorld : World where
  P := I.P
  size r := (owned I r).length
  ghosts r := (final I r).ghosts
  owners r := (final I r).owners

/-! ## `convert_to_local_indexing` -/

/-- Conversion of one vertex, L759-795: from the position, by search, or from a hash map. -/
def convert (r v : Nat) : Option Nat :=
  let l := (final I r).g2l
  if isIdentity (l.map Prod.fst) then
    if v < l.length then (l[v]?).bind Prod.snd
    else (l[lowerBound (fun e => decide (e.1 < v)) l]?).bind Prod.snd
  else (emplaceAll l v).join

/-- The cells with local vertex indices, L797-810 and L1444-1450: each thread converts its range. -/
def localCells (r t : Nat) : List (Option Nat) :=
  (List.range I.threads).flatMap fun i =>
    let c := localRange i (I.cells r t).length I.threads
    (((I.cells r t).drop c.1).take (c.2 - c.1)).map (convert I r)

/-- `create_topology`: vertex index map and cells with local vertices; exceptions (L1142-1143, L1161-1167) are `none`. -/
def createTopology : Option (World × (Nat → Nat → List (Option Nat))) :=
  if I.threads < 1 ∨ ∃ r ∈ List.range I.P, ∃ t ∈ List.range I.nt, (I.cells r t).length % I.nv t ≠ 0 then none
  else some (vertexWorld I, localCells I)

end Verif.CreateTopology
