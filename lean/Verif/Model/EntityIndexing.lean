import Verif.Model.SharedIndices
import Verif.Model.MeshTags
/-!
# Distribution of mesh entities over processes

Model of `get_local_indexing`, `get_ownership` and `create_adj_list`,
`cpp/dolfinx/mesh/topologycomputation.cpp` L249-278, L282-312 and L329-695, on all ranks of a communicator.

Flattened tables with a fixed row width are lists of rows.  `-1` entries are `none`.  The order returned by
`sort_by_perm` (L465-467) is a parameter; that it is a sorted permutation is C04.  Neighbourhood exchanges are those
of `Model/Exchange`.  Violated assertions and writes at negative positions are the outcome `none`.
-/
namespace Verif.EntityIndexing
open Verif.World Verif.Std Verif.Exchange Verif.Group Verif.Shared

/-- Arguments on every rank: vertex index map, vertices per entity, `entity_list` (rows of local vertices),
`entity_index` and `ghost_status`. -/
structure Input where
  w : World
  nv : Nat
  rows : Nat → List (List Nat)
  index : Nat → List Nat
  status : Nat → List Nat

variable (I : Input)

/-- `entity_count`, L346-352. -/
def count (r : Nat) : Nat := if I.index r = [] then 0 else (I.index r).foldl max 0 + 1

/-- `vertex_ranks`, L358-359: data and offsets of `index_to_dest_ranks`. -/
def vertexRanks (r : Nat) : List Nat × List Nat := (indexToDestRanks I.w r).getD ([], [])

/-- `vertex_ranks.links(v)`. -/
def vertexLinks (r v : Nat) : List Nat :=
  ((vertexRanks I r).1.drop ((vertexRanks I r).2.getD v 0)).take
    ((vertexRanks I r).2.getD (v + 1) 0 - (vertexRanks I r).2.getD v 0)

/-- `ranks`, L362-366. -/
def ranks (r : Nat) : List Nat := unique (sortNat (vertexRanks I r).1)

/-- `first_instance`, L396-402. -/
def firstInstance (r : Nat) : List (Option Nat) :=
  (I.index r).zipIdx.foldl (fun a p => if a.getD p.1 none = none then a.set p.1 (some p.2) else a)
    (List.replicate (count I r) none)

/-- `entity`, L413-415. -/
def entity (r id : Nat) : List Nat := (I.rows r).getD (((firstInstance I r).getD id none).getD 0) []

/-- `vglobal` after sorting, L435-436. -/
def vglobal (r id : Nat) : List Nat :=
  sortNat ((entity I r id).map fun v => ((I.w.map r).localToGlobal v).getD 0)

/-- Ranks counted once per vertex, L417-434: the runs of length `num_vertices_per_e`. -/
def hits (r id : Nat) : List Nat :=
  ((runs (fun x : Nat => x) (sortBy (fun x => x) ((entity I r id).flatMap (vertexLinks I r)))).filter
    fun p => decide (p.2.length = I.nv)).map Prod.fst

/-- `entity_to_local_idx`, L437-439: rows (global vertices, id). -/
def toLocal (r : Nat) : List (List Nat × Nat) :=
  (List.range (count I r)).flatMap fun id => (hits I r id).map fun _ => (vglobal I r id, id)

/-- Pushes to `send_entities` and `send_index`, L442-452: (rank, (global vertices, id)). -/
def sends (r : Nat) : List (Nat × (List Nat × Nat)) :=
  (List.range (count I r)).flatMap fun id =>
    (hits I r id).flatMap fun q => if (I.status r).getD id 1 ≠ 1 then [(q, (vglobal I r id, id))] else []

/-- `send_entities` and `send_index`: one list per entry of `ranks`; the position is found by `lower_bound`. -/
def sendLists (r : Nat) : List (List (List Nat × Nat)) :=
  (sends I r).foldl (fun v p => v.modify (lowerBound (fun x => decide (x < p.1)) (ranks I r)) (· ++ [p.2]))
    (List.replicate (ranks I r).length [])

/-- Vertices of row `i` of `entity_to_local_idx`. -/
def keyAt (r i : Nat) : List Nat := ((toLocal I r).getD i ([], 0)).1

/-- `perm` after `unique`, L465-478, from the order returned by `sort_by_perm`. -/
def perm (order : Nat → List Nat) (r : Nat) : List Nat :=
  MeshTags.uniqueBy (fun a b => decide (keyAt I r a = keyAt I r b)) (order r)

/-- `std::lexicographical_compare`. -/
def lexCompare : List Nat → List Nat → Bool
  | _, [] => false
  | [], _ :: _ => true
  | a :: as, b :: bs => if a < b then true else if b < a then false else lexCompare as bs

/-- Received entities, one list per entry of `ranks`, L484-519. -/
def recvKeys (r : Nat) : List (List (List Nat)) :=
  chunks (neighborAlltoall (ranks I) (ranks I) (fun q => (sendLists I q).map List.length) r)
    (neighborAlltoallv (ranks I) (ranks I) (fun q => (sendLists I q).map fun l => l.map Prod.fst) r)

/-- Search of a received entity, L535-571; `none` is `-1`. -/
def find (order : Nat → List Nat) (r : Nat) (K : List Nat) : Option Nat :=
  let p := perm I order r
  let pos := lowerBound (fun i => lexCompare (keyAt I r i) K) p
  match p[pos]? with
  | some i => if keyAt I r i = K then some ((toLocal I r).getD i ([], 0)).2 else none
  | none => none

/-- `shared_entities_data` before sorting, L558-559. -/
def sharedData (order : Nat → List Nat) (r : Nat) : List (Nat × Nat) :=
  ((ranks I r).zip (recvKeys I r)).flatMap fun p => p.2.flatMap fun K =>
    match find I order r K with
    | some idx => [(idx, p.1), (idx, r)]
    | none => []

/-- `shared_entity_to_global_vertices_data` before sorting, L561-564. -/
def sharedVData (order : Nat → List Nat) (r : Nat) : List (Nat × Nat) :=
  ((ranks I r).zip (recvKeys I r)).flatMap fun p => p.2.flatMap fun K =>
    match find I order r K with
    | some idx => K.map fun v => (idx, v)
    | none => []

/-- `create_adj_list`, L257-278, on sorted data: row `i`. -/
def adjLinks (data : List (Nat × Nat)) (size i : Nat) : List Nat :=
  let u := unique (lexSort data)
  let offs := pushSizes [0] (rowSizes (List.range size) u)
  ((u.map Prod.snd).drop (offs.getD i 0)).take (offs.getD (i + 1) 0 - offs.getD i 0)

/-- `shared_entities.links(i)`, L574-576. -/
def sharedLinks (order : Nat → List Nat) (r i : Nat) : List Nat := adjLinks (sharedData I order r) (count I r) i

/-- `shared_entities_v.links(i)`, L578-580, before the truncation of the values to `int`. -/
def sharedV (order : Nat → List Nat) (r i : Nat) : List Nat := adjLinks (sharedVData I order r) (count I r) i

/-- The hash of `get_ownership`, L300-305; each vertex has been truncated to `int` by `create_adj_list`. -/
def hash (vs : List Nat) : BitVec 64 :=
  vs.foldl (fun h v => (h ^^^ (BitVec.ofNat 32 v).signExtend 64) * 0x100000001b3#64) 0xcbf29ce484222325#64

/-- `get_ownership`, L289-311. -/
def ownership (procs vs : List Nat) : Nat := procs.getD ((hash vs).toNat % procs.length) 0

/-- State of the ownership loop, L585-591. -/
structure LoopState where
  li : List (Option Nat)
  c : Nat
  inter : List Nat

/-- One iteration, L593-614. -/
def loopStep (order : Nat → List Nat) (r : Nat) (s : LoopState) (i : Nat) : LoopState :=
  if (I.status r).getD i 1 = 1 then s
  else if sharedLinks I order r i = [] then ⟨s.li.set i (some s.c), s.c + 1, s.inter⟩
  else if ownership (sharedLinks I order r i) (sharedV I order r i) = r then
    ⟨s.li.set i (some s.c), s.c + 1, s.inter ++ [i]⟩
  else ⟨s.li, s.c, s.inter ++ [i]⟩

/-- The loop over all entities. -/
def loop (order : Nat → List Nat) (r : Nat) : LoopState :=
  (List.range (count I r)).foldl (loopStep I order r) ⟨List.replicate (count I r) none, 0, []⟩

/-- `num_local`, L616. -/
def numLocal (order : Nat → List Nat) (r : Nat) : Nat := (loop I order r).c

/-- The second pass, L618-619: entities without an index get the next ones. -/
def fillRest : List (Option Nat) → Nat → List Nat
  | [], _ => []
  | some a :: l, c => a :: fillRest l c
  | none :: l, c => c :: fillRest l (c + 1)

/-- `local_index`, L618-619. -/
def localIndex (order : Nat → List Nat) (r : Nat) : List Nat := fillRest (loop I order r).li (numLocal I order r)

/-- `interprocess_entities`, L623-624. -/
def interprocess (order : Nat → List Nat) (r : Nat) : List Nat :=
  (loop I order r).inter.map fun i => (localIndex I order r).getD i 0

/-- Global indices sent, L639-651; `none` is `-1`. -/
def sendGlobal (order : Nat → List Nat) (r : Nat) : List (List (Option Nat)) :=
  (sendLists I r).map fun l => l.map fun p =>
    if (localIndex I order r).getD p.2 0 < numLocal I order r then
      some (Offsets.excl (numLocal I order) r + (localIndex I order r).getD p.2 0) else none

/-- Global indices received, L653-664. -/
def recvGlobal (order : Nat → List Nat) (r : Nat) : List (List (Option Nat)) :=
  chunks (neighborAlltoall (ranks I) (ranks I) (fun q => (sendLists I q).map List.length) r)
    (neighborAlltoallv (ranks I) (ranks I) (sendGlobal I order) r)

/-- The received (source, (global index, local id)) triples, L668-673. -/
def ghostItems (order : Nat → List Nat) (r : Nat) : List (Nat × (Option Nat × Option Nat)) :=
  ((ranks I r).zip ((recvGlobal I order r).zip (recvKeys I r))).flatMap fun p =>
    (p.2.1.zip p.2.2).map fun x => (p.1, (x.1, find I order r x.2))

/-- One received item, L672-680: position `local_index[idx] - num_local` gets the global index and the owner. -/
def ghostStep (order : Nat → List Nat) (r : Nat) (a : Option (List (Option (Nat × Nat))))
    (x : Nat × (Option Nat × Option Nat)) : Option (List (Option (Nat × Nat))) :=
  match x.2.1, x.2.2 with
  | some gi, some idx =>
    if (localIndex I order r).getD idx 0 < numLocal I order r then none
    else a.map fun l => l.set ((localIndex I order r).getD idx 0 - numLocal I order r) (some (gi, x.1))
  | _, _ => a

/-- `ghost_indices` and `ghost_owners`, L629-630 and L667-684; `none` if an assertion fails. -/
def ghosts (order : Nat → List Nat) (r : Nat) : Option (List (Nat × Nat)) :=
  ((ghostItems I order r).foldl (ghostStep I order r)
    (some (List.replicate (count I r - numLocal I order r) none))).bind fun l => l.mapM id

/-- `new_entity_index`, L687-690. -/
def newIndex (order : Nat → List Nat) (r : Nat) : List Nat :=
  (I.index r).map fun i => (localIndex I order r).getD i 0

end Verif.EntityIndexing
