import Verif.Model.SharedIndices
import Verif.Model.LocalRange
/-!
# Distribution of data on entities

Model of `distribute_entity_data`, `cpp/dolfinx/io/utils.h` L59-482, on all ranks of a communicator.

Node numbers are naturals.  The vertex nodes of an entity and its value, which the code keeps in two buffers that are packed, cut and exchanged
in the same way, are one record.  `std::ranges::sort` by the destination (L148) is a stable sort; nothing is claimed on the order of records.
Lists of source ranks are the sorted result of NBX (C07).  Reads outside of an array, and destinations that are no ranks, are `none`.
-/
namespace Verif.EntityData
open Verif.Std Verif.Exchange Verif.Group Verif.Shared Verif.LocalRange

/-- Arguments on every rank.  `N` is `num_nodes_g`; `layout` is `entity_closure_dofs(entity_dim, 0)`, `numVert` is `num_vert_per_e`,
`vertexDofs` is `cell_vertex_dofs` (L74-80); `ents` are `entities` and `data`; `c2v` is the cell to vertex connectivity. -/
structure Input (V : Type) where
  P : Nat
  N : Nat
  layout : List Nat
  numVert : Nat
  vertexDofs : List Nat
  ents : Nat → List (List Nat × V)
  nodes : Nat → List Nat
  c2v : Nat → List (List Nat)
  xdofs : Nat → List (List Nat)

variable {V : Type} (I : Input V)

/-! ## A. Vertex nodes -/

/-- `entity_vertex_dofs`, L94-102. -/
def entityVertexDofs : List Nat :=
  I.vertexDofs.filterMap fun d => if d ∈ I.layout then some (I.layout.idxOf d) else none

/-- The row of `entities_v`, L109-115. -/
def vertexRow (row : List Nat) : Option (List Nat) :=
  ((List.range I.numVert).mapM fun i => (entityVertexDofs I)[i]?.bind fun k => row[k]?).map sortNat

/-! ## Sending to post offices, L133-231 and L239-319 -/

/-- `index_owner`, which asserts that the index is in range (`common/MPI.h` L92-110).  Without assertions it divides by zero or gives a number
that is not a rank (`indexOwner_ge`). -/
def postOffice (n : Nat) : Option Nat := if n < I.N then some (indexOwner I.P n I.N) else none

section
variable {α : Type} (sorted : Nat → List (Nat × α))

/-- `dest`, L154-167 and L256-269, from the records sorted by destination. -/
def dest (q : Nat) : List Nat := (runs Prod.fst (sorted q)).map Prod.fst

/-- `num_items_send`. -/
def numSend (q : Nat) : List Nat := (runs Prod.fst (sorted q)).map fun p => p.2.length

/-- `src`, L176-177 and L278-279. -/
def src (P r : Nat) : List Nat := (List.range P).filter fun q => decide (r ∈ dest sorted q)

/-- `num_items_recv`, L188-192 and L290-294. -/
def numRecv (P r : Nat) : List Nat := neighborAlltoall (dest sorted) (src sorted P) (numSend sorted) r

/-- `recv_buffer`, L201-225 and L303-313. -/
def recv (P r : Nat) : List α :=
  neighborAlltoallv (dest sorted) (src sorted P) (fun q => chunks (numSend sorted q) ((sorted q).map Prod.snd)) r
end

/-- The records of a rank with their destinations, L109-115 and L139-145. -/
def entityItems (q : Nat) : Option (List (Nat × (List Nat × V))) :=
  (I.ents q).mapM fun e => do
    let vs ← vertexRow I e.1
    let n ← vs[0]?
    let d ← postOffice I n
    some (d, (vs, e.2))

/-- `dest_to_index` before sorting, L245-251. -/
def nodeItems (q : Nat) : Option (List (Nat × Nat)) :=
  (I.nodes q).mapM fun n => (postOffice I n).map fun d => (d, n)

/-! ## D. Candidate ranks -/

/-- `node_to_rank`, L331-334: nodes with the position of the rank that has them. -/
def nodeToRank (counts recvNodes : List Nat) : List (Nat × Nat) :=
  (chunks counts recvNodes).zipIdx.flatMap fun b => b.1.map fun n => (n, b.2)

/-- `send_data` and `send_values`, L336-349; `m` is the number of destinations. -/
def sendData (m : Nat) (toRank : List (Nat × Nat)) (recvEnts : List (List Nat × V)) : List (List (List Nat × V)) :=
  recvEnts.foldl (fun sd e =>
    ((toRank.filter fun x => decide (e.1[0]? = some x.1)).map Prod.snd).foldl (fun sd p => sd.modify p (· ++ [e])) sd)
    (List.replicate m [])

/-- `entities_data` and `entities_values` of rank `q`, L351-416: the directions of C are reversed. -/
def candidates (P : Nat) (sortedE : Nat → List (Nat × (List Nat × V))) (sortedN : Nat → List (Nat × Nat)) (q : Nat) : List (List Nat × V) :=
  neighborAlltoallv (src sortedN P) (dest sortedN)
    (fun r => sendData (src sortedN P r).length (nodeToRank (numRecv sortedN P r) (recv sortedN P r)) (recv sortedE P r)) q

/-! ## E. Entities of this process -/

/-- What one cell writes into `input_idx_to_vertex`, L441-445. -/
def cellWrites (q : Nat) (vs xs : List Nat) : Option (List (Nat × Nat)) :=
  vs.zipIdx.mapM fun v => do
    let d ← I.vertexDofs[v.2]?
    let k ← xs[d]?
    let n ← (I.nodes q)[k]?
    some (n, v.1)

/-- What L438-446 write into `input_idx_to_vertex`. -/
def vertexWrites (q : Nat) : Option (List (Nat × Nat)) :=
  ((I.c2v q).zipIdx.mapM fun (c : List Nat × Nat) => (I.xdofs q)[c.2]?.bind fun xs => cellWrites I q c.1 xs).map List.flatten

/-- `input_idx_to_vertex`: later writes win. -/
def vertexMap (w : List (Nat × Nat)) (n : Nat) : Option Nat := w.foldl (fun m x => if x.1 = n then some x.2 else m) none

/-- The loop L448-473. -/
def selectEntities (m : Nat → Option Nat) (l : List (List Nat × V)) : List (List Nat × V) :=
  l.filterMap fun e => (e.1.mapM m).map fun vs => (vs, e.2)

/-- `distribute_entity_data` on all ranks: entities by local vertices, with their values.  The call is collective, it fails if it fails on one
rank. -/
def distributeEntityData : Option (List (List (List Nat × V))) := do
  let eItems ← (List.range I.P).mapM (entityItems I)
  let nItems ← (List.range I.P).mapM (nodeItems I)
  (List.range I.P).mapM fun q => do
    let w ← vertexWrites I q
    some (selectEntities (vertexMap w)
      (candidates I.P (fun q => sortBy Prod.fst (eItems.getD q [])) (fun q => lexSort (nItems.getD q [])) q))

end Verif.EntityData
