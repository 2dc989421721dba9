import Verif.Model.SharedIndices
import Verif.Model.CreateTopology
/-!
# Degree-of-freedom maps of a distributed mesh

Model of `build_dofmap_data`, `cpp/dolfinx/fem/dofmapbuilder.cpp` L659-710, and of the functions it calls:
`build_basic_dofmaps` L154-397, `compute_reordering_map` L421-490, `reorder_owned` L52-137 and `get_global_indices`
L507-654, on all ranks of a communicator.

Indices are naturals.  Cell and entity types are numbers.  Functions of the topology (`entity_types`, `index_maps`,
`connectivity`, `cell_entity_type`) are input functions.  Two consecutive entries of a message are one pair.
`-1` is `none`.  Loops that write consecutive positions are list concatenations.
-/
namespace Verif.Dofmap
open Verif.World Verif.Std Verif.Exchange Verif.Shared Verif.Offsets Verif.CreateTopology

/-- A required pair of dimension and entity type, and its number of dofs per entity: one position of `required_dim_et`
and `num_entity_dofs_et`, L172-173. -/
structure Req where
  d : Nat
  et : Nat
  n : Nat
deriving Repr, DecidableEq

/-- Arguments: topology and element layouts on all ranks.  `types d` is `entity_types(d)`, `maps d et` is
`index_maps(d)[et]`, `etype i d e` is the type of entity `e` of dimension `d` of cell type `i`, `conn r i d et` the
connectivity `{D, i} → {d, et}` on rank `r`, `layout i` is `entity_dofs_all()` and `ndofs i` is `num_dofs()` of the
layout of cell type `i`, `reorder r` the reordering function, and `wait r` the order in which `MPI_Waitany` reports
the requests. -/
structure Input where
  P : Nat
  D : Nat
  nct : Nat
  types : Nat → List Nat
  maps : Nat → Nat → World
  etype : Nat → Nat → Nat → Nat
  conn : Nat → Nat → Nat → Nat → Option (List (List Nat))
  layout : Nat → List (List (List Nat))
  ndofs : Nat → Nat
  reorder : Nat → Option (List (List Nat) → List Nat)
  wait : Nat → List Nat

section scan
variable (I : Input)

/-- Iterations of the loops L181-190: cell type, dimension, entity, and the dofs of the entity. -/
def slots : List (Nat × Nat × Nat × List Nat) :=
  (List.range I.nct).flatMap fun i => (List.range (I.D + 1)).flatMap fun d =>
    ((I.layout i).getD d []).zipIdx.map fun p => (i, d, p.2, p.1)

/-- Body of the loops, L192-232; `none` means an exception. -/
def scanStep (r : Nat) (s : List Req) (x : Nat × Nat × Nat × List Nat) : Option (List Req) :=
  if x.2.2.2 = [] then some s
  else
    let et := (I.types x.2.1).idxOf (I.etype x.1 x.2.1 x.2.2.1)
    match s.find? fun q => decide (q.d = x.2.1 ∧ q.et = et) with
    | none => if x.2.1 < I.D ∧ I.conn r x.1 x.2.1 et = none then none else some (s ++ [⟨x.2.1, et, x.2.2.2.length⟩])
    | some q => if q.n ≠ x.2.2.2.length then none else some s

/-- `required_dim_et` and `num_entity_dofs_et`, L172-235. -/
def required (r : Nat) : Option (List Req) := (slots I).foldlM (scanStep I r) []

end scan

variable (I : Input) (R : List Req)

/-- `required_dim_et[k]` and `num_entity_dofs_et[k]`. -/
def req (k : Nat) : Req := R.getD k ⟨0, 0, 0⟩

/-- `num_entity_dofs_et[k]` -/
def nk (k : Nat) : Nat := (req R k).n

/-- `topo_index_maps[k]`, L207-208. -/
def wk (k : Nat) : World := I.maps (req R k).d (req R k).et

/-- `im->size_local() + im->num_ghosts()` -/
def nloc (r k : Nat) : Nat := (wk I R k).size r + ((wk I R k).ghosts r).length

/-- `local_entity_offsets[k]`, L175 and L209-211. -/
def loff (r k : Nat) : Nat := excl (fun k => nk R k * nloc I R r k) k

/-- The loop over the entities of one dimension of a cell, L325-352: writes (local dof, dof index).  The list has the
type and the dofs of each entity; `w` is the position in the links of the cell. -/
def entityWrites (off t : Nat) (links : List Nat) : Nat → List (Nat × List Nat) → List (Nat × Nat)
  | _, [] => []
  | w, x :: es =>
    if t = x.1 then
      (x.2.zipIdx.map fun p => (p.1, off + x.2.length * links.getD w 0 + p.2)) ++ entityWrites off t links (w + 1) es
    else entityWrites off t links w es

/-- Types and dofs of the entities of dimension `d` of cell type `i`: `e_types` and `e_dofs_d`. -/
def ents (i d : Nat) : List (Nat × List Nat) := ((I.layout i).getD d []).zipIdx.map fun p => (I.etype i d p.2, p.1)

/-- The writes for cell `c` of cell type `i`, L288-353: required entities without connectivity are skipped, and the
only entity of dimension `D` is the cell. -/
def cellWrites (r i c : Nat) : List (Nat × Nat) :=
  (List.range R.length).flatMap fun k =>
    let t := (I.types (req R k).d).getD (req R k).et 0
    if (req R k).d < I.D then
      match I.conn r i (req R k).d (req R k).et with
      | none => []
      | some cn => entityWrites (loff I R r k) t (cn.getD c []) 0 (ents I i (req R k).d)
    else entityWrites (loff I R r k) t [c] 0 (ents I i (req R k).d)

/-- `dofs_c` of cell `c`, L307-354. -/
def cellDofs (r i c : Nat) : List Nat :=
  (cellWrites I R r i c).foldl (fun a p => a.set p.1 p.2) (List.replicate (I.ndofs i) 0)

/-- Number of cells of type `i`, L260-261. -/
def numCells (r i : Nat) : Nat := (I.maps I.D i).size r + ((I.maps I.D i).ghosts r).length

/-- `dofs[i].array` -/
def dofArray (r i : Nat) : List Nat := (List.range (numCells I r i)).flatMap (cellDofs I R r i)

/-- `dof_entity`, L365-391. -/
def dofEntity (r : Nat) : List (Nat × Nat) :=
  (List.range R.length).flatMap fun k => (List.range (((wk I R k).map r).globalIndices).length).flatMap fun e =>
    (List.range (nk R k)).map fun _ => (k, e)

/-- `global_entity_offsets` before map `k`, L371 and L392. -/
def goff (r k : Nat) : Nat := excl (fun k => nk R k * ((wk I R k).map r).sizeGlobal) k

/-- `local_to_global`, L368-391. -/
def l2g (r : Nat) : List Nat :=
  (List.range R.length).flatMap fun k => ((wk I R k).map r).globalIndices.flatMap fun eg =>
    (List.range (nk R k)).map fun j => goff I R r k + nk R k * eg + j

/-- `global_start`, L372 and L393. -/
def procOffset (r : Nat) : Nat := excl (fun k => nk R k * ((wk I R k).map r).r0) R.length

/-- `e.second < offset[e.first]` -/
def isOwned (r : Nat) (e : Nat × Nat) : Bool := decide (e.2 < ((wk I R e.1).map r).sizeLocal)

/-- `owned_size`, L436-439. -/
def ownedSize (r : Nat) : Nat := (dofEntity I R r).foldl (fun a b => if isOwned I R r b then a + 1 else a) 0

/-- Body of the two numbering loops, L451-457 and L467-473. -/
def numStep (own : Nat → Bool) (s : List (Option Nat) × Nat × Nat) (o : Nat) : List (Option Nat) × Nat × Nat :=
  if s.1.getD o none = none then
    if own o then (s.1.set o (some s.2.1), s.2.1 + 1, s.2.2) else (s.1.set o (some s.2.2), s.2.1, s.2.2 + 1)
  else s

/-- `original_to_contiguous` before the reordering, L445-474. -/
def contiguous (r : Nat) : List (Option Nat) :=
  let own := fun o => isOwned I R r ((dofEntity I R r).getD o (0, 0))
  let s := ((List.range I.nct).flatMap (dofArray I R r)).foldl (numStep own)
    (List.replicate (dofEntity I R r).length none, 0, ownedSize I R r)
  ((List.range s.1.length).foldl (numStep own) s).1

/-- `node_temp` of a cell, L70-77 and L95-102. -/
def nodeTemp (r i c : Nat) : List Nat :=
  ((cellDofs I R r i c).map fun o => ((contiguous I R r).getD o none).getD 0).filter
    fun v => decide (v < ownedSize I R r)

/-- All cells in the order of the loops. -/
def cellNodes (r : Nat) : List (List Nat) :=
  (List.range I.nct).flatMap fun i => (List.range (numCells I r i)).map (nodeTemp I R r i)

/-- `num_edges`, L62-81. -/
def numEdges (m : Nat) (cells : List (List Nat)) : List Nat :=
  cells.foldl (fun a l => l.foldl (fun a v => a.modify v (· + (l.length - 1))) a) (List.replicate m 0)

/-- The edges written for a cell, L104-113. -/
def cellEdges : List Nat → List (Nat × Nat)
  | [] => []
  | a :: l => (l.flatMap fun b => [(a, b), (b, a)]) ++ cellEdges l

/-- `edges`, L83-114. -/
def edges (m : Nat) (cells : List (List Nat)) : List Nat :=
  (fill Prod.fst Prod.snd (excl fun v => (numEdges m cells).getD v 0)
    (List.replicate (excl (fun v => (numEdges m cells).getD v 0) m) 0) (cells.flatMap cellEdges)).2

/-- The graph passed to the reordering function, L116-136. -/
def dofGraph (m : Nat) (cells : List (List Nat)) : List (List Nat) :=
  (List.range m).map fun v => unique (sortNat (((edges m cells).drop (excl (fun v => (numEdges m cells).getD v 0) v)).take
    ((numEdges m cells).getD v 0)))

/-- `original_to_contiguous` as returned by `compute_reordering_map`, L476-489. -/
def oldToNew (r : Nat) : List Nat :=
  let o2c := (contiguous I R r).map fun x => x.getD 0
  match I.reorder r with
  | none => o2c
  | some f =>
    let remap := f (dofGraph (ownedSize I R r) (cellNodes I R r))
    o2c.map fun x => if x < ownedSize I R r then remap.getD x 0 else x

/-- `shared_entity[k]` as the list of the flagged entities, L520-532. -/
def sharedEntity (r k : Nat) : List Nat := (sharedIndices (wk I R k) r).getD []

/-- `global[k]`, L537-550. -/
def sendPairs (r k : Nat) : List (Nat × Nat) :=
  ((dofEntity I R r).zip ((l2g I R r).zip (oldToNew I R r))).filterMap fun x =>
    if x.1.1 = k ∧ x.1.2 < ((wk I R k).map r).sizeLocal ∧ x.1.2 ∈ sharedEntity I R r k
    then some (x.2.1, x.2.2 + procOffset I R r) else none

/-- `disp_recv[k]`, L569-581. -/
def dispRecv (r k : Nat) : List Nat :=
  pushSizes [0] (neighborAlltoall (wk I R k).dest (wk I R k).src
    (fun q => ((wk I R k).dest q).map fun _ => 2 * (sendPairs I R q k).length) r)

/-- `all_dofs_received[k]`, L584-589: every rank sends all its pairs to each neighbour. -/
def recvPairs (r k : Nat) : List (Nat × Nat) :=
  neighborAlltoallv (wk I R k).dest (wk I R k).src (fun q => ((wk I R k).dest q).map fun _ => sendPairs I R q k) r

/-- `global_old_new`, L618-629. -/
def globalOldNew (r k : Nat) : List (Nat × Nat × Nat) :=
  sort tripleLe ((recvPairs I R r k).zipIdx.map fun p =>
    (p.1.1, p.1.2, ((wk I R k).src r).getD (lowerBound (fun d => decide (d ≤ 2 * p.2)) (dispRecv I R r k) - 1) 0))

/-- The lookup L634-640. -/
def lookupNew (r k g : Nat) : Nat × Nat :=
  ((globalOldNew I R r k).getD (lowerBound (fun e => decide (e.1 < g)) (globalOldNew I R r k)) (0, 0, 0)).2

/-- The writes of the loop L631-645, with `local_new_to_global_old[k]` of L592-605. -/
def ghostWrites (r k : Nat) : List (Nat × (Nat × Nat)) :=
  ((dofEntity I R r).zip ((l2g I R r).zip (oldToNew I R r))).filterMap fun x =>
    if x.1.1 = k ∧ ownedSize I R r ≤ x.2.2 then some (x.2.2 - ownedSize I R r, lookupNew I R r k x.2.1) else none

/-- `local_to_global_new` and `local_to_global_new_owner`, L607-646. -/
def unownedDofs (r : Nat) : List (Nat × Nat) :=
  ((I.wait r).flatMap (ghostWrites I R r)).foldl (fun a p => a.set p.1 p.2)
    (List.replicate ((oldToNew I R r).length - ownedSize I R r) (0, 0))

/-- The index map built from the results of all ranks, L690-692. -/
def dofWorld : World where
  P := I.P
  size := ownedSize I R
  ghosts r := (unownedDofs I R r).map Prod.fst
  owners r := (unownedDofs I R r).map Prod.snd

/-- The renumbered dofmap of cell type `i`, L694-706. -/
def dofmap (r i : Nat) : List Nat := (dofArray I R r i).map fun o => (oldToNew I R r).getD o 0

end Verif.Dofmap
