import Verif.Model.StdAlg
import Verif.Model.Exchange
import Verif.Model.Offsets
/-!
# `graph::build::compute_ghost_indices`

Model of `cpp/dolfinx/graph/partition.cpp` L405-575.  Hash maps are functions to `Option`;
`emplace`/`insert` keep an existing entry.  The PCX result is a parameter (any order, C08).
A failed assertion (value not found) is `none`.
-/
namespace Verif.GhostIdx
open Verif.Std Verif.Exchange Verif.Offsets

/-- State of the neighbour search: `neighbors`, `ghost_index_count`, `proc_to_neighbor`. -/
structure Nbrs where
  neighbors : List Nat
  count : List Nat
  map : Nat → Option Nat

/-- Body of the loop L433-445. -/
def nbrStep (s : Nbrs) (p : Nat) : Nbrs :=
  match s.map p with
  | some j => { s with count := s.count.modify j (· + 1) }
  | none =>
    { neighbors := s.neighbors ++ [p],
      count := (s.count ++ [0]).modify s.neighbors.length (· + 1),
      map := fun x => if x = p then some s.neighbors.length else s.map x }

def nbrs (owners : List Nat) : Nbrs := owners.foldl nbrStep ⟨[], [], fun _ => none⟩

/-- `send_data`, L461-483. -/
def sendData (ghosts owners : List Nat) : List Nat :=
  let s := nbrs owners
  (fill (fun e : Nat × Nat => (s.map e.1).getD 0) Prod.snd (fun b => (s.count.take b).sum)
    (List.replicate s.count.sum 0) (owners.zip ghosts)).2

/-- `emplace` of a list of pairs. -/
def emplaceAll {α : Type} (l : List (Nat × α)) : Nat → Option α :=
  l.foldl (fun m p => fun x => if x = p.1 ∧ (m x).isNone then some p.2 else m x) (fun _ => none)

/-- Old to new number on the owner, hash map path L533-555. -/
def newIndexHash (owned : List Nat) (offset g : Nat) : Option Nat :=
  emplaceAll (owned.zipIdx.map fun p => (p.1, offset + p.2)) g

/-- Sorted array path, L507-531. -/
def newIndexSorted (owned : List Nat) (offset g : Nat) : Option Nat :=
  let a := sort (fun x y : Nat × Nat => decide (x.1 < y.1 ∨ (x.1 = y.1 ∧ x.2 ≤ y.2)))
    (owned.zipIdx.map fun p => (p.1, offset + p.2))
  match a[lowerBound (fun e => decide (e.1 < g)) a]? with
  | some e => if e.1 = g then some e.2 else none
  | none => none

/-- All ranks' arguments and the PCX results. -/
structure Input where
  P : Nat
  owned : Nat → List Nat
  ghosts : Nat → List Nat
  owners : Nat → List Nat
  inEdges : Nat → List Nat
  threaded : Bool

variable (w : Input)

def Input.outs (q : Nat) : List Nat := (nbrs (w.owners q)).neighbors

/-- `offset_local`, L415-419. -/
def Input.offset (r : Nat) : Nat := excl (fun q => (w.owned q).length) r

/-- `recv_sizes`, L485-491. -/
def Input.recvSizes (r : Nat) : List Nat :=
  neighborAlltoall w.outs w.inEdges (fun q => (nbrs (w.owners q)).count) r

/-- `recv_data`, L493-502. -/
def Input.recvData (r : Nat) : List Nat :=
  neighborAlltoallv w.outs w.inEdges
    (fun q => chunks (nbrs (w.owners q)).count (sendData (w.ghosts q) (w.owners q))) r

/-- Replacement of the received values, L507-556. -/
def Input.replies (r : Nat) : List (Option Nat) :=
  (w.recvData r).map fun g =>
    if w.threaded then newIndexSorted (w.owned r) (w.offset r) g else newIndexHash (w.owned r) (w.offset r) g

/-- `new_recv`, L558-562. -/
def Input.newRecv (r : Nat) : List (Option Nat) :=
  neighborAlltoallv w.inEdges w.outs (fun s => chunks (w.recvSizes s) (w.replies s)) r

/-- L566-574. -/
def Input.result (r : Nat) : Option (List Nat) :=
  (w.ghosts r).mapM fun g =>
    (emplaceAll ((sendData (w.ghosts r) (w.owners r)).zip (w.newRecv r)) g).join

end Verif.GhostIdx
