import Verif.Model.World
import Verif.Model.Exchange
/-!
# `common::stack_index_maps`

Model of `cpp/dolfinx/common/IndexMap.cpp` L656-822.  `maps[m]` is `w m` with block size `bs m`,
`m < M`; all on the same `P` ranks.  Arrays that are resized and then written are lists of
`Option` so that an entry that is never written is visible.
-/
namespace Verif.StackMaps
open Verif.Std Verif.Exchange Verif.World Verif.Offsets

structure Maps where
  P : Nat
  M : Nat
  w : Nat → World
  bs : Nat → Nat

variable (s : Maps)

/-- `process_offset`, L663-667. -/
def Maps.processOffset (r : Nat) : Nat :=
  (List.range s.M).foldl (fun c m => c + (s.w m).r0 r * s.bs m) 0

/-- `local_offset[m]`, L670-675 (partial sums of `local_sizes`). -/
def Maps.localOffset (r m : Nat) : Nat := excl (fun i => s.bs i * (s.w i).size r) m

/-- `src`: sorted union of the maps' source ranks, L678-688. -/
def Maps.src (r : Nat) : List Nat := unique (sortNat ((List.range s.M).flatMap fun m => (s.w m).src r))

/-- `dest`, L679-689. -/
def Maps.dest (r : Nat) : List Nat := unique (sortNat ((List.range s.M).flatMap fun m => (s.w m).dest r))

/-- `v[r].push_back(x)` for a list of `(r, x)`. -/
def pushAll {β : Type} (n : Nat) (items : List (Nat × β)) : List (List β) :=
  items.foldl (fun v p => v.modify p.1 (· ++ [p.2])) (List.replicate n [])

/-- Bucket of ghost `i` of map `m`, L731-733. -/
def Maps.bucket (m r i : Nat) : Nat :=
  lowerBound (fun x => decide (x < ((s.w m).owners r).getD i 0)) (s.src r)

/-- `ghost_by_rank`, L727-736. -/
def Maps.ghostByRank (m r : Nat) : List (List Nat) :=
  pushAll (s.src r).length ((List.range ((s.w m).ghosts r).length).map fun i =>
    (s.bucket m r i, ((s.w m).ghosts r).getD i 0))

/-- `pos_to_ghost`, L728-737. -/
def Maps.posToGhost (m r : Nat) : List (List Nat) :=
  pushAll (s.src r).length ((List.range ((s.w m).ghosts r).length).map fun i => (s.bucket m r i, i))

/-- `send_sizes`, L740-741. -/
def Maps.sendSizes (m r : Nat) : List Nat := (s.ghostByRank m r).map List.length

/-- `recv_sizes`, L752-757. -/
def Maps.recvSizes (m r : Nat) : List Nat := neighborAlltoall s.src s.dest (s.sendSizes m) r

/-- `recv_indices`, L768-774. -/
def Maps.recvIndices (m r : Nat) : List Nat :=
  neighborAlltoallv s.src s.dest (fun q => chunks (s.sendSizes m q) (s.ghostByRank m q).flatten) r

/-- `ghost_old_to_new`, L778-787. -/
def Maps.oldToNew (m r : Nat) : List Nat :=
  (s.recvIndices m r).map fun idx => s.bs m * (idx - (s.w m).r0 r) + (s.localOffset r m + s.processOffset r)

/-- `ghosts_new_idx`, L790-795. -/
def Maps.newIdx (m r : Nat) : List Nat :=
  neighborAlltoallv s.dest s.src (fun q => chunks (s.recvSizes m q) (s.oldToNew m q)) r

/-- The writes of the unpack loop L802-814 in order: position, new index, owner. -/
def Maps.writes (m r : Nat) : List (Nat × Nat × Nat) :=
  ((s.src r).zip (chunks (s.sendSizes m r) ((s.posToGhost m r).flatten.zip (s.newIdx m r)))).flatMap fun b =>
    b.2.flatMap fun x => (List.range (s.bs m)).map fun k => (s.bs m * x.1 + k, x.2 + k, b.1)

/-- `ghosts_new[m]`, L798-812. -/
def Maps.ghostsNew (m r : Nat) : List (Option Nat) :=
  ((s.writes m r).map fun x => (x.1, x.2.1)).foldl (fun a e => a.set e.1 (some e.2))
    (List.replicate (s.bs m * ((s.w m).ghosts r).length) none)

/-- `ghost_owners_new[m]`, L800-813. -/
def Maps.ownersNew (m r : Nat) : List (Option Nat) :=
  ((s.writes m r).map fun x => (x.1, x.2.2)).foldl (fun a e => a.set e.1 (some e.2))
    (List.replicate (s.bs m * ((s.w m).ghosts r).length) none)

end Verif.StackMaps
