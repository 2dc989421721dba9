import Verif.Model.SharedIndices
import Verif.Model.StackMaps
/-!
# `common::create_sub_index_map`

Model of `cpp/dolfinx/common/IndexMap.cpp`: `communicate_ghosts_to_owners` L79-157,
`compute_submap_indices` L178-447, `compute_submap_ghost_indices` L462-536 and
`create_sub_index_map` L824-862.

Simplifications: `is_in_submap` is list membership; arrays are lists of naturals; the exception
is the separate function `throws`, the other functions describe the ranks when nobody throws.
-/
namespace Verif.SubMap
open Verif.Std Verif.Exchange Verif.World Verif.Shared Verif.StackMaps Verif.Offsets

/-! ## `communicate_ghosts_to_owners` -/

/-- Arguments of `communicate_ghosts_to_owners` on all ranks. -/
structure Comm where
  src : Nat → List Nat
  dest : Nat → List Nat
  ghosts : Nat → List Nat
  owners : Nat → List Nat
  incl : Nat → Nat → Bool

variable {β : Type}

/-- Buckets `send_data` / `pos_to_ghost`, L99-113. -/
def Comm.pack (c : Comm) (f : Nat → β) (r : Nat) : List (List β) :=
  pushAll (c.src r).length (((List.range (c.ghosts r).length).filter (c.incl r)).map fun i =>
    (lowerBound (fun x => decide (x < (c.owners r).getD i 0)) (c.src r), f i))

/-- `send_data`. -/
def Comm.sendData (c : Comm) (r : Nat) : List (List Nat) := c.pack (fun i => (c.ghosts r).getD i 0) r

/-- `send_sizes`, L115-117. -/
def Comm.sendSizes (c : Comm) (r : Nat) : List Nat := (c.sendData r).map List.length

/-- `ghost_buffer_pos`, L131-132. -/
def Comm.bufferPos (c : Comm) (r : Nat) : List Nat := (c.pack (fun i => i) r).flatten

/-- `recv_sizes`, L121-126. -/
def Comm.recvSizes (c : Comm) (r : Nat) : List Nat := neighborAlltoall c.src c.dest c.sendSizes r

/-- `recv_indices`, L143-148. -/
def Comm.recvIndices (c : Comm) (r : Nat) : List Nat :=
  neighborAlltoallv c.src c.dest (fun q => chunks (c.sendSizes q) (c.sendData q).flatten) r

/-- The received data, block by block (`recv_disp`). -/
def Comm.recvBlocks (c : Comm) (r : Nat) : List (List Nat) := chunks (c.recvSizes r) (c.recvIndices r)

/-- Answers to the received indices, sent back along the reverse edges with the receive sizes as
send sizes. -/
def Comm.reply (c : Comm) (ans : Nat → Nat → Nat) (r : Nat) : List Nat :=
  neighborAlltoallv c.dest c.src (fun s => chunks (c.recvSizes s) ((c.recvIndices s).map (ans s))) r

/-! ## `compute_submap_indices` -/

/-- Parent map, chosen local indices of every rank and the ghost order. -/
structure Input where
  w : World
  ind : Nat → List Nat
  preserve : Bool

variable (s : Input)

/-- Step 1, L190-198. -/
def Input.comm1 : Comm :=
  { src := s.w.src, dest := s.w.dest, ghosts := s.w.ghosts, owners := s.w.owners,
    incl := fun r i => decide (s.w.size r + i ∈ s.ind r) }

/-- `is_in_submap[idx_local]` for a received global index. -/
def Input.keeps (r idx : Nat) : Bool := decide (idx - s.w.r0 r ∈ s.ind r)

/-- `owners_changed`, L216-246, with owner change disallowed: the rank throws. -/
def Input.throws (r : Nat) : Bool := (s.comm1.recvBlocks r).any fun b => b.any fun idx => !s.keeps r idx

/-- `global_idx_to_possible_owner`, sorted, L219-252. -/
def Input.possible (r : Nat) : List (Nat × Nat) :=
  lexSort (((s.w.dest r).zip (s.comm1.recvBlocks r)).flatMap fun p =>
    p.2.map fun idx => (idx, if s.keeps r idx then r else p.1))

/-- First part of `submap_dest`, L240. -/
def Input.keptDest (r : Nat) : List Nat :=
  ((s.w.dest r).zip (s.comm1.recvBlocks r)).flatMap fun p => (p.2.filter (s.keeps r)).map fun _ => p.1

/-- Position of the `lower_bound` L275-277. -/
def Input.firstPos (r idx : Nat) : Nat := lowerBound (fun e => decide (e.1 < idx)) (s.possible r)

/-- The chosen owner `it->second`, L279. -/
def Input.chosen (r idx : Nat) : Nat := (((s.possible r)[s.firstPos r idx]?).getD (0, 0)).2

/-- `[next(it), it_upper)`, L286-292. -/
def Input.others (r idx : Nat) : List Nat :=
  let tail := (s.possible r).drop (s.firstPos r idx)
  ((tail.take (lowerBound (fun e => decide (e.1 ≤ idx)) tail)).tail).map Prod.snd

/-- `new_owner_dest_ranks` of each block after sort and unique, L266-315. -/
def Input.newOwnerDest (r : Nat) : List (List Nat) :=
  ((s.w.dest r).zip (s.comm1.recvBlocks r)).map fun p =>
    unique (sortNat (p.2.flatMap fun idx => if s.chosen r idx = p.1 then s.others r idx else []))

/-- `recv_owners`, L325-330. -/
def Input.recvOwners (r : Nat) : List Nat := s.comm1.reply s.chosen r

/-- `submap_dest`, L332-360. -/
def Input.subDest (r : Nat) : List Nat :=
  unique (sortNat (s.keptDest r ++
    neighborAlltoallv s.w.dest s.w.src
      (fun q => chunks ((s.newOwnerDest q).map List.length) (s.newOwnerDest q).flatten) r))

/-- `send_indices_local` with `recv_owners`, L391-405. -/
def Input.pairs (r : Nat) : List (Nat × Nat) :=
  ((s.comm1.sendData r).flatten.map fun (g : Nat) => ((s.w.map r).globalToLocal (g : Int)).toNat).zip (s.recvOwners r)

/-- `submap_owned`, L386-414. -/
def Input.subOwned (r : Nat) : List Nat :=
  sortNat ((s.ind r).filter (fun i => decide (i < s.w.size r)) ++
    ((s.pairs r).filter fun p => decide (p.2 = r)).map Prod.fst)

/-- `submap_ghost` with `submap_ghost_owners` before reordering, L405-413. -/
def Input.ghost0 (r : Nat) : List (Nat × Nat) := (s.pairs r).filter fun p => decide (p.2 ≠ r)

/-- After the optional reordering, L425-446. -/
def Input.ghost (r : Nat) : List (Nat × Nat) :=
  if s.preserve then
    (lexSort ((s.ghost0 r).map Prod.fst).zipIdx).map fun p => (s.ghost0 r).getD p.2 (0, 0)
  else s.ghost0 r

/-- `submap_src`, L417-422. -/
def Input.subSrc (r : Nat) : List Nat := unique (sortNat ((s.ghost0 r).map Prod.snd))

/-! ## `compute_submap_ghost_indices` and the result -/

/-- `submap_ghost_global`, L843-844 (`local_to_global`). -/
def Input.ghostGlobal (r : Nat) : List Nat := (s.ghost r).map fun p => ((s.w.map r).localToGlobal p.1).getD 0

/-- Step 1, L473-479. -/
def Input.comm2 : Comm :=
  { src := s.subSrc, dest := s.subDest, ghosts := s.ghostGlobal, owners := fun r => (s.ghost r).map Prod.snd,
    incl := fun _ _ => true }

/-- `submap_offset`, L836-840 (`MPI_Exscan`). -/
def Input.offset (r : Nat) : Nat := excl (fun q => (s.subOwned q).length) r

/-- Step 2, L484-506. -/
def Input.newNumber (r idx : Nat) : Nat :=
  lowerBound (fun x => decide (x < ((s.w.map r).globalToLocal (idx : Int)).toNat)) (s.subOwned r) + s.offset r

/-- Step 4, L530-533: `ghost_submap_gidx`. -/
def Input.ghostIdx (r : Nat) : List (Option Nat) :=
  ((s.comm2.bufferPos r).zip (s.comm2.reply s.newNumber r)).foldl (fun a e => a.set e.1 (some e.2))
    (List.replicate (s.ghost r).length none)

/-- `sub_imap_to_imap`, L850-855. -/
def Input.toParent (r : Nat) : List Nat := s.subOwned r ++ (s.ghost r).map Prod.fst

/-- The new index map over all ranks, L857-859. -/
def Input.sub : World :=
  { P := s.w.P, size := fun r => (s.subOwned r).length, ghosts := fun r => (s.ghostIdx r).map fun x => x.getD 0,
    owners := fun r => (s.ghost r).map Prod.snd }

end Verif.SubMap
