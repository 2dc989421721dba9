import Verif.Model.World
import Verif.Model.Exchange
import Verif.Model.Group
import Verif.Model.AdjacencyList
/-!
# `compute_owned_indices`, `shared_indices`, `index_to_dest_ranks`

Model of `cpp/dolfinx/common/IndexMap.cpp` L539-654, L1254-1335 and L1022-1252.
Simplifications: local and global indices are naturals; a record of two consecutive 64-bit
integers in a message is one pair; a failed assertion is `none`.
-/
namespace Verif.Shared
open Verif.Std Verif.Exchange Verif.World Verif.Group

/-- `operator<=` of `std::pair`. -/
def lexLe (a b : Nat × Nat) : Bool := decide (a.1 < b.1 ∨ (a.1 = b.1 ∧ a.2 ≤ b.2))

/-- `std::ranges::sort` of pairs. -/
def lexSort (l : List (Nat × Nat)) : List (Nat × Nat) := sort lexLe l

/-! ## `compute_owned_indices` -/

/-- `it_owned_end`, L550-551, as a position. -/
def ownedEnd (w : World) (ind : Nat → List Nat) (r : Nat) : Nat :=
  lowerBound (fun i => decide (i < w.size r)) (ind r)

/-- `owner_to_global` after sorting, L557-568. -/
def ownerToGlobal (w : World) (ind : Nat → List Nat) (r : Nat) : List (Nat × Nat) :=
  lexSort (((ind r).drop (ownedEnd w ind r)).map fun idx =>
    ((w.owners r).getD (idx - w.size r) 0, (w.ghosts r).getD (idx - w.size r) 0))

/-- The `send_sizes` loop L577-593 (`find`, then `upper_bound`). -/
def sizesLoop : List Nat → List (Nat × Nat) → List Nat
  | [], _ => []
  | o :: src, rest =>
    let b := rest.dropWhile fun e => decide (e.1 ≠ o)
    let n := lowerBound (fun e => decide (e.1 ≤ o)) b
    n :: sizesLoop src (if n = 0 then rest else b.drop n)

/-- `recv_buffer`, L595-628. -/
def ownedRecv (w : World) (ind : Nat → List Nat) (r : Nat) : List Nat :=
  neighborAlltoallv w.src w.dest (fun q =>
    chunks (sizesLoop (w.src q) (ownerToGlobal w ind q)) ((ownerToGlobal w ind q).map Prod.snd)) r

/-- The checks and conversion of a received global index, L641-646 and L1320-1326. -/
def toLocal (w : World) (r g : Nat) : Option Nat :=
  if w.r0 r ≤ g ∧ g < w.r0 r + w.size r then some (g - w.r0 r) else none

/-- `compute_owned_indices`, L539-654. -/
def computeOwned (w : World) (ind : Nat → List Nat) (r : Nat) : Option (List Nat) :=
  ((unique (sortNat (ownedRecv w ind r))).mapM (toLocal w r)).map fun rec =>
    unique (sortNat ((ind r).take (ownedEnd w ind r) ++ rec))

/-! ## `shared_indices` -/

/-- `owner_to_ghost`, L1261-1266 and L1042-1046. -/
def ownerToGhost (w : World) (r : Nat) : List (Nat × Nat) := lexSort ((w.owners r).zip (w.ghosts r))

/-- The counting loop L1276-1287, with `upper_bound`.  The fuel is the length. -/
def runSizesUb : Nat → List (Nat × Nat) → List Nat
  | 0, _ => []
  | _, [] => []
  | fuel + 1, a :: l =>
    let n := lowerBound (fun e => decide (e.1 ≤ a.1)) (a :: l)
    n :: runSizesUb fuel ((a :: l).drop n)

/-- `recv_buffer`, L1289-1314. -/
def sharedRecv (w : World) (r : Nat) : List Nat :=
  neighborAlltoallv w.src w.dest (fun q =>
    chunks (runSizesUb (ownerToGhost w q).length (ownerToGhost w q)) ((ownerToGhost w q).map Prod.snd)) r

/-- `shared_indices`, L1254-1335. -/
def sharedIndices (w : World) (r : Nat) : Option (List Nat) :=
  ((sharedRecv w r).mapM (toLocal w r)).map fun l => unique (sortNat l)

/-! ## `index_to_dest_ranks` -/

/-- `send_sizes`, L1056-1066: runs of equal owner. -/
def sendSizes (w : World) (q : Nat) : List Nat :=
  (runs Prod.fst (ownerToGhost w q)).map fun p => p.2.length

/-- `recv_sizes`, L1076-1081. -/
def recvSizes (w : World) (r : Nat) : List Nat := neighborAlltoall w.src w.dest (sendSizes w) r

/-- `recv_buffer`, L1088-1095. -/
def recvGhosts (w : World) (r : Nat) : List Nat :=
  neighborAlltoallv w.src w.dest (fun q => chunks (sendSizes w q) ((ownerToGhost w q).map Prod.snd)) r

/-- `idx_to_rank`: (local index, position of the ghosting rank in `dest`), L1099-1109. -/
def idxToRank (w : World) (r : Nat) : List (Nat × Nat) :=
  lexSort ((chunks (recvSizes w r) (recvGhosts w r)).zipIdx.flatMap fun p => p.1.map fun g => (g - w.r0 r, p.2))

/-- The offset loops L1118-1129 and L1229-1236: for each `i` in turn, the number of leading
pairs with first component `i`, which are then skipped. -/
def rowSizes : List Nat → List (Nat × Nat) → List Nat
  | [], _ => []
  | i :: is, l =>
    let n := (l.takeWhile fun e => decide (e.1 = i)).length
    n :: rowSizes is (l.drop n)

/-- `offsets` after a list of row sizes has been pushed. -/
def pushSizes (o : List Nat) (sizes : List Nat) : List Nat :=
  sizes.foldl (fun o n => o ++ [o.getLast?.getD 0 + n]) o

/-- Offsets of the owned rows. -/
def ownedOffsets (w : World) (r : Nat) : List Nat := pushSizes [0] (rowSizes (List.range (w.size r)) (idxToRank w r))

/-- The `ranks` span of row `n`, L1147-1148 (positions in `dest`). -/
def ranksOf (w : World) (r n : Nat) : List Nat :=
  (((idxToRank w r).map Prod.snd).drop ((ownedOffsets w r).getD n 0)).take
    ((ownedOffsets w r).getD (n + 1) 0 - (ownedOffsets w r).getD n 0)

/-- The pushes of the loop L1145-1163, in order: (target position, (global index, rank)). -/
def pushes (w : World) (r : Nat) : List (Nat × (Nat × Nat)) :=
  (List.range (w.size r)).flatMap fun n => (ranksOf w r n).flatMap fun a =>
    (((ranksOf w r n).filter fun b => decide (a ≠ b)).map fun b => (a, (n + w.r0 r, (w.dest r).getD b 0)))
      ++ [(a, (n + w.r0 r, r))]

/-- `dest_idx_to_rank`, L1144-1163. -/
def destIdxToRank (w : World) (r : Nat) : List (List (Nat × Nat)) :=
  (pushes w r).foldl (fun v p => v.modify p.1 (· ++ [p.2])) (List.replicate (w.dest r).length [])

/-- `recv_indices`, L1166-1199. -/
def recvShared (w : World) (r : Nat) : List (Nat × Nat) := neighborAlltoallv w.dest w.src (destIdxToRank w) r

/-- `idx_to_pos`, L1203-1210. -/
def idxToPos (w : World) (r : Nat) : List (Nat × Nat) := lexSort (w.ghosts r).zipIdx

/-- Position of a received ghost index, L1217-1221. -/
def posOf (w : World) (r g : Nat) : Option Nat :=
  match (idxToPos w r)[lowerBound (fun e => decide (e.1 < g)) (idxToPos w r)]? with
  | some e => if e.1 = g then some e.2 else none
  | none => none

/-- `idxpos_to_rank`, L1212-1225. -/
def idxposToRank (w : World) (r : Nat) : Option (List (Nat × Nat)) :=
  ((recvShared w r).mapM fun p => (posOf w r p.1).map fun k => (k, p.2)).map lexSort

/-- `index_to_dest_ranks`, L1022-1252: data and offsets. -/
def indexToDestRanks (w : World) (r : Nat) : Option (List Nat × List Nat) :=
  (idxposToRank w r).map fun l =>
    ((idxToRank w r).map (fun x => (w.dest r).getD x.2 0) ++ l.map Prod.snd,
     pushSizes (ownedOffsets w r) (rowSizes (List.range (w.ghosts r).length) l))

end Verif.Shared
