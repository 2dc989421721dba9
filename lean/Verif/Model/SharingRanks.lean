import Verif.Model.SharedIndices
import Verif.Model.LocalRange
/-!
# Ranks that share an index

Model of `determine_sharing_ranks`, `cpp/dolfinx/mesh/Topology.cpp` L49-294, on all ranks of a communicator.

Indices are naturals.  They are sent as `int` (L143-144): the 32 low bits are kept, as a natural number; the order of
negative values relative to positive ones only changes the order in which random numbers are drawn.  The random number
generator (L172) is an arbitrary function.  The list of source ranks is the sorted result of NBX (C07).  Buffer entries
that belong to one position are a row.
-/
namespace Verif.Sharing
open Verif.Std Verif.Exchange Verif.Group Verif.Shared Verif.LocalRange

/-- Arguments on every rank; `pick r g n` is the number drawn on rank `r` for group `g` of `n` entries. -/
structure Input where
  P : Nat
  ind : Nat → List Nat
  pick : Nat → Nat → Nat → Nat
  threaded : Bool

variable (I : Input)

/-- `global_range`, L55-61. -/
def range : Nat := ((List.range I.P).map fun q => (I.ind q).foldl max 0).foldl max 0 + 1

/-- `dest_to_index` before sorting, L64-72: (destination, position). -/
def items (r : Nat) : List (Nat × Nat) :=
  (I.ind r).zipIdx.map fun p => (indexOwner I.P p.1 (range I), p.2)

/-- `dest_to_index`, L73-86: all threads sort the pairs, one thread sorts by the destination (C03). -/
def destToIndex (r : Nat) : List (Nat × Nat) :=
  if I.threaded then lexSort (items I r) else sortBy Prod.fst (items I r)

/-- The loop L93-109. -/
def destRuns (r : Nat) : List (Nat × List (Nat × Nat)) := runs Prod.fst (destToIndex I r)

/-- `dest`. -/
def dest (r : Nat) : List Nat := (destRuns I r).map Prod.fst

/-- `num_items_per_dest0`. -/
def numPerDest (r : Nat) : List Nat := (destRuns I r).map fun p => p.2.length

/-- `src`, L113-114. -/
def src (r : Nat) : List Nat := (List.range I.P).filter fun q => decide (r ∈ dest I q)

/-- `static_cast<int>` of a 64-bit index. -/
def trunc (v : Nat) : Nat := v % 2 ^ 32

/-- `send_buffer0`, L141-144. -/
def sendBuffer (r : Nat) : List Nat := (destToIndex I r).map fun x => trunc ((I.ind r).getD x.2 0)

/-- `num_items_recv0`, L129-133. -/
def numRecv (r : Nat) : List Nat := neighborAlltoall (dest I) (src I) (numPerDest I) r

/-- `recv_buffer0`, L147-151. -/
def recvBuffer (r : Nat) : List Nat :=
  neighborAlltoallv (dest I) (src I) (fun q => chunks (numPerDest I q) (sendBuffer I q)) r

/-- A received index, its position in the receive buffer, and the position of its source. -/
structure Rec where
  key : Nat
  pos : Nat
  p : Nat
deriving DecidableEq, Repr

/-- `indices_list` before sorting, L158-162. -/
def received (r : Nat) : List Rec :=
  (((chunks (numRecv I r) (recvBuffer I r)).zipIdx.flatMap fun b => b.1.map fun k => (k, b.2)).zipIdx).map
    fun x => ⟨x.1.1, x.2, x.1.2⟩

/-- `indices_list` cut into groups of equal index, L163 and L172-182.  Positions ascend in the unsorted list, so
sorting the triples sorts by the index and keeps the order of equal ones. -/
def groups (r : Nat) : List (Nat × List Rec) := runs Rec.key (sortBy Rec.key (received I r))

/-- `it_owner`, L184-191: the source position of the owner. -/
def ownerPos (r g : Nat) (l : List Rec) : Nat :=
  ((l[if l.length > 1 then I.pick r g l.length else 0]?).map Rec.p).getD 0

/-- `std::iter_swap` of the first entry and the first occurrence of `x`, L242-244; without occurrence an assertion
fails and nothing is swapped. -/
def swapFirst (l : List Nat) (x : Nat) : List Nat :=
  match l[l.idxOf x]?, l with
  | some _, a :: _ => (l.set (l.idxOf x) a).set 0 x
  | _, _ => l

/-- The row of the answer, L232-244. -/
def answer (r g : Nat) (l : List Rec) : List Nat :=
  l.length :: swapFirst (l.map fun x => (src I r).getD x.p 0) ((src I r).getD (ownerPos I r g l) 0)

/-- `send_buffer1`, L213-247, one row per received position. -/
def answers (r : Nat) : List (List Nat) :=
  (groups I r).zipIdx.foldl (fun rows g => g.1.2.foldl (fun rows x => rows.set x.pos (answer I r g.2 g.1.2)) rows)
    (List.replicate (recvBuffer I r).length [])

/-- `num_items_per_dest1`, L193-199. -/
def answerSizes (r : Nat) : List Nat :=
  (groups I r).foldl (fun c g => g.2.foldl (fun c x => c.modify x.p (· + (g.2.length + 1))) c)
    (List.replicate (src I r).length 0)

/-- `recv_buffer1`, L249-273. -/
def recvAnswers (r : Nat) : List Nat :=
  neighborAlltoallv (src I) (dest I) (fun q => chunks (answerSizes I q) (answers I q).flatten) r

/-- The unpacking loop, L276-291.  The fuel is the length of the buffer. -/
def unpack : Nat → List Nat → List (List Nat)
  | 0, _ => []
  | _, [] => []
  | fuel + 1, n :: l => l.take n :: unpack fuel (l.drop n)

/-- `determine_sharing_ranks`: row `i` are the ranks that share index `i`, the owner first. -/
def sharingRanks (r : Nat) : List (List Nat) := unpack (recvAnswers I r).length (recvAnswers I r)

end Verif.Sharing
