import Verif.Model.Group
import Verif.Model.Offsets
import Verif.Model.LocalRange
/-!
# Post-office redistribution of row data

Model of `postoffice_plan` (`common/MPI.cpp` L330-398), `postoffice_exchange`,
`distribute_to_postoffice`, `distribute_from_postoffice` and `distribute_data`
(`common/MPI.h` L379-759).

A row (`shape[1]` consecutive numbers) is one element of type `α`.  `none` stands for a failed
assertion (a position that is `-1`).  Radix sorts are stable sorts (C03, C04).  The lists
returned by the overlapped NBX call are parameters: any order of the in-edges is allowed (C07).
`rank_offset` is an integer since it is `-1` on ranks outside `comm1`.
-/
namespace Verif.PostOffice
open Verif.Std Verif.Exchange Verif.Group Verif.Offsets Verif.LocalRange

variable {α : Type}

/-- `dest_to_index`, `MPI.cpp` L337-346: (post office, local row) of rows to send away. -/
def toSend (P r n N : Nat) (off : Int) : List (Nat × Nat) :=
  (List.range n).filterMap fun (i : Nat) =>
    let d := indexOwner P ((i : Int) + off).toNat N
    if d ≠ r then some (d, i) else none

/-- `postoffice_plan`, L352-397: destinations, rows per destination, and for every row the
position of its destination (`none` is `-1`). -/
def planRuns (P r n N : Nat) (off : Int) : List (Nat × List (Nat × Nat)) :=
  runs Prod.fst (sortBy Prod.fst (toSend P r n N off))

def planDest (P r n N : Nat) (off : Int) : List Nat := (planRuns P r n N off).map Prod.fst

def planNum (P r n N : Nat) (off : Int) : List Nat := (planRuns P r n N off).map fun p => p.2.length

def planPos (P r n N : Nat) (off : Int) : List (Option Nat) :=
  (planRuns P r n N off).zipIdx.foldl
    (fun m p => p.1.2.foldl (fun m e => m.set e.2 (some p.2)) m) (List.replicate n none)

/-- Pack loop of `postoffice_exchange`, `MPI.h` L405-425: write row `i` at
`send_offsets[neigh_dest]++`.  `val` picks the index or the data. -/
def packRows [Inhabited α] (num : List Nat) (pos : List (Option Nat)) (n : Nat) (val : Nat → α) : List α :=
  let items := (List.range n).filterMap fun i => (pos.getD i none).map fun b => (b, i)
  (fill Prod.fst (fun e => val e.2) (fun b => (num.take b).sum) (List.replicate num.sum default) items).2

/-- The distributed data: rows of each rank, their `rank_offset`, requests, and the NBX results. -/
structure Input (α : Type) where
  P : Nat
  N : Nat
  x : Nat → List α
  off : Nat → Int
  req : Nat → List Nat
  postSrc : Nat → List Nat
  dest : Nat → List Nat

variable [Inhabited α] (w : Input α)

def Input.sendDest (q : Nat) : List Nat := planDest w.P q (w.x q).length w.N (w.off q)

def Input.sendNum (q : Nat) : List Nat := planNum w.P q (w.x q).length w.N (w.off q)

def Input.sendPos (q : Nat) : List (Option Nat) := planPos w.P q (w.x q).length w.N (w.off q)

/-- Received global row numbers of the post office, L445-452. -/
def Input.postGlobal (r : Nat) : List Nat :=
  neighborAlltoallv w.sendDest w.postSrc
    (fun q => chunks (w.sendNum q)
      (packRows (w.sendNum q) (w.sendPos q) (w.x q).length fun i => ((i : Int) + w.off q).toNat)) r

/-- `post_indices`, L475-479: relative to the start of the post office range. -/
def Input.postIdx (r : Nat) : List Nat :=
  (w.postGlobal r).map fun g => g - (localRange r w.N w.P).1

/-- `post_x`, L455-465. -/
def Input.postX (r : Nat) : List α :=
  neighborAlltoallv w.sendDest w.postSrc
    (fun q => chunks (w.sendNum q)
      (packRows (w.sendNum q) (w.sendPos q) (w.x q).length fun i => (w.x q).getD i default)) r

/-- Row held from the start, L583-592 and L691-696. -/
def Input.holds (r g : Nat) : Bool :=
  decide (w.off r ≤ (g : Int) ∧ (g : Int) < w.off r + ((w.x r).length : Int))

/-- `src_to_index`, L524-533: (post office, row, position in the request list). -/
def Input.requests (r : Nat) : List (Nat × Nat × Nat) :=
  (w.req r).zipIdx.filterMap fun p =>
    if w.holds r p.1 then none
    else if indexOwner w.P p.1 w.N ≠ r then some (indexOwner w.P p.1 w.N, p.1, p.2) else none

def Input.sorted (r : Nat) : List (Nat × Nat × Nat) := sortBy Prod.fst (w.requests r)

/-- `src` and `num_items_per_src`, L551-565. -/
def Input.src (r : Nat) : List Nat := (runs Prod.fst (w.sorted r)).map Prod.fst

def Input.numSrc (r : Nat) : List Nat := (runs Prod.fst (w.sorted r)).map fun p => p.2.length

/-- `num_items_recv`, L597-601. -/
def Input.numRecv (r : Nat) : List Nat := neighborAlltoall w.src w.dest w.numSrc r

/-- `recv_buffer_index`, L615-625. -/
def Input.recvIndex (r : Nat) : List Nat :=
  neighborAlltoallv w.src w.dest (fun q => chunks (w.numSrc q) ((w.sorted q).map fun e => e.2.1)) r

/-- `post_indices_map`, L636-645. -/
def Input.postMap (r : Nat) : Nat → Option Nat :=
  (w.postIdx r).zipIdx.foldl (fun m p => fun k => if k = p.1 then some p.2 else m k) (fun _ => none)

/-- Read a row from `x` or from the post bag, L650-667 (and L698-716 for own requests). -/
def Input.fetch (r g : Nat) : Option α :=
  if w.holds r g then (w.x r)[((g : Int) - w.off r).toNat]?
  else
    match w.postMap r (g - (localRange r w.N w.P).1) with
    | some pos => (w.postX r)[pos]?
    | none => none

/-- Send buffer of the post office, L648-668; one entry per received request. -/
def Input.replyBuf (r : Nat) : List (Option α) := (w.recvIndex r).map (w.fetch r)

/-- `recv_buffer_data`, L679-684. -/
def Input.recvData (r : Nat) : List (Option α) :=
  neighborAlltoallv w.dest w.src (fun s => chunks (w.numRecv s) (w.replyBuf s)) r

/-- `index_pos_to_buffer`, L691-693. -/
def Input.posToBuffer (r : Nat) : Nat → Option Nat :=
  (w.sorted r).zipIdx.foldl (fun m p => fun k => if k = p.1.2.2 then some p.2 else m k) (fun _ => none)

/-- Final loop, L696-727. -/
def Input.row (r : Nat) (g i : Nat) : Option α :=
  if w.holds r g then (w.x r)[((g : Int) - w.off r).toNat]?
  else
    match w.posToBuffer r i with
    | some pos => ((w.recvData r)[pos]?).join
    | none => w.fetch r g

/-- `distribute_from_postoffice`, L503-730: the result on rank `r`. -/
def Input.distribute (r : Nat) : Option (List α) := (w.req r).zipIdx.mapM fun p => w.row r p.1 p.2

/-- `distribute_data`, L732-759: `comm1` is the list of its ranks (numbered in `comm0`) in order.
`none` on a rank outside `comm1` that has data ("Non-empty data on null MPI communicator"). -/
def distributeData (P : Nat) (comm1 : List Nat) (x : Nat → List α) (req postSrc dest : Nat → List Nat)
    (r : Nat) : Option (List α) :=
  if r ∉ comm1 ∧ x r ≠ [] then none
  else
    Input.distribute
      { P := P, N := ((List.range P).map fun q => (x q).length).sum, x := x,
        off := fun q => if q ∈ comm1 then (((comm1.takeWhile (· != q)).map fun p => (x p).length).sum : Nat) else -1,
        req := req, postSrc := postSrc, dest := dest } r

end Verif.PostOffice
