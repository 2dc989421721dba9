import Verif.Model.World
import Verif.Model.Exchange
/-!
# `common::Scatterer` and `la::Vector` scatter operations

Model of `cpp/dolfinx/common/Scatterer.h` L65-198, L251-349 and
`cpp/dolfinx/la/Vector.h` L61-114, L222-379.  Local arrays are functions from
positions to values.  `radix_sort` of the ghost positions by owner is a stable
sort (C03).  The point-to-point variants move the same blocks between the same
ranks and are not modelled separately.
-/
namespace Verif.Scatterer
open Verif.Std Verif.Exchange Verif.World

variable {R : Type}

/-- Ghost positions sorted by owning rank, L97-100. -/
def perm (owners : List Nat) : List Nat :=
  sort (fun a b => decide (owners.getD a 0 ≤ owners.getD b 0)) (List.range owners.length)

/-- The `upper_bound` loop L119-127: number of ghosts for each source rank. -/
def sizesRemote : List Nat → List Nat → List Nat
  | [], _ => []
  | s :: ss, os =>
    let k := lowerBound (fun o => decide (o ≤ s)) os
    k :: sizesRemote ss (os.drop k)

/-- Scatterer data on one rank: `_sizes_remote`, `_sizes_local` before scaling with
the block size, the received global indices, and the ghost permutation. -/
def ghostsSorted (w : World) (r : Nat) : List Nat := (perm (w.owners r)).map fun k => (w.ghosts r).getD k 0

def sizesRem (w : World) (r : Nat) : List Nat :=
  sizesRemote (w.src r) ((perm (w.owners r)).map fun k => (w.owners r).getD k 0)

/-- `_sizes_local`, L142-144: each ghosting rank tells its number of ghosts. -/
def sizesLoc (w : World) (r : Nat) : List Nat := neighborAlltoall w.src w.dest (sizesRem w) r

/-- `recv_buffer`, L153-158: owned indices ghosted by other ranks. -/
def recvGlobal (w : World) (r : Nat) : List Nat :=
  neighborAlltoallv w.src w.dest (fun q => chunks (sizesRem w q) (ghostsSorted w q)) r

/-- `_local_inds`, L178-187. -/
def localInds (w : World) (bs r : Nat) : List Nat :=
  (recvGlobal w r).flatMap fun g => (List.range bs).map fun j => (g * bs + j) - w.r0 r * bs

/-- `_remote_inds`, L190-196. -/
def remoteInds (w : World) (bs r : Nat) : List Nat :=
  (perm (w.owners r)).flatMap fun k => (List.range bs).map fun j => k * bs + j

/-- `pack`: `out[i] = in[idx[i]]` (`Vector.h` L61-72). -/
def pack (idx : List Nat) (x : Nat → R) : List R := idx.map x

/-- `unpack`: `out[off + idx[i]] = op(out[off + idx[i]], in[i])`
(`Vector.h` L78-114; plain assignment is `op = fun _ v => v`). -/
def unpack (op : R → R → R) (off : Nat) (idx : List Nat) (buf : List R) (x : Nat → R) : Nat → R :=
  (idx.zip buf).foldl (fun x p => fun n => if n = off + p.1 then op (x n) p.2 else x n) x

/-- `Vector::scatter_fwd`, L222-299 with `Scatterer::scatter_fwd_begin` L251-264. -/
def scatterFwd (w : World) (bs : Nat) (x : Nat → Nat → R) (r : Nat) : Nat → R :=
  let sendBlocks := fun q => chunks ((sizesLoc w q).map (· * bs)) (pack (localInds w bs q) (x q))
  let recv := neighborAlltoallv w.dest w.src sendBlocks r
  unpack (fun _ v => v) (bs * w.size r) (remoteInds w bs r) recv (x r)

/-- `Vector::scatter_rev`, L317-379 with `Scatterer::scatter_rev_begin` L337-349. -/
def scatterRev (w : World) (bs : Nat) (op : R → R → R) (x : Nat → Nat → R) (r : Nat) : Nat → R :=
  let sendBlocks := fun q => chunks ((sizesRem w q).map (· * bs))
    (pack (remoteInds w bs q) (fun n => x q (bs * w.size q + n)))
  let recv := neighborAlltoallv w.src w.dest sendBlocks r
  unpack op 0 (localInds w bs r) recv (x r)

end Verif.Scatterer
