import Mathlib.Data.List.Basic
import Mathlib.Order.Basic
import Verif.Model.Exchange
import Verif.Model.Offsets
import Verif.Model.StdAlg
/-!
# Ownership of points

`determine_point_ownership`, `cpp/dolfinx/geometry/utils.h` L682-982.

Simplifications: a point is one item of the buffers (the code sends three numbers and divides sizes by three); -1 is `none`;
arrays indexed by points of the calling rank are functions.  The collisions with the global tree and with the tree of
the rank (C49), and the distances (GJK), are inputs.
-/
namespace Verif.PointOwn
open Verif.Std Verif.Exchange Verif.Offsets

/-- `npts`, `point`: the points passed by each rank.  `coll q i`: ranks whose box contains point `i` of rank `q`.
`cand r x`: cells of rank `r` whose box contains `x`.  `dist r c x`: squared distance of `x` from cell `c` of rank `r`. -/
structure Input (X K : Type) where
  P : Nat
  npts : Nat → Nat
  point : Nat → Nat → X
  coll : Nat → Nat → List Nat
  cand : Nat → X → List Nat
  dist : Nat → Nat → X → K
  tol : K
  maxVal : K

variable {X K : Type}

/-- `out_ranks`, L710-714. -/
def outs (I : Input X K) (q : Nat) : List Nat := unique (sortNat ((List.range (I.npts q)).flatMap (I.coll q)))

/-- `in_ranks`, L716-718: trusted to be the transposed relation (C07), sorted. -/
def ins (I : Input X K) (r : Nat) : List Nat := (List.range I.P).filter fun q => decide (r ∈ outs I q)

/-- Order of the packing loops: rank and point, L734-736, L757-768, L939-947. -/
def pairs (I : Input X K) (q : Nat) : List (Nat × Nat) :=
  (List.range (I.npts q)).flatMap fun i => (I.coll q i).map fun p => (p, i)

/-- `rank_to_neighbor`, L726-730. -/
def key (I : Input X K) (q : Nat) (x : Nat × Nat) : Nat := (outs I q).idxOf x.1

/-- `send_sizes`, L732-736. -/
def sizes (I : Input X K) (q : Nat) : List Nat := (List.range (outs I q).length).map (cnt (key I q) (pairs I q))

/-- Packing by offsets and counters, L746-768 and L936-947. -/
def packed {β : Type} (I : Input X K) (q : Nat) (dflt : β) (val : Nat → β) : List β :=
  (fill (key I q) (fun x => val x.2) (excl (cnt (key I q) (pairs I q)))
    (List.replicate (excl (cnt (key I q) (pairs I q)) (outs I q).length) dflt) (pairs I q)).2

/-- `recv_sizes`, L738-744. -/
def recvSizes (I : Input X K) (r : Nat) : List Nat := neighborAlltoall (outs I) (ins I) (sizes I) r

/-- `unpack_map`, L755-768. -/
def unpack (I : Input X K) (q : Nat) : List Nat := packed I q 0 id

/-- Exchange in forward direction. -/
def forward {β : Type} (I : Input X K) (data : Nat → List β) (r : Nat) : List β :=
  neighborAlltoallv (outs I) (ins I) (fun q => chunks (sizes I q) (data q)) r

/-- Exchange in reverse direction. -/
def reverse {β : Type} (I : Input X K) (data : Nat → List β) (q : Nat) : List β :=
  neighborAlltoallv (ins I) (outs I) (fun r => chunks (recvSizes I r) (data r)) q

/-- `received_points`, L770-778. -/
def received (I : Input X K) (dflt : X) (r : Nat) : List X := forward I (fun q => packed I q dflt (I.point q)) r

variable [LinearOrder K] [Zero K]

/-- `compute_first_colliding_cell`, L521-554. -/
def firstCell (I : Input X K) (r : Nat) (x : X) : Option Nat := (I.cand r x).find? fun c => decide (I.dist r c x < I.tol)

/-- `cell_indicator`, L790-808. -/
def indicator (I : Input X K) (dflt : X) (r : Nat) : List (Option Nat) :=
  (received I dflt r).map fun x => if (firstCell I r x).isSome then some r else none

/-- Owners among colliding processes, L832-845. -/
def owners0 (I : Input X K) (dflt : X) (q : Nat) : Nat → Option Nat :=
  ((unpack I q).zip (reverse I (indicator I dflt) q)).foldl
    (fun s x => if x.2.isSome ∧ s x.1 = none then fun j => if j = x.1 then x.2 else s j else s) fun _ => none

/-- `dest_extrapolate`, L847-864. -/
def destExtrapolate (I : Input X K) (dflt : X) (r : Nat) : List Bool :=
  forward I (fun q => (unpack I q).map fun pos => (owners0 I dflt q pos).isNone) r

/-- Closest cell among the candidates, L876-898. -/
def closestOf (I : Input X K) (r : Nat) (x : X) : K × Option Nat :=
  (I.cand r x).foldl (fun s c => if I.dist r c x < s.1 then (I.dist r c x, some c) else s) (I.maxVal, none)

/-- `closest_cells` and `squared_distances`, L807, L866-901. -/
def localResult (I : Input X K) (dflt : X) (r : Nat) : List (Option Nat × Option K) :=
  ((received I dflt r).zip (destExtrapolate I dflt r)).map fun x =>
    if x.2 = true then ((closestOf I r x.1).2, some (closestOf I r x.1).1) else (firstCell I r x.1, none)

/-- One update of owner and distance, L920-931. -/
def update (r : Nat) (s : Nat → K × Option Nat) (x : Nat × Option K) : Nat → K × Option Nat :=
  match x.2 with
  | none => s
  | some d => if 0 < d ∧ d < (s x.1).1 then fun j => if j = x.1 then (d, some r) else s j else s

/-- Owners after extrapolation, L906-932: loop over neighbours and their blocks. -/
def owners (I : Input X K) (dflt : X) (q : Nat) : Nat → Option Nat :=
  let recvDist := reverse I (fun r => (localResult I dflt r).map (·.2)) q
  let s := ((outs I q).zip (chunks (sizes I q) ((unpack I q).zip recvDist))).foldl
    (fun s x => x.2.foldl (update x.1) s) fun j => (I.maxVal, owners0 I dflt q j)
  fun j => (s j).2

/-- `dest_ranks`, L936-954. -/
def destRanks (I : Input X K) (dflt : X) (r : Nat) : List (Option Nat) :=
  forward I (fun q => packed I q none (owners I dflt q)) r

/-- `dest_owners`, `dest_points`, `dest_cells`, L956-974. -/
def dest (I : Input X K) (dflt : X) (r : Nat) : List (Nat × X × Option Nat) :=
  ((ins I r).zip (chunks (recvSizes I r) ((destRanks I dflt r).zip ((received I dflt r).zip ((localResult I dflt r).map (·.1)))))).flatMap
    fun x => (x.2.filter fun y => decide (y.1 = some r)).map fun y => (x.1, y.2)

/-- `src_owner`. -/
def srcOwner (I : Input X K) (dflt : X) (q : Nat) : List (Option Nat) := (List.range (I.npts q)).map (owners I dflt q)

end Verif.PointOwn
