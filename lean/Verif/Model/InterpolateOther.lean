import Verif.Model.Interpolate
import Verif.Model.PointOwnership
/-!
# Interpolation between non-matching meshes

`scatter_values`, `create_interpolation_data` and `interpolate` with `PointOwnershipData`, `cpp/dolfinx/fem/interpolate.h` L136-296, L1091-1125, L1216-1283.

Simplifications: -1 is `none`; sizes and counters are in rows, times the block size where the code has numbers of values; the position of a rank in a list of different ranks is
`idxOf` (the code searches by bisection and asserts that it found the rank); arrays of all ranks are families.  Basis functions at a point of a cell, transformed and pushed
forward, are an input, as for `eval`.
-/
namespace Verif.InterpOther
open Verif.Std Verif.Exchange Verif.Offsets Verif.Interp Verif.PointOwn

variable {T : Type} [CommRing T]

/-- `out_ranks`, L165-170. -/
def outRanks (src : List Nat) : List Nat := unique src

/-- `in_ranks`, L172-187. -/
def inRanks (dest : List (Option Nat)) : List Nat := unique (sortNat (dest.filterMap id))

/-- Rows with a rank, in order: rank and row, L203-217 and L226-238. -/
def items (dest : List (Option Nat)) : List (Nat × Nat) := dest.zipIdx.filterMap fun x => x.1.map fun r => (r, x.2)

/-- Position of the rank of a row in `in_ranks`. -/
def itemKey (dest : List (Option Nat)) (x : Nat × Nat) : Nat := (inRanks dest).idxOf x.1

/-- `comm_to_output`, L219-239. -/
def commToOutput (bs : Nat) (dest : List (Option Nat)) : List Nat :=
  (fill (itemKey dest) (fun x => x.2 * bs) (excl (cnt (itemKey dest) (items dest)))
    (List.replicate (excl (cnt (itemKey dest) (items dest)) (inRanks dest).length) 0) (items dest)).2

/-- `send_sizes`, L242-267. -/
def sendSizes (bs : Nat) (src : List Nat) : List Nat :=
  (List.range (outRanks src).length).map fun k => cnt ((outRanks src).idxOf ·) src k * bs

/-- `values`, L269-282. -/
def recvValues (bs : Nat) (src : Nat → List Nat) (dest : Nat → List (Option Nat)) (send : Nat → List T) (q : Nat) : List T :=
  neighborAlltoallv (fun r => outRanks (src r)) (fun q => inRanks (dest q)) (fun r => chunks (sendSizes bs (src r)) (send r)) q

/-- `std::copy_n` of `vals` to position `o`. -/
def writeSeg (u : List T) (o : Nat) (vals : List T) : Option (List T) := vals.zipIdx.foldlM (fun u x => setAt u (o + x.2) x.1) u

/-- `scatter_values`, L150-296, the result on rank `q`. -/
def scatterValues (bs : Nat) (src : Nat → List Nat) (dest : Nat → List (Option Nat)) (send : Nat → List T) (q : Nat) : Option (List T) :=
  if bs = 0 then none
  else if (send q).length ≠ (src q).length * bs then none
  else (commToOutput bs (dest q)).zipIdx.foldlM (fun u x =>
    (copySeg (recvValues bs src dest send q) (x.2 * bs) bs).bind fun vals => writeSeg u x.1 vals) (List.replicate ((dest q).length * bs) 0)

/-- Coordinates by point, `create_interpolation_data`, L1106-1120: `x[3 * i + j] = coords[i + j * n]`. -/
def pointCoords (coords : List T) : Option (List T) :=
  (List.range coords.length).mapM fun k => coords[k / 3 + k % 3 * (coords.length / 3)]?

/-- A cell as `eval` gets it. -/
def evalCell : Option Nat → Int
  | some c => c
  | none => -1

variable {X K : Type} [LinearOrder K] [Zero K]

/-- Values of `u0` at the points a rank evaluates, interpolate.h L1252-1257: `phi x c i j` are basis functions of the element at point `x` in cell `c`. -/
def evalAt (e0 : Elem T) (dm0 : DMap) (x0 : List T) (phi : X → Nat → Nat → Nat → T) (vs : Nat) (d : List (Nat × X × Option Nat)) : Option (List T) :=
  eval e0 dm0 x0 d.length (d.map fun y => evalCell y.2.2)
    (fun n i j => match d[n]? with
      | some y => phi y.2.1 (evalCell y.2.2).toNat i j
      | none => 0)
    (List.replicate (d.length * vs) 0) d.length vs

/-- `interpolate` from a function on another mesh, interpolate.h L1216-1283, the result on rank `q`. -/
def interpolateOther (I : Input X K) (dflt : X) (e0 : Elem T) (dm0 : Nat → DMap) (x0 : Nat → List T) (phi : Nat → X → Nat → Nat → Nat → T)
    (e1 : Elem T) (dm1 : DMap) (cells : List Nat) (u1 : List T) (q : Nat) : Option (List T) :=
  ((List.range I.P).mapM fun r => evalAt e0 (dm0 r) (x0 r) (phi r) e1.vs (dest I dflt r)).bind fun send =>
  (scatterValues e1.vs (fun r => (dest I dflt r).map (·.1)) (srcOwner I dflt) (fun r => send.getD r []) q).bind fun values =>
  (transposeExpr (srcOwner I dflt q).length 1 e1.vs values).bind fun valuesT =>
  interpolateData e1 dm1 cells valuesT e1.vs (srcOwner I dflt q).length u1

end Verif.InterpOther
