import Verif.Model.World
import Mathlib.Analysis.RCLike.Basic
import Mathlib.Algebra.BigOperators.Group.Finset.Basic
/-!
# Reductions and orthonormalisation of distributed vectors

Model of `cpp/dolfinx/la/Vector.h` L434-584.  Scalars are exact real or complex
numbers (`RCLike`); rounding is not modelled.  A distributed vector is the family
of its local arrays: `x r n` is entry `n` on rank `r`, owned entries first
(`n < bs * size r`), then ghosts.  `MPI_Allreduce` with `MPI_SUM` / `MPI_MAX` is the
sum / maximum over ranks.
-/
namespace Verif.VectorOps
open Verif.World

variable {K : Type} [RCLike K]

/-- A distributed vector: local array of every rank. -/
abbrev Vec (K : Type) := Nat → Nat → K

/-- `inner_product`, L434-460 (both vectors have layout `w`, `bs`): `transform_reduce`
over the owned entries of each rank, then `MPI_Allreduce(MPI_SUM)`. -/
def inner (w : World) (bs : Nat) (a b : Vec K) : K :=
  (List.range w.P).foldl (fun s r =>
    s + (List.range (bs * w.size r)).foldl (fun t n => t + (starRingEnd K) (a r n) * b r n) 0) 0

/-- The size check at L438-440, on one rank: `none` = "Incompatible vector sizes". -/
def innerChecked (w w' : World) (bs bs' : Nat) (a b : Vec K) (r : Nat) : Option K :=
  if bs * w.size r ≠ bs' * w'.size r then none else some (inner w bs a b)

/-- `squared_norm`, L466-471. -/
def squaredNorm (w : World) (bs : Nat) (a : Vec K) : ℝ := RCLike.re (inner w bs a a)

/-- `norm(x, l1)`, L484-495. -/
noncomputable def normL1 (w : World) (bs : Nat) (x : Vec K) : ℝ :=
  (List.range w.P).foldl (fun s r => s + (List.range (bs * w.size r)).foldl (fun t n => t + ‖x r n‖) 0) 0

/-- `norm(x, l2)`, L496-497. -/
noncomputable def normL2 (w : World) (bs : Nat) (x : Vec K) : ℝ := Real.sqrt (squaredNorm w bs x)

/-- `std::max_element` with `std::norm(a) < std::norm(b)` on positions `[0, len)`:
position of the first largest entry; `len` when the range is empty. -/
noncomputable def maxElement (x : Nat → K) (len : Nat) : Nat :=
  open Classical in
  (List.range len).foldl (fun best n => if n = 0 then 0 else if ‖x best‖ ^ 2 < ‖x n‖ ^ 2 then n else best) len

/-- Local value in `norm(x, linf)`, L500-504: dereference the position returned by
`max_element`; `none` = past the end of the local array (owned and ghost entries). -/
noncomputable def localLinf (w : World) (bs : Nat) (x : Vec K) (r : Nat) : Option ℝ :=
  let pos := maxElement (x r) (bs * w.size r)
  if pos < bs * (w.size r + (w.ghosts r).length) then some ‖x r pos‖ else none

/-- `norm(x, linf)`, L498-509: `MPI_MAX` over ranks; `none` if some rank reads past the
end of its array. -/
noncomputable def normLinf (w : World) (bs : Nat) (x : Vec K) : Option ℝ :=
  (List.range w.P).foldl (fun acc r =>
    match acc, localLinf w bs x r with
    | some m, some v => some (max m v)
    | _, _ => none) (some 0)

/-- Inner loop of `orthonormalize`, L533-542: subtract `inner_product(bi, bj) * bj`
for each earlier vector `bj`. -/
def project (w : World) (bs : Nat) (done : List (Vec K)) (bi : Vec K) : Vec K :=
  done.foldl (fun b bj => fun r n => b r n - inner w bs b bj * bj r n) bi

/-- One outer iteration, L530-553; `none` = "Linear dependency detected". -/
noncomputable def orthoStep (w : World) (bs : Nat) (eps : ℝ) (done : List (Vec K)) (bi : Vec K) :
    Option (Vec K) :=
  open Classical in
  let b := project w bs done bi
  let nrm := normL2 w bs b
  if nrm * nrm < eps then none else some (fun r n => b r n / (nrm : K))

/-- `orthonormalize`, L522-555, from already processed vectors `done`. -/
noncomputable def orthoFrom (w : World) (bs : Nat) (eps : ℝ) : List (Vec K) → List (Vec K) → Option (List (Vec K))
  | done, [] => some done
  | done, b :: rest =>
    match orthoStep w bs eps done b with
    | none => none
    | some b' => orthoFrom w bs eps (done ++ [b']) rest

/-- `orthonormalize`. -/
noncomputable def orthonormalize (w : World) (bs : Nat) (eps : ℝ) (basis : List (Vec K)) : Option (List (Vec K)) :=
  orthoFrom w bs eps [] basis

end Verif.VectorOps
