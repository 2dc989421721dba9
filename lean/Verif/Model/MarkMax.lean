import Verif.Prelude
import Mathlib.Algebra.Order.Field.Basic
/-!
# Marking of entities for refinement by their greatest value

`mark_maximum` (`cpp/dolfinx/refinement/mark.h` L31-58), exported as `mesh.mark_maximum` (`python/dolfinx/wrappers/dolfinx_wrappers/refinement.h` L144-153).

Simplifications: exact arithmetic in an ordered field with a number `lowest` (`std::numeric_limits<T>::lowest()`), so no NaN and no rounding in `theta * max`; all ranks pass the same `theta`;
`MPI_Allreduce` is the reduction of the values in the order of ranks; the log message is left out.
-/
namespace Verif.MarkMax

variable {K : Type} [Field K] [LinearOrder K]

/-- `std::ranges::max`, mark.h L38: the first value, replaced by each one that is greater. -/
def greatest (first : K) (rest : List K) : K := rest.foldl (fun m x => if m < x then x else m) first

/-- The value of a rank before the reduction, mark.h L37-38. -/
def localMax (lowest : K) : List K → K
  | [] => lowest
  | x :: xs => greatest x xs

/-- `MPI_Allreduce` with `MPI_MAX`, mark.h L39. -/
def allreduce (lowest : K) (locals : List K) : K :=
  match locals with
  | [] => lowest
  | x :: xs => greatest x xs

/-- `mark`, mark.h L41. -/
def test (theta max e : K) : Bool := decide (theta * max < e)

/-- The loop in mark.h L46-50. -/
def collect (theta max : K) (marker : List K) : List Nat :=
  (List.range marker.length).foldl (fun out i =>
    match marker[i]? with
    | some e => if test theta max e then out ++ [i] else out
    | none => out) []

/-- `std::invalid_argument`, mark.h L35. -/
inductive Err where
  | theta
deriving DecidableEq

/-- `mark_maximum` on rank `r`, mark.h L31-58; `markers` has the values of all ranks. -/
def markMaximum (lowest : K) (markers : List (List K)) (theta : K) (r : Nat) : Except Err (List Nat) :=
  if theta ≤ 0 ∨ 1 ≤ theta then .error .theta
  else .ok (collect theta (allreduce lowest (markers.map (localMax lowest))) (markers.getD r []))

end Verif.MarkMax
