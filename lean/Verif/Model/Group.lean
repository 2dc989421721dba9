import Verif.Model.StdAlg
import Verif.Model.Exchange
/-!
# Grouping records by destination rank

The idiom used all over dolfinx before a neighbourhood exchange: records are sorted by rank and
the list of ranks and the number of records for each are collected by a `find_if` loop, e.g.
`common/MPI.cpp` L354-396, `common/MPI.h` L545-567, `graph/partition.cpp` L70-100.
-/
namespace Verif.Group
open Verif.Std

variable {α : Type}

/-- Sort by a numeric key; stable (`radix_sort`, C03/C04, or `std::sort` where ties are irrelevant). -/
def sortBy (key : α → Nat) (l : List α) : List α := sort (fun a b => decide (key a ≤ key b)) l

/-- The loop `while (it != end) { push key; it1 = find_if(key differs); ...; it = it1; }`.
`fuel` bounds the number of iterations; the length is enough. -/
def runsAux (key : α → Nat) : Nat → List α → List (Nat × List α)
  | 0, _ => []
  | _, [] => []
  | fuel + 1, a :: l =>
    (key a, a :: l.takeWhile (fun b => key b == key a)) ::
      runsAux key fuel (l.dropWhile (fun b => key b == key a))

/-- Runs of equal key. -/
def runs (key : α → Nat) (l : List α) : List (Nat × List α) := runsAux key l.length l

end Verif.Group
