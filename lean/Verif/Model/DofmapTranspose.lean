import Verif.Model.Offsets
/-!
# `transpose_dofmap`

Model of `cpp/dolfinx/fem/DofMap.cpp` L119-155.  A dofmap is its row-major array; `none` is a read outside the array.
-/
namespace Verif.DofmapTranspose
open Verif.Offsets

/-- `*std::max_element(begin, begin + n)`, L124-126: for `n = 0` this is the entry at the end of the range. -/
def maxElement (a : List Nat) (n : Nat) : Option Nat :=
  if a.length < n then none
  else match a.take n with
    | [] => a[0]?
    | x :: l => some (l.foldl max x)

/-- `transpose_dofmap`, for a dofmap with `w` columns: the rows of the adjacency list. -/
def transposeDofmap (a : List Nat) (w numCells : Nat) : Option (List (List Nat)) := do
  let m ← maxElement a (numCells * w)
  -- the loops over cells and columns visit the entries one after the other, L129-134 and L145-150
  let l := (a.take (numCells * w)).zipIdx
  let num := (List.range (m + 1)).map (cnt Prod.fst l)
  let offsets := (List.range (m + 2)).map (excl fun b => num.getD b 0)
  let data := (fill Prod.fst Prod.snd (fun b => offsets.getD b 0) (List.replicate (offsets.getD (m + 1) 0) 0) l).2
  some ((List.range (m + 1)).map fun d => (data.drop (offsets.getD d 0)).take (offsets.getD (d + 1) 0 - offsets.getD d 0))

end Verif.DofmapTranspose
