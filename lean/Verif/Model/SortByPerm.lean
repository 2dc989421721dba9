import Verif.Model.RadixSort
/-!
# `dolfinx::sort_by_perm`

Model of `cpp/dolfinx/common/sort.h` L179-272.  Values are `w`-bit signed
integers (the code uses `std::int32_t` and `std::int64_t`), `b` is the template
parameter `BITS`.  Out-of-range reads do not occur under the stated
preconditions; the model reads `0` there.
-/
namespace Verif.SortByPerm
open Verif.RadixSort

variable {w : Nat}

/-- One step of the column loop: stable radix sort of the current permutation by a
column (L225-226, L268-269). -/
def sortColumn (b : Nat) (perm : List Nat) (column : Nat → BitVec w) : Option (List Nat) :=
  radixSortSigned b column perm

/-- Row-major overload, L199-231: columns `n-1, ..., 0` of the flattened table `x`
are sorted in turn. `none` = undefined behaviour inside `radix_sort`. -/
def sortByPerm (b : Nat) (x : List (BitVec w)) (shape1 : Nat) (ncols : Option Nat) :
    Option (List Nat) :=
  if x = [] then some []
  else
    let n := ncols.getD shape1
    let shape0 := x.length / shape1
    (List.range n).foldlM
      (fun perm i => sortColumn b perm (fun j => x.getD (j * shape1 + (n - 1 - i)) 0))
      (List.range shape0)

/-- Column-major overload, L249-272. -/
def sortByPermCols (b : Nat) (x : List (List (BitVec w))) : Option (List Nat) :=
  match x with
  | [] => some []
  | c0 :: _ =>
    (List.range x.length).foldlM
      (fun perm i => sortColumn b perm (fun j => (x.getD (x.length - 1 - i) []).getD j 0))
      (List.range c0.length)

end Verif.SortByPerm
