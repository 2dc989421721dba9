/-!
# C++ standard algorithms used by the code

`std::lower_bound` is modelled by the usual halving loop, `std::sort` by an
insertion sort with the same comparison (its specification: sorted permutation;
it is stable, so it also models `std::stable_sort`), `std::unique` + `erase` by
removal of adjacent duplicates.
-/
namespace Verif.Std

variable {α : Type}

/-- The halving loop of `std::lower_bound` on positions `[first, first+len)`.
`p x` means "`x` is before the searched value".  `fuel` bounds the number of
iterations; `len` is always enough. -/
def lowerBoundAux (p : α → Bool) (l : List α) : (fuel first len : Nat) → Nat
  | 0, first, _ => first
  | fuel + 1, first, len =>
    if len = 0 then first
    else
      match l[first + len / 2]? with
      | none => first
      | some x =>
        if p x then lowerBoundAux p l fuel (first + len / 2 + 1) (len - len / 2 - 1)
        else lowerBoundAux p l fuel first (len / 2)

/-- `std::lower_bound(l.begin(), l.end(), ...)` as a position. -/
def lowerBound (p : α → Bool) (l : List α) : Nat := lowerBoundAux p l l.length 0 l.length

/-- `std::unique` followed by `erase`: keep one of each run of equal elements. -/
def unique [DecidableEq α] : List α → List α
  | [] => []
  | a :: l =>
    match unique l with
    | [] => [a]
    | b :: r => if a = b then b :: r else a :: b :: r

/-- Insert before the first element that is not smaller. -/
def insertOrd (le : α → α → Bool) (a : α) : List α → List α
  | [] => [a]
  | b :: l => if le a b then a :: b :: l else b :: insertOrd le a l

/-- `std::sort` / `std::stable_sort` with a comparison `le`. -/
def sort (le : α → α → Bool) : List α → List α
  | [] => []
  | a :: l => insertOrd le a (sort le l)

/-- `std::sort` on numbers. -/
def sortNat (l : List Nat) : List Nat := sort (fun a b => decide (a ≤ b)) l

end Verif.Std
