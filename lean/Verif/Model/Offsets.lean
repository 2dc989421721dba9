/-!
# Displacements and cursor-driven bucket filling

Two idioms used all over the C++ code:

* displacements from counts with `std::exclusive_scan` / `std::partial_sum`;
* filling a contiguous array through a per-bucket write cursor,
  `out[cursor[key]++] = value`
  (e.g. `common/sort.h` L156-160, `la/SparsityPattern.cpp` L28-44,
  `la/mattrans.h` L72-97, `la/matmul.h` L186-191,
  `graph/partition.cpp` L463-476).
-/
namespace Verif.Offsets

/-- Exclusive prefix sum: `excl c b = c 0 + ... + c (b-1)`
(`std::exclusive_scan`, or `std::partial_sum` written one position later). -/
def excl (c : Nat → Nat) (b : Nat) : Nat := ((List.range b).map c).sum

/-- Number of list elements with key `b` (the histogram loop `++count[key]`). -/
def cnt {α : Type} (key : α → Nat) (l : List α) (b : Nat) : Nat :=
  l.countP (fun x => key x == b)

/-- One step of `out[cursor[key]++] = value`. -/
def fillStep {α β : Type} (key : α → Nat) (val : α → β)
    (st : (Nat → Nat) × List β) (x : α) : (Nat → Nat) × List β :=
  ((fun b => if b = key x then st.1 b + 1 else st.1 b), st.2.set (st.1 (key x)) (val x))

/-- The whole fill loop, from initial cursors and an initial buffer. -/
def fill {α β : Type} (key : α → Nat) (val : α → β) (cursor : Nat → Nat) (buf : List β)
    (l : List α) : (Nat → Nat) × List β :=
  l.foldl (fillStep key val) (cursor, buf)

end Verif.Offsets
