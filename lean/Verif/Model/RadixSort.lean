/-!
# `dolfinx::radix_sort`

Model of `cpp/dolfinx/common/sort.h` L26-177.

`w` is the number of bits of the (unsigned) key type `uI`, `b` the template
parameter `BITS`.  All arithmetic the C++ does in `uI` is done modulo `2^w`
here.  That matters: the histogram `counter` and the cursors `offset` have the
*key* type (L107-108), so they wrap when the range is long.

Simplifications: the range and the buffer are lists; the two buffers and the
swap are kept.  The first histogram is computed by the C++ in the same loop as
the maximum (L116-123); it is the same histogram as the one the model computes
for pass 0.
-/
namespace Verif.RadixSort

variable {α : Type}

/-- The digit mask of pass `i`: `mask` starts as `(uI(1) << BITS) - 1` (L101) and
is shifted by `BITS` after every pass (L163), in `uI` arithmetic. -/
def mask (w b i : Nat) : Nat := (((2 ^ b - 1) % 2 ^ w) <<< (i * b)) % 2 ^ w

/-- Bucket of a key in pass `i`: `(proj(c) & mask) >> mask_offset` (L149, L159). -/
def digit (w b i : Nat) (k : Nat) : Nat := (k &&& mask w b i) >>> (i * b)

/-- Histogram with counters of `w` bits: `counter[bucket]++` (L122, L149). -/
def counter (w : Nat) (dig : α → Nat) (l : List α) : Nat → Nat :=
  l.foldl (fun c x => fun j => if j = dig x then (c j + 1) % 2 ^ w else c j) (fun _ => 0)

/-- `std::exclusive_scan(counter..., I(0))` in `w`-bit arithmetic (L155). -/
def offset (w : Nat) (c : Nat → Nat) : Nat → Nat
  | 0 => 0
  | j + 1 => (offset w c j + c j) % 2 ^ w

/-- `next_perm[offset[bucket]++] = c` (L156-160) with `w`-bit cursors. -/
def placeStep (w : Nat) (dig : α → Nat) (st : (Nat → Nat) × List α) (x : α) :
    (Nat → Nat) × List α :=
  ((fun j => if j = dig x then (st.1 j + 1) % 2 ^ w else st.1 j), st.2.set (st.1 (dig x)) x)

/-- One pass: read `cur`, write into the other buffer `nxt` (L139-160). -/
def pass (w b i : Nat) (key : α → Nat) (cur nxt : List α) : List α :=
  let dig := fun x => digit w b i (key x)
  (cur.foldl (placeStep w dig) (offset w (counter w dig cur), nxt)).2

/-- Number of passes: shift the maximum right by `BITS` until it is zero (L130-135). -/
def its (b m : Nat) : Nat :=
  if h : m = 0 ∨ b = 0 then 0 else 1 + its b (m >>> b)
termination_by m
decreasing_by
  simp only [not_or] at h
  rw [Nat.shiftRight_eq_div_pow]
  exact Nat.div_lt_self (Nat.pos_of_ne_zero h.1) (Nat.one_lt_two_pow h.2)

/-- The pass loop with its two swapped buffers (L140-167). -/
def loop (w b : Nat) (key : α → Nat) : Nat → Nat → List α → List α → List α
  | 0, _, cur, _ => cur
  | n + 1, i, cur, nxt => loop w b key n (i + 1) (pass w b i key cur nxt) cur

/-- Largest projected value (L116-119). -/
def maxKey (key : α → Nat) (l : List α) : Nat := l.foldl (fun m x => max m (key x)) 0

/-- `all_first_bit`: every key has the top bit set (L121). -/
def allTop (w : Nat) (key : α → Nat) (l : List α) : Bool :=
  l.all (fun x => key x &&& 2 ^ (w - 1) != 0)

/-- Bound used for the number of passes: the maximum, without the top bit if all
keys share it (L125-126). -/
def passMax (w : Nat) (key : α → Nat) (l : List α) : Nat :=
  if allTop w key l then maxKey key l &&& (2 ^ w - 1 - 2 ^ (w - 1)) else maxKey key l

/-- `radix_sort` for an unsigned key of `w` bits (L79-171).  `none` stands for the
undefined behaviour of indexing the zero-length `std::array<I, bucket_size>`:
`bucket_size = 1 << BITS` is truncated to `uI` (L100), so it is `0` as soon as
`BITS` is not smaller than the key width. -/
def radixSort [Inhabited α] (w b : Nat) (key : α → Nat) (l : List α) : Option (List α) :=
  if l.length ≤ 1 then some l
  else if 2 ^ b % 2 ^ w = 0 then none
  else
    let n := its b (passMax w key l)
    some (loop w b key n 0 l (List.replicate l.length default))

/-- `_unsigned_projection` (L26-51): the bit pattern with the top bit flipped. -/
def unsignedProjection {w : Nat} (x : BitVec w) : BitVec w := x ^^^ BitVec.twoPow w (w - 1)

/-- `radix_sort` for a signed key of `w` bits (L91-96): the same algorithm on the
projected key. -/
def radixSortSigned [Inhabited α] {w : Nat} (b : Nat) (key : α → BitVec w) (l : List α) :
    Option (List α) :=
  radixSort w b (fun x => (unsignedProjection (key x)).toNat) l

end Verif.RadixSort
