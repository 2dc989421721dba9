/-!
# Even partition of an index range over processes

Model of `cpp/dolfinx/common/local_range.h` (lines 26-42) and of
`index_owner` in `cpp/dolfinx/common/MPI.h` (lines 92-110).

Simplification: the C++ functions use `std::int64_t`/`std::size_t`; here the
integers are unbounded natural numbers.  The C++ asserts (`index >= 0`,
`N >= 0`, `size > 0`, `index < N`) are not part of the functions, they appear
as hypotheses of the theorems.
-/
namespace Verif.LocalRange

/-- `dolfinx::common::local_range(index, N, size)`:
`cpp/dolfinx/common/local_range.h`, lines 26-42.  `n` is the number of items
per process, `r` the remainder; the first `r` processes get one more. -/
def localRange (rank N size : Nat) : Nat × Nat :=
  let n := N / size
  let r := N % size
  if rank < r then
    (rank * (n + 1), rank * (n + 1) + n + 1)
  else
    (rank * n + r, rank * n + r + n)

/-- `dolfinx::MPI::index_owner(size, index, N)`:
`cpp/dolfinx/common/MPI.h`, lines 92-110. -/
def indexOwner (size index N : Nat) : Nat :=
  let n := N / size
  let r := N % size
  if index < r * (n + 1) then
    index / (n + 1)
  else
    r + (index - r * (n + 1)) / n

end Verif.LocalRange
