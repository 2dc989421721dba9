/-!
# Specification: a partition of `0..N-1` into consecutive ranges

Written without reference to any modelled function.
-/
namespace Verif.Spec

/-- `i` lies in the half-open range `rng`. -/
def InRange (i : Nat) (rng : Nat × Nat) : Prop := rng.1 ≤ i ∧ i < rng.2

/-- The ranges `R 0, ..., R (size-1)` are consecutive, start at `0` and end at `N`. -/
structure Tiles (R : Nat → Nat × Nat) (size N : Nat) : Prop where
  /-- the first range starts at 0 -/
  start : 0 < size → (R 0).1 = 0
  /-- every range is well formed -/
  ordered : ∀ r, r < size → (R r).1 ≤ (R r).2
  /-- each range starts where the previous one ends -/
  glued : ∀ r, r + 1 < size → (R (r + 1)).1 = (R r).2
  /-- the last range ends at `N` -/
  stop : ∀ r, r + 1 = size → (R r).2 = N

/-- Length of a range. -/
def len (rng : Nat × Nat) : Nat := rng.2 - rng.1

end Verif.Spec
