import Mathlib.Algebra.Field.Basic
import Mathlib.Logic.Function.Basic
/-!
# Small matrices

Model of `common/math.h` L22-233.  A matrix view is its two extents and a function of row and column.
Values are exact: `fma a b c` is `a * b + c`, so the rounding correction of Kahan's method is kept in the
formulas but evaluates to zero.  Exceptions are error values; writing an entry of the output view is a
function update.
-/
namespace Verif.SmallMatrix

/-- Errors. -/
inductive Err where
  /-- "is not implemented for ... matrices" -/
  | shape
deriving DecidableEq, Repr

/-- The entries of a matrix view. -/
abbrev Entries (K : Type) := Nat → Nat → K

/-- Assignment `A(i, j) = x`. -/
def set {K : Type} (A : Entries K) (i j : Nat) (x : K) : Entries K :=
  Function.update A i (Function.update (A i) j x)

section
variable {K : Type} [Field K]

/-- `cross`, L26-34. -/
def cross (u v : Nat → K) : List K :=
  [u 1 * v 2 - u 2 * v 1, u 2 * v 0 - u 0 * v 2, u 0 * v 1 - u 1 * v 0]

/-- `std::fma` without rounding. -/
def fma (a b c : K) : K := a * b + c

/-- `difference_of_products`, L40-46. -/
def diffProd (a b c d : K) : K :=
  let w := b * c
  let err := fma (-b) c w
  let diff := fma a d (-w)
  diff + err

/-- `det`, L53-84. -/
def det (n : Nat) (A : Entries K) : Except Err K :=
  match n with
  | 1 => .ok (A 0 0)
  | 2 => .ok (diffProd (A 0 0) (A 0 1) (A 1 0) (A 1 1))
  | 3 =>
    let w0 := diffProd (A 1 1) (A 1 2) (A 2 1) (A 2 2)
    let w1 := diffProd (A 1 0) (A 1 2) (A 2 0) (A 2 2)
    let w2 := diffProd (A 1 0) (A 1 1) (A 2 0) (A 2 1)
    let w3 := diffProd (A 0 0) (A 0 1) w1 w0
    let w4 := fma (A 0 2) w2 w3
    .ok w4
  | _ => .error .shape

/-- `inv`, L93-141: the new contents of `B`. -/
def inv (n : Nat) (A B : Entries K) : Except Err (Entries K) :=
  match n with
  | 1 => .ok (set B 0 0 (1 / A 0 0))
  | 2 =>
    match det 2 A with
    | .error e => .error e
    | .ok d =>
      let idet := 1 / d
      let B := set B 0 0 (idet * A 1 1)
      let B := set B 0 1 (-idet * A 0 1)
      let B := set B 1 0 (-idet * A 1 0)
      let B := set B 1 1 (idet * A 0 0)
      .ok B
  | 3 =>
    let w0 := diffProd (A 1 1) (A 1 2) (A 2 1) (A 2 2)
    let w1 := diffProd (A 1 0) (A 1 2) (A 2 0) (A 2 2)
    let w2 := diffProd (A 1 0) (A 1 1) (A 2 0) (A 2 1)
    let w3 := diffProd (A 0 0) (A 0 1) w1 w0
    let det := fma (A 0 2) w2 w3
    let idet := 1 / det
    let B := set B 0 0 (w0 * idet)
    let B := set B 1 0 (-w1 * idet)
    let B := set B 2 0 (w2 * idet)
    let B := set B 0 1 (diffProd (A 0 2) (A 0 1) (A 2 2) (A 2 1) * idet)
    let B := set B 0 2 (diffProd (A 0 1) (A 0 2) (A 1 1) (A 1 2) * idet)
    let B := set B 1 1 (diffProd (A 0 0) (A 0 2) (A 2 0) (A 2 2) * idet)
    let B := set B 1 2 (diffProd (A 1 0) (A 0 0) (A 1 2) (A 0 2) * idet)
    let B := set B 2 1 (diffProd (A 2 0) (A 0 0) (A 2 1) (A 0 1) * idet)
    let B := set B 2 2 (diffProd (A 0 0) (A 1 0) (A 0 1) (A 1 1) * idet)
    .ok B
  | _ => .error .shape

/-- The three nested loops over `i < n`, `j < m`, `k < l`, each adding `t i j k` to `C(i, j)`. -/
def accumulate (n m l : Nat) (t : Nat → Nat → Nat → K) (C : Entries K) : Entries K :=
  (List.range n).foldl (fun C i =>
    (List.range m).foldl (fun C j =>
      (List.range l).foldl (fun C k => set C i j (C i j + t i j k)) C) C) C

/-- `dot`, L149-173: `A` has extents `a0 a1`, `B` has extents `b0 b1`. -/
def dot (a0 a1 b0 b1 : Nat) (A B C : Entries K) (transpose : Bool) : Entries K :=
  if transpose then accumulate a1 b0 a0 (fun i j k => A k i * B j k) C
  else accumulate a0 b1 a1 (fun i j k => A i k * B k j) C

/-- A double loop of assignments `C(i, j) = t i j`. -/
def fill (n m : Nat) (t : Nat → Nat → K) (C : Entries K) : Entries K :=
  (List.range n).foldl (fun C i => (List.range m).foldl (fun C j => set C i j (t i j)) C) C

/-- `pinv`, L184-233: `A` has extents `a0 a1`; `AT`, `ATA` and `Inv` start with any contents `g`. -/
def pinv (a0 a1 : Nat) (A P g : Entries K) : Except Err (Entries K) :=
  if a1 = 2 then
    let AT := fill 2 3 (fun i j => A j i) g
    let ATA := fill 2 2 (fun _ _ => 0) g
    let P := fill 2 3 (fun _ _ => 0) P
    let ATA := dot 2 3 3 2 AT A ATA false
    match inv 2 ATA g with
    | .error e => .error e
    | .ok Inv => .ok (dot 2 2 2 3 Inv AT P false)
  else if a1 = 1 then
    let res := (List.range a0).foldl (fun r i => (List.range a1).foldl (fun r j => r + A i j * A i j) r) 0
    .ok ((List.range a0).foldl (fun P i => (List.range a1).foldl (fun P j => set P j i (1 / res * A i j)) P) P)
  else .error .shape
end

end Verif.SmallMatrix
