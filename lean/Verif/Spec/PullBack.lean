import Mathlib.LinearAlgebra.Matrix.NonsingularInverse
import Mathlib.Order.Defs.LinearOrder
/-!
# The map of a cell and the points it takes to given points

A cell is given by `n` basis functions on the reference cell, with `tab X 0 i` the value of function `i` at `X` and `tab X (k + 1) i` its derivative in direction `k`, and by `n` nodes
`g`.  Points of the reference cell have `t` coordinates, points in space have `d`.
-/
namespace Verif.Spec.PullBack
open scoped Matrix

variable {K : Type} [Field K] (tab : List K → Nat → Nat → K) (n : Nat) (g : Nat → Nat → K)

/-- Where the cell puts the point `X`. -/
def place {t : Nat} (d : Nat) (X : Fin t → K) : Fin d → K := fun j => ∑ i : Fin n, tab (List.ofFn X) 0 i * g i j

/-- The derivative of `place` at `X`. -/
def jac {t : Nat} (d : Nat) (X : Fin t → K) : Matrix (Fin d) (Fin t) K := fun j k => ∑ i : Fin n, tab (List.ofFn X) (k + 1) i * g i j

/-- The solution `v` of `J v = r`, or what comes closest to it. -/
noncomputable def leastSquares {t d : Nat} (J : Matrix (Fin d) (Fin t) K) (r : Fin d → K) : Fin t → K := (Jᵀ * J)⁻¹ *ᵥ (Jᵀ *ᵥ r)

/-- Newton's method for `place X = x` from the origin. -/
noncomputable def iter (t : Nat) {d : Nat} (x : Fin d → K) : Nat → Fin t → K
  | 0 => 0
  | k + 1 => iter t x k + leastSquares (jac tab n g d (iter t x k)) (x - place tab n g d (iter t x k))

/-- The square of the length of step `k`. -/
noncomputable def stepSquared (t : Nat) {d : Nat} (x : Fin d → K) (k : Nat) : K :=
  ∑ i : Fin t, (iter tab n g t x (k + 1) i - iter tab n g t x k i) * (iter tab n g t x (k + 1) i - iter tab n g t x k i)

/-- The derivative is injective at the first `k` points. -/
def RegularTo (t : Nat) {d : Nat} (x : Fin d → K) (k : Nat) : Prop :=
  ∀ j < k, Function.Injective (jac tab n g d (iter tab n g t x j)).mulVec

/-- Step `k` is the first that is shorter than `tol`. -/
structure StopsAt [LinearOrder K] (sqrt : K → K) (tol : K) (t : Nat) {d : Nat} (x : Fin d → K) (k : Nat) : Prop where
  short : sqrt (stepSquared tab n g t x k) < tol
  first : ∀ j < k, ¬ sqrt (stepSquared tab n g t x j) < tol

/-- The cell maps every point by the same affine map, and the origin to node 0. -/
structure Affine (t : Nat) : Prop where
  origin : ∀ i < n, tab (List.replicate t 0) 0 i = if i = 0 then 1 else 0
  value : ∀ X : Fin t → K, ∀ i < n, tab (List.ofFn X) 0 i = tab (List.replicate t 0) 0 i + ∑ k : Fin t, X k * tab (List.replicate t 0) (k + 1) i

end Verif.Spec.PullBack
