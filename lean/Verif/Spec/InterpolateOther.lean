import Verif.Spec.Interpolate
import Verif.Spec.PointOwnership
/-! What the exchange of values and interpolation between meshes should do. -/
namespace Verif.Spec.InterpOther
open Verif.Interp (Elem DMap)
open Verif.PointOwn (Input)
open Verif.Spec.Interp Verif.Spec.PointOwn

/-- `i` is the place of occurrence number `k` (from 0) of `a` in `l`. -/
def NthOcc {α : Type} [BEq α] (l : List α) (a : α) (k i : Nat) : Prop := l[i]? = some a ∧ (l.take i).count a = k

variable {T X K : Type} [CommRing T] [LinearOrder K]

/-- `y` is component `m` of the value at point `i` of rank `q` of the function with dofmaps `dm`, coefficients `x` and basis functions `phi` of the ranks: the value in the
first cell the point touches on the lowest rank that has one; for a point that touches no cell, the value in the closest cell; zero if there is no cell near. -/
def PointValue (I : Input X K) (e : Elem T) (dm : Nat → DMap) (x : Nat → List T) (phi : Nat → X → Nat → Nat → Nat → T) (q i m : Nat) (y : T) : Prop :=
  (Inside I q i → ∃ r c, LowestColliding I q i r ∧ FirstTouched I r (I.point q i) c ∧ IsValue e (dm r) (x r) c (phi r (I.point q i) c) m y) ∧
  (¬ Inside I q i →
    (∃ r c, LowestClosest I q i r ∧ FirstClosest I r (I.point q i) c ∧ IsValue e (dm r) (x r) c (phi r (I.point q i) c) m y) ∨
    ((∀ r ∈ I.coll q i, ∀ c ∈ I.cand r (I.point q i), I.maxVal ≤ I.dist r c (I.point q i)) ∧ y = 0))

end Verif.Spec.InterpOther
