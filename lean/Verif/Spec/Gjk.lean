import Mathlib.Algebra.Order.Field.Basic
import Mathlib.Algebra.BigOperators.Group.List.Basic
/-! Specification: shortest vector between two convex bodies. -/
namespace Verif.Spec.Gjk

variable {K : Type} [Field K] [LinearOrder K]

/-- Inner product. -/
def inner (u v : K × K × K) : K := u.1 * v.1 + u.2.1 * v.2.1 + u.2.2 * v.2.2

/-- `p` is in the convex hull of `S`: it is the mean of points of `S` with weights. -/
def Hull (S : List (K × K × K)) (p : K × K × K) : Prop :=
  ∃ l : List (K × (K × K × K)), (∀ a ∈ l, 0 ≤ a.1 ∧ a.2 ∈ S) ∧ (l.map fun a => a.1).sum = 1 ∧
    p = ((l.map fun a => a.1 * a.2.1).sum, (l.map fun a => a.1 * a.2.2.1).sum, (l.map fun a => a.1 * a.2.2.2).sum)

/-- `v` leads from a point of the hull of `Q` to a point of the hull of `P`. -/
def Between (P Q : List (K × K × K)) (v : K × K × K) : Prop := ∃ p q, Hull P p ∧ Hull Q q ∧ v = p - q

/-- No vector between the bodies is shorter than `v`, up to the tolerance `tol` in its square. -/
def Least (P Q : List (K × K × K)) (tol : K) (v : K × K × K) : Prop := ∀ u, Between P Q u → inner v v ≤ inner u u + tol

/-- Where the code is right: there are no vectors `a`, `b`, `c` between points of the bodies such that the point `x` of the line through `a` and `b` nearest to
the origin is between `a` and `b`, `c` is lowest in direction `x`, and the plane through `c` orthogonal to `c` contains `a` and separates `b` from the origin. -/
def NoTie (P Q : List (K × K × K)) : Prop :=
  ∀ a b c x l m, (∃ p ∈ P, ∃ q ∈ Q, a = p - q) → (∃ p ∈ P, ∃ q ∈ Q, b = p - q) → (∃ p ∈ P, ∃ q ∈ Q, c = p - q) → 0 < l → 0 < m → l + m = 1 →
    x = (l * a.1 + m * b.1, l * a.2.1 + m * b.2.1, l * a.2.2 + m * b.2.2) → inner x a = inner x x → inner x b = inner x x →
    (∀ t, (∃ p ∈ P, ∃ q ∈ Q, t = p - q) → inner x c ≤ inner x t) → inner x c < inner x x → inner c a = inner c c → inner c b ≤ inner c c

end Verif.Spec.Gjk
