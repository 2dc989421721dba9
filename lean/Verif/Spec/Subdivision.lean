import Mathlib.Algebra.BigOperators.Ring.Finset
import Mathlib.Algebra.Order.Field.Basic
import Mathlib.Data.Finset.Card
import Mathlib.Data.Finset.Image
import Mathlib.Tactic.Ring
import Mathlib.Tactic.Linarith
/-!
# Subdivisions of a simplex

A point of a simplex is given by its barycentric coordinates `lam`.  The vertices of new cells are the vertices of the
simplex and midpoints of its edges; `ends i` lists the vertices that point `i` is the middle of.
-/
namespace Verif.Spec.Subdiv

variable (K : Type) [Field K] [LinearOrder K] [IsStrictOrderedRing K]

/-- Vertices of a triangle and the midpoints of its edges (edge `e` is opposite to vertex `e`). -/
def triEnds (i : Nat) : List Nat := [[0], [1], [2], [1, 2], [0, 2], [0, 1]].getD i []

/-- Vertices of a tetrahedron and the midpoints of its edges in the numbering of the reference cell. -/
def tetEnds (i : Nat) : List Nat := [[0], [1], [2], [3], [2, 3], [1, 3], [1, 2], [0, 3], [0, 2], [0, 1]].getD i []

/-- Barycentric coordinate `j` of point `i`. -/
def coord (ends : Nat → List Nat) (i j : Nat) : K := if j ∈ ends i then 1 / ((ends i).length : K) else 0

variable {K}

/-- Combination of the points of `t` with weights `mu`. -/
def comb (ends : Nat → List Nat) (t : Finset Nat) (mu : Nat → K) (j : Nat) : K := ∑ c ∈ t, mu c * coord K ends c j

/-- `lam` lies in the closed simplex with vertices `t`. -/
def InCell (ends : Nat → List Nat) (t : Finset Nat) (lam : Nat → K) : Prop :=
  ∃ mu : Nat → K, (∀ c ∈ t, 0 ≤ mu c) ∧ ∀ j, lam j = comb ends t mu j

/-- `lam` lies in the interior of the simplex with vertices `t`. -/
def Interior (ends : Nat → List Nat) (t : Finset Nat) (lam : Nat → K) : Prop :=
  ∃ mu : Nat → K, (∀ c ∈ t, 0 < mu c) ∧ ∀ j, lam j = comb ends t mu j

variable (K) in
/-- The points of `t` are affinely independent. -/
def Indep (ends : Nat → List Nat) (t : Finset Nat) : Prop :=
  ∀ mu nu : Nat → K, (∀ j, comb ends t mu j = comb ends t nu j) → ∀ c ∈ t, mu c = nu c

variable (K) in
/-- The cells `T` tile the simplex `t0`: they lie in it, cover it, have no common inner points, and none is degenerate. -/
structure Tiles (ends : Nat → List Nat) (t0 : Finset Nat) (T : List (Finset Nat)) : Prop where
  inside : ∀ t ∈ T, ∀ lam : Nat → K, InCell ends t lam → InCell ends t0 lam
  cover : ∀ lam : Nat → K, InCell ends t0 lam → ∃ t ∈ T, InCell ends t lam
  apart : T.Pairwise fun t t' => ∀ lam : Nat → K, ¬ (Interior ends t lam ∧ InCell ends t' lam) ∧ ¬ (InCell ends t lam ∧ Interior ends t' lam)
  proper : ∀ t ∈ T, Indep K ends t ∧ t.card = t0.card

end Verif.Spec.Subdiv
