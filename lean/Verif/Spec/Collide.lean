import Verif.Spec.Gjk
import Verif.Spec.EntityGeom
/-! Specification: nodes of cells and other entities, and the sums that the C++ standard allows for `std::reduce`. -/
namespace Verif.Spec.Collide
open Verif.Submesh (Geo)
open Verif.Spec.EntityGeom (Coord)

variable {K : Type} [Field K] [LinearOrder K]

/-- `ps` are the nodes of cell `c`. -/
def CellPts (g : Geo) (x : List K) (c : Nat) (ps : List (K × K × K)) : Prop := List.Forall₂ (Coord x) (g.xdofs c) ps

/-- `ps` are the nodes of entity `e`: all nodes of a cell; of another entity the nodes of a cell that has it, at the dofs of the closure of the entity. -/
def PtsOf (g : Geo) (tdim dim : Nat) (x : List K) (e : Nat) (ps : List (K × K × K)) : Prop :=
  (dim = tdim ∧ CellPts g x e ps) ∨
  (dim ≠ tdim ∧ ∃ c ∈ g.e2c e, ∃ le : Nat, (g.c2e c)[le]? = some e ∧
    ∃ l, List.Forall₂ (fun d n => (g.xdofs c)[d]? = some n) (g.closure dim le) l ∧ List.Forall₂ (Coord x) l ps)

/-- The square of the distance. -/
def sqd (p q : K × K × K) : K := (p.1 - q.1) ^ 2 + (p.2.1 - q.2.1) ^ 2 + (p.2.2 - q.2.2) ^ 2

/-- `GENERALIZED_NONCOMMUTATIVE_SUM` of the C++ standard: any bracketing. -/
inductive Bracketed (f : K → K → K) : List K → K → Prop where
  | one (a : K) : Bracketed f [a] a
  | two (l r : List K) (a b : K) : Bracketed f l a → Bracketed f r b → Bracketed f (l ++ r) (f a b)

/-- `GENERALIZED_SUM`: any order and bracketing; this is what `std::reduce` may return. -/
def Summed (f : K → K → K) (l : List K) (s : K) : Prop := ∃ l' : List K, l'.Perm l ∧ Bracketed f l' s

end Verif.Spec.Collide
