import Mathlib.Data.List.Forall2
import Mathlib.Algebra.Order.Field.Basic
import Verif.Model.Submesh
/-! Specification: points, size, midpoint and normal of mesh entities. -/
namespace Verif.Spec.EntityGeom
open Verif.Submesh (Geo)

variable {K : Type} [Field K] [LinearOrder K]

/-- `l` are the nodes of entity `e` in some cell that has it: the nodes of the cell at the dofs of the closure of the entity. -/
def NodesIn (g : Geo) (tdim dim e : Nat) (l : List Nat) : Prop :=
  ∃ c le, (dim = tdim ∧ c = e ∧ le = 0 ∨ dim ≠ tdim ∧ c ∈ g.e2c e ∧ (g.c2e c)[le]? = some e) ∧
    List.Forall₂ (fun d n => (g.xdofs c)[d]? = some n) (g.closure dim le) l

/-- Node `n` has the coordinates `p`. -/
def Coord (x : List K) (n : Nat) (p : K × K × K) : Prop := x[3 * n]? = some p.1 ∧ x[3 * n + 1]? = some p.2.1 ∧ x[3 * n + 2]? = some p.2.2

/-- The points `ps` of entity `e`. -/
def PointsOf (g : Geo) (tdim dim : Nat) (x : List K) (e : Nat) (ps : List (K × K × K)) : Prop :=
  ∃ l, NodesIn g tdim dim e l ∧ List.Forall₂ (Coord x) l ps

/-- Inner product. -/
def dot (u v : K × K × K) : K := u.1 * v.1 + u.2.1 * v.2.1 + u.2.2 * v.2.2

/-- From `p` to `q`. -/
def vec (p q : K × K × K) : K × K × K := (q.1 - p.1, q.2.1 - p.2.1, q.2.2 - p.2.2)

/-- Determinant of three vectors. -/
def det3 (u v w : K × K × K) : K :=
  u.1 * (v.2.1 * w.2.2 - v.2.2 * w.2.1) - u.2.1 * (v.1 * w.2.2 - v.2.2 * w.1) + u.2.2 * (v.1 * w.2.1 - v.2.1 * w.1)

/-- `d` is the greatest distance between two of the points. -/
def Diameter (ps : List (K × K × K)) (d : K) : Prop :=
  0 ≤ d ∧ (∀ p ∈ ps, ∀ q ∈ ps, dot (vec p q) (vec p q) ≤ d * d) ∧ (d = 0 ∨ ∃ p ∈ ps, ∃ q ∈ ps, dot (vec p q) (vec p q) = d * d)

/-- `c` is the mean of the points. -/
def Mean (ps : List (K × K × K)) (c : K × K × K) : Prop :=
  ps.length * c.1 = (ps.map fun p => p.1).sum ∧ ps.length * c.2.1 = (ps.map fun p => p.2.1).sum ∧ ps.length * c.2.2 = (ps.map fun p => p.2.2).sum

/-- The square root. -/
def Sqrt (sqrt : K → K) : Prop := ∀ a, 0 ≤ a → 0 ≤ sqrt a ∧ sqrt a * sqrt a = a

/-- What the mesh must satisfy: entities have a cell, which lists them; the cells have the closure dofs, and their nodes exist. -/
structure MeshOk (g : Geo) (tdim dim : Nat) (x : List K) (entities : List Nat) : Prop where
  cell : dim ≠ tdim → ∀ e ∈ entities, g.e2c e ≠ [] ∧ ∀ c ∈ g.e2c e, e ∈ g.c2e c
  dofs : ∀ e ∈ entities, ∀ c, (dim = tdim ∧ c = e ∨ dim ≠ tdim ∧ c ∈ g.e2c e) →
    (∀ le, ∀ d ∈ g.closure dim le, d < (g.xdofs c).length) ∧ ∀ n ∈ g.xdofs c, 3 * n + 2 < x.length

end Verif.Spec.EntityGeom
