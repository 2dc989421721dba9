import Verif.Model.BlockSpaces
import Verif.Spec.SubSpace
/-!
# What spaces of forms and conditions of blocks are

From the model only the programs, forms and conditions are used.
-/
namespace Verif.Spec.BlockSpaces
open Verif.SubSpace Verif.BlockSpaces

/-- Space `k` of a program is sub-space `path` of the space `r`, which is not made by `sub`. -/
inductive From (ops : List Op) : Nat → Nat → List Nat → Prop
  | root {k : Nat} {op : Op} (h : ops[k]? = some op) (hs : ∀ V i, op ≠ .sub V i) : From ops k k []
  | sub {k V i r : Nat} {p : List Nat} (h : ops[k]? = some (.sub V i)) (hV : From ops V r p) : From ops k r (p ++ [i])

/-- Space `b` is a sub-space of `a`, or the same part of the same space. -/
def Within (ops : List Op) (a b : Nat) : Prop := ∃ r p q, From ops a r p ∧ From ops b r (p ++ q)

/-- The form at place `(i, j)`. -/
def FormAt (fs : List (List (Option Form))) (i j : Nat) (f : Form) : Prop := ∃ row, fs[i]? = some row ∧ row[j]? = some (some f)

/-- The test spaces of the rows: `L i` is the test space of all forms of row `i`, and nothing if there is none. -/
def TestSpaces (fs : List (List (Option Form))) (L : List (Option Nat)) : Prop :=
  L.length = fs.length ∧ ∀ i s, L[i]? = some (some s) ↔ ∃ j f, FormAt fs i j f ∧ f.spaces[0]? = some s

/-- The trial spaces of the `m` columns. -/
def TrialSpaces (m : Nat) (fs : List (List (Option Form))) (L : List (Option Nat)) : Prop :=
  L.length = m ∧ ∀ j s, L[j]? = some (some s) ↔ ∃ i f, FormAt fs i j f ∧ f.spaces[1]? = some s

/-- All forms have at least `k` spaces. -/
def HaveSpaces (k : Nat) (fs : List (List (Option Form))) : Prop := ∀ i j f, FormAt fs i j f → k ≤ f.spaces.length

/-- An array with `m` columns. -/
def Columns (m : Nat) (fs : List (List (Option Form))) : Prop := ∀ row ∈ fs, row.length = m

/-- Dof `x` belongs to the cells of a dofmap for element `e` on `nc` cells. -/
def HasDof (D : DofMap) (e : Elem) (nc x : Nat) : Prop := ∃ c j, c < nc ∧ j < e.dim ∧ D.dof c j = some x

end Verif.Spec.BlockSpaces
