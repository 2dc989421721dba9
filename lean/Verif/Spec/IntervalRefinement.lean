import Verif.Spec.GlobalIndex
/-! Specification: a mesh of intervals on ranks, and its refinement. -/
namespace Verif.Spec.Intervals
open Verif.World

/-- Cell `g` is to be refined: some rank has it as owner or ghost and asks for it, or all cells are requested. -/
def Asked (we : World) (cells : Nat → Option (List Nat)) (g : Nat) : Prop :=
  ∃ r < we.P, ∃ i, globalOf we r i = some g ∧ (cells r = none ∨ ∃ l, cells r = some l ∧ i ∈ l)

/-- Owned cells of the ranks have the end points `ends g` (global numbers), which are different. -/
def CellsOk (we wv : World) (c2v : Nat → List (List Nat)) (ends : Nat → Nat × Nat) : Prop :=
  ∀ r < we.P, ∀ c < we.size r, ∃ v0 v1, (c2v r)[c]? = some [v0, v1] ∧ globalOf wv r v0 = some (ends (we.r0 r + c)).1 ∧
    globalOf wv r v1 = some (ends (we.r0 r + c)).2 ∧ (ends (we.r0 r + c)).1 ≠ (ends (we.r0 r + c)).2

/-- `rows` are the new cells of a cell with ends `a`, `b` (as given): it is divided at `mid` or kept. -/
def Divided (M : Prop) (a b mid : Nat) (rows : List (List Nat)) : Prop := (M ∧ rows = [[a, mid], [mid, b]]) ∨ (¬ M ∧ rows = [[a, b]])

end Verif.Spec.Intervals
