import Verif.Model.TimingTable
import Mathlib.Algebra.BigOperators.Group.List.Basic
/-! # What a table of timings shows -/
namespace Verif.Spec.TimingTable
open Verif.TimingTable (Name Reduction)

variable {K : Type} [Field K] [LinearOrder K]

/-- `x` is the reduction, over `P` ranks, of the values `vs` of the ranks that have one. -/
def IsReduced (P : Nat) (red : Reduction) (vs : List K) (x : K) : Prop :=
  match red with
  | .average => x = vs.sum / (P : K)
  | .max => x ∈ vs ∧ ∀ v ∈ vs, v ≤ x
  | .min => x ∈ vs ∧ ∀ v ∈ vs, x ≤ v

/-- A log as the logger has it: one entry for each task, counted at least once, no zero character in names. -/
structure LogOk (L : List (Name × Nat × K)) : Prop where
  nodup : (L.map Prod.fst).Nodup
  char : ∀ e ∈ L, '\x00' ∉ e.1

/-- Total and mean time of a task on each rank that has it. -/
def totals (P : Nat) (logs : Nat → List (Name × Nat × K)) (task : Name) : List K :=
  (List.range P).filterMap fun r => ((logs r).find? fun e => e.1 == task).map fun e => e.2.2

def means (P : Nat) (logs : Nat → List (Name × Nat × K)) (task : Name) : List K :=
  (List.range P).filterMap fun r => ((logs r).find? fun e => e.1 == task).map fun e => e.2.2 / (e.2.1 : K)

end Verif.Spec.TimingTable
