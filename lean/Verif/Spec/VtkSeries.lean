import Verif.Model.VtkSeries
/-! Specification of time series in VTKHDF files: what a reader finds at a step. -/
namespace Verif.Spec.VtkSeries
open Verif.VtkSeries

variable {α τ : Type}

/-- Number of points or cells of a process. -/
def owned (maps : List (Nat → Nat)) (r : Nat) : Nat := (maps.map fun m => m r).sum

/-- Number of points or cells of the mesh. -/
def total (P : Nat) (maps : List (Nat → Nat)) : Nat := ((List.range P).map (owned maps)).sum

/-- The values of all points or cells, process by process: values of point `i` of a process are entries `w * i, …, w * i + w - 1` of its data. -/
def meshRows (P : Nat) (maps : List (Nat → Nat)) (w : Nat) (data : Nat → List α) : List (List α) :=
  (List.range P).flatMap fun r => (List.range (owned maps r)).map fun i => ((data r).drop (w * i)).take w

/-- What a reader finds at step `k`: the time, and as many rows as there are points or cells, from the offset of the step. -/
def atStep (f : TFile α τ) (kind : Kind) (n k : Nat) : Option (τ × List (List α)) := do
  let t ← f.values[k]?
  let o ← (f.dataOffsets kind)[k]?
  let d ← f.u kind
  some (t, (d.rows.drop o.toNat).take n)

/-- The file holds these steps: every list of the group `Steps` has an entry for each. -/
structure HoldsSteps (f : TFile α τ) (kind : Kind) (n : Nat) (steps : List (τ × List (List α))) : Prop where
  count : f.nsteps = if steps = [] then none else some (steps.length : Int)
  offsets : f.cellOffsets = List.replicate steps.length 0 ∧ f.connOffsets = List.replicate steps.length 0 ∧
    f.parts = List.replicate steps.length 1 ∧ f.partOffsets = List.replicate steps.length 0 ∧ f.pointOffsets = List.replicate steps.length 0
  lengths : f.values.length = steps.length ∧ (f.dataOffsets kind).length = steps.length
  step : ∀ k, k < steps.length → atStep f kind n k = steps[k]?

end Verif.Spec.VtkSeries
