import Verif.Spec.Integration
import Verif.Model.IntegrationDomains
import Mathlib.Algebra.Group.Defs
/-!
Specification: the value of a form on the whole mesh.
-/
namespace Verif.Spec.Integration
open Verif.World Verif.Spec Verif.Integration

/-- The entities that integrals of a kind are about. -/
def Dom (m : Mesh) : Kind → Nat → Prop
  | .exteriorFacet, f => (cellsAt m f).length = 1
  | .interiorFacet, f => (cellsAt m f).length = 2
  | _, _ => True

instance (m : Mesh) (k : Kind) : DecidablePred (Dom m k) := fun f => by
  cases k <;> unfold Dom <;> infer_instance

/-- `row` stands for entity `f` on process `r`. -/
def Row (m : Mesh) : Kind → Nat → Nat → List Nat → Prop
  | .cell, r, f, row => ∃ c, row = [c] ∧ globalOf m.E r c = some f
  | .interiorFacet, r, f, row => TwoSided m r f row
  | _, r, f, row => OneSided m r f row

/-- All cells at owned entities are on the process (ghost mode "shared facet"). -/
def Ghosted (m : Mesh) : Prop :=
  (∀ f, (cellsAt m f).length ≤ 2) ∧ ∀ r < m.C.P, ∀ e < m.E.size r, ∀ g ∈ cellsAt m (m.E.r0 r + e), ∃ c, globalOf m.C r c = some g

/-- All kinds of integrals. -/
def allKinds : List Kind := [.cell, .interiorFacet, .exteriorFacet, .vertex, .ridge]

example : allKinds.Nodup ∧ ∀ k, k ∈ allKinds := ⟨by decide, by intro k; cases k <;> decide⟩

end Verif.Spec.Integration
