import Verif.Model.LocateDofs
import Verif.Spec.GlobalIndex
/-! Specification: the dofs of marked entities, by global number. -/
namespace Verif.Spec.Locate
open Verif.Locate Verif.World

/-- Dof `d` (a block, or a scalar dof where the space is not blocked but its element is) is attached to
the closure of entity number `i` of cell `c`. -/
def OnCell (I : Input) (c i d : Nat) : Prop :=
  ∃ index ∈ I.closure i, (I.ebs = I.bs ∧ (I.cellDofs c)[index]? = some d) ∨
    (I.ebs ≠ I.bs ∧ ∃ k, k < I.ebs ∧ (I.cellDofs c)[I.ebs * index + k]? = some d)

/-- Dof `d` is on the closure of entity `e`: seen from some cell of the rank. -/
def OnEntity (I : Input) (e d : Nat) : Prop := ∃ c i, (I.c2e c)[i]? = some e ∧ OnCell I c i d

/-- Topology and dof map fit together: entity-cell and cell-entity connectivity agree for the entities, cells have dofs
at all positions of the layout, and two cells agree about the dofs on the closure of a common entity (C42). -/
structure Ok (I : Input) (entities : List Nat) : Prop where
  attached : ∀ e ∈ entities, ∃ c l, I.e2c[e]? = some (c :: l) ∧ e ∈ I.c2e c
  size : ∀ (c i e : Nat), (I.c2e c)[i]? = some e → ∀ index ∈ I.closure i, if I.ebs = I.bs then index < (I.cellDofs c).length
    else I.ebs * index + I.ebs ≤ (I.cellDofs c).length
  blocks : I.ebs = I.bs ∨ I.bs = 1
  agree : ∀ (c i c' i' e d : Nat), (I.c2e c)[i]? = some e → (I.c2e c')[i']? = some e → (OnCell I c i d ↔ OnCell I c' i' d)

/-- Some rank has component `k` of global block `J` among its dofs `loc`; `B` components per block. -/
def FoundBy (w : World) (B : Nat) (loc : Nat → List Nat) (p J k : Nat) : Prop :=
  ∃ j, globalOf w p j = some J ∧ B * j + k ∈ loc p

end Verif.Spec.Locate
