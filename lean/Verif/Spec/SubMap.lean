import Verif.Spec.GlobalIndex
/-! Specification of sub index maps: who chose a global index and who must own it. -/
namespace Verif.Spec
open Verif.World

/-- `p` owns the global index `g`. -/
def Owns (w : World) (p g : Nat) : Prop := p < w.P ∧ w.r0 p ≤ g ∧ g < w.r0 p + w.size p

/-- Rank `q` lists a local index of the global index `g`. -/
def Chooses (w : World) (ind : Nat → List Nat) (q g : Nat) : Prop := ∃ i ∈ ind q, globalOf w q i = some g

/-- The old owner stays owner if it lists the index, otherwise the lowest rank listing it. -/
def NewOwner (w : World) (ind : Nat → List Nat) (g o : Nat) : Prop :=
  ∃ p, Owns w p g ∧ ((Chooses w ind p g ∧ o = p) ∨
    (¬ Chooses w ind p g ∧ o < w.P ∧ Chooses w ind o g ∧ ∀ q, q < w.P → Chooses w ind q g → o ≤ q))

end Verif.Spec
