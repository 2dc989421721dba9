import Verif.Model.World
/-!
# The global vector represented by distributed local arrays
-/
namespace Verif.Props
open Verif.World

/-- `X` is the global vector stored in the owned parts of `x`: entry `bs * (first global
index of rank r) + n` is owned entry `n` of rank `r`.  (Every global position below
`bs * (sum of sizes)` is of this form for exactly one rank, C05.) -/
def Represents {R : Type} (w : World) (bs : Nat) (x : Nat → Nat → R) (X : Nat → R) : Prop :=
  ∀ r, r < w.P → ∀ n, n < bs * w.size r → X (bs * w.r0 r + n) = x r n

end Verif.Props
