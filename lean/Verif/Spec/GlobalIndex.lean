import Verif.Model.World
/-! Specification: the global index that a local index stands for. -/
namespace Verif.Spec
open Verif.World

/-- Owned indices come first, then the ghosts. -/
def globalOf (w : World) (r i : Nat) : Option Nat :=
  if i < w.size r then some (w.r0 r + i) else (w.ghosts r)[i - w.size r]?

end Verif.Spec
