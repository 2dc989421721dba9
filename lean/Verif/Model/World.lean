import Verif.Model.IndexMap
/-!
# An index map distributed over all ranks

The local parts of one `IndexMap` on every rank of a communicator, and the
neighbourhood lists computed by `build_src_dest` (`common/IndexMap.cpp` L31-49).
-/
namespace Verif.World
open Verif.Std

/-- Owned size, ghost indices and ghost owners of every rank. -/
structure World where
  P : Nat
  size : Nat → Nat
  ghosts : Nat → List Nat
  owners : Nat → List Nat

/-- Start of the owned range of rank `r` (constructor, L899-933). -/
def World.r0 (w : World) (r : Nat) : Nat := Offsets.excl w.size r

/-- The `IndexMap` object on rank `r`. -/
def World.map (w : World) (r : Nat) : IndexMap.Map := IndexMap.build w.P w.size w.ghosts w.owners r

/-- Ranks owning ghosts of `r`, sorted without repetition (L39-43). -/
def World.src (w : World) (r : Nat) : List Nat := unique (sortNat (w.owners r))

/-- Ranks that ghost indices owned by `r`: the NBX in-edges of the `src` lists, sorted
(L45-46; that NBX returns exactly the in-edges is C07). -/
def World.dest (w : World) (r : Nat) : List Nat :=
  (List.range w.P).filter fun q => decide (r ∈ w.src q)

/-- Requirements of the `IndexMap` constructor (`IndexMap.h` L143-170): ghosts are
distinct, each is owned by the stated other rank. -/
structure World.Valid (w : World) : Prop where
  len : ∀ r, r < w.P → (w.owners r).length = (w.ghosts r).length
  nodup : ∀ r, r < w.P → (w.ghosts r).Nodup
  owner : ∀ r, r < w.P → ∀ (k q g : Nat), (w.owners r)[k]? = some q → (w.ghosts r)[k]? = some g →
    q < w.P ∧ q ≠ r ∧ w.r0 q ≤ g ∧ g < w.r0 q + w.size q

end Verif.World
