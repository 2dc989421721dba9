import Verif.Model.World
/-!
# Dof map of a real element

Model of `fem::build_real_element_dofmap`, `cpp/dolfinx/fem/dofmapbuilder.cpp` L714-752, on all ranks of a communicator.
The input is the index map of the cells.
-/
namespace Verif.RealDofmap
open Verif.World

variable (w : World)

/-- `is_owner`, L721-722. -/
def isOwner (r : Nat) : Nat := if w.r0 r = 0 ∧ 0 < w.size r then 1 else 0

/-- `MPI_MAXLOC` of two pairs: the greater value, and the lower rank of equal values. -/
def maxloc (a b : Nat × Nat) : Nat × Nat :=
  if a.1 < b.1 then b else if b.1 < a.1 then a else (a.1, min a.2 b.2)

/-- `recv_owner_pair`, L729-734. -/
def ownerPair : Nat × Nat :=
  (List.range w.P).foldl (fun a r => maxloc a (isOwner w r, r)) (isOwner w 0, 0)

/-- The index map, L724-740. -/
def realWorld : World where
  P := w.P
  size r := isOwner w r
  ghosts r := List.replicate (1 - isOwner w r) 0
  owners r := List.replicate (1 - isOwner w r) (ownerPair w).2

/-- The dof map array, L743-747. -/
def dofmap (r : Nat) : List Nat := List.replicate (w.size r + (w.ghosts r).length) 0

end Verif.RealDofmap
