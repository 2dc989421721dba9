import Verif.Model.World
/-!
# Locating dofs on mesh entities

`cpp/dolfinx/fem/DirichletBC.cpp`, one space: `find_local_entity_index`, `get_remote_dofs`
and `locate_dofs_topological`.

Simplifications: `std::set_union` of the sorted neighbour lists is modelled by sorting and removing duplicates.
The neighbourhood `allgatherv` delivers the lists of all neighbours in order.
-/
namespace Verif.Locate
open Verif.Std Verif.World

/-- What a rank reads of its topology and dof map: `connectivity(dim, tdim)`, `connectivity(tdim, dim)`, `cell_dofs`, the
closure dofs of the entities of a cell, and the block sizes of dof map and element. -/
structure Input where
  e2c : List (List Nat)
  c2e : Nat → List Nat
  cellDofs : Nat → List Nat
  closure : Nat → List Nat
  bs : Nat
  ebs : Nat

/-- `find_local_entity_index`, L35-83.  `none`: an exception (or a failed assertion). -/
def findLocal (I : Input) (e : Nat) : Option (Nat × Nat) :=
  match I.e2c[e]? with
  | some (cell :: _) => if e ∈ I.c2e cell then some (cell, (I.c2e cell).idxOf e) else none
  | _ => none

/-- The loops over marked entities, L232-263. -/
def entityDofs (I : Input) (x : Nat × Nat) : Option (List Nat) :=
  if I.ebs = I.bs then some ((I.closure x.2).map fun index => (I.cellDofs x.1).getD index 0)
  else if I.bs = 1 then
    some ((I.closure x.2).flatMap fun index => (List.range I.ebs).map fun k =>
      I.bs * (I.cellDofs x.1).getD ((I.ebs * index + k) / I.bs) 0 + (I.ebs * index + k) % I.bs)
  else none

/-- Dofs found by a rank on its own, L218-269. -/
def localDofs (I : Input) (entities : List Nat) : Option (List Nat) :=
  (entities.mapM (findLocal I)).bind fun xs =>
    (xs.mapM (entityDofs I)).map fun l => unique (sortNat l.flatten)

/-- The symmetric neighbourhood, L281-291. -/
def neighbours (w : World) (q : Nat) : List Nat := unique (sortNat (w.src q ++ w.dest q))

/-- `dofs_global`, L117-139. -/
def globalDofs (w : World) (B : Nat) (loc : Nat → List Nat) (p : Nat) : List Nat :=
  (loc p).map fun d =>
    if B = 1 then ((w.map p).localToGlobal d).getD 0
    else B * ((w.map p).localToGlobal (d / B)).getD 0 + d % B

/-- Received dofs that exist on this rank, L160-193; `std::map` keeps the first pair with a key. -/
def toLocal (w : World) (B q : Nat) (g : Nat) : Option Nat :=
  if w.r0 q ≤ g / B ∧ g / B < w.r0 q + w.size q then some (g - B * w.r0 q)
  else (((w.ghosts q).zipIdx).find? fun x => decide (x.1 = g / B)).map fun x => B * (x.2 + w.size q) + g % B

/-- `get_remote_dofs`, L95-196. -/
def remoteDofs (w : World) (B : Nat) (loc : Nat → List Nat) (q : Nat) : List Nat :=
  if neighbours w q = [] then []
  else ((neighbours w q).flatMap (globalDofs w B loc)).filterMap (toLocal w B q)

/-- `locate_dofs_topological` on rank `q` after all ranks found their own dofs, L271-309; `mapBs` is `index_map_bs`. -/
def locate (w : World) (mapBs bs : Nat) (loc : Nat → List Nat) (remote : Bool) (q : Nat) : List Nat :=
  if remote then unique (sortNat (loc q ++ remoteDofs w (if mapBs = bs then 1 else mapBs) loc q)) else loc q

end Verif.Locate
