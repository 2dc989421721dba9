import Mathlib.Data.List.Basic
/-!
# Entity maps between a mesh and a sub-mesh

Model of `mesh/EntityMap.h` L34-150.  The topologies themselves are not part of the model, only the
number of entities of the sub-topology.  Reading past the end of an array is `none`.
-/
namespace Verif.EntityMap

/-- Errors of the constructor. -/
inductive Err where
  /-- "No index map for entities" -/
  | noMap
  /-- "Size mismatch between `sub_topology_to_topology` and index map." -/
  | size
deriving DecidableEq, Repr

/-- The constructor, L36-61: `sub` is the number of owned and of ghost entities of the index map of the
sub-topology, `none` when there is no map. -/
def create (sub : Option (Nat × Nat)) (m : List Int) : Except Err (List Int) :=
  match sub with
  | none => .error .noMap
  | some (owned, ghosts) => if owned + ghosts ≠ m.length then .error .size else .ok m

/-- `unordered_map::insert`: an existing key is kept. -/
def insert (t : List (Int × Int)) (p : Int × Int) : List (Int × Int) :=
  if (t.lookup p.1).isSome then t else t ++ [p]

/-- The inverse table, L124-130. -/
def inverseTable (m : List Int) : List (Int × Int) :=
  (List.range m.length).foldl (fun t (i : Nat) => match m[i]? with
    | some e => insert t (e, i)
    | none => t) []

/-- `sub_topology_to_topology(entities, false)`, L108-116. -/
def forward (m : List Int) (entities : List Nat) : List (Option Int) :=
  entities.map fun i => m[i]?

/-- `sub_topology_to_topology(entities, true)`, L118-152. -/
def backward (m : List Int) (entities : List Int) : List Int :=
  let t := inverseTable m
  entities.map fun e => match t.lookup e with
    | some i => i
    | none => -1

end Verif.EntityMap
