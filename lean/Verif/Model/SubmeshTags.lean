import Verif.Model.Submesh
/-!
# Transfer of tags to a sub-mesh

Model of `mesh::transfer_meshtags_to_submesh`, `cpp/dolfinx/mesh/utils.h` L1501-1685, on one process (there is no
communication).  A missing index map or connectivity is `none`.  An index past the end of an array is not found; the
hypotheses of the theorems exclude it.
-/
namespace Verif.SubmeshTags
open Verif.Submesh

/-- Errors, in the order of the checks. -/
inductive Err where
  /-- "Tag dimension must be less than or equal to submesh dimension" -/
  | dim
  /-- "Entities of dimension {} does not exist in mesh topology." -/
  | subCells
  /-- "Entities of dimension {} does not exist in parent mesh topology." -/
  | parentEntities
  /-- "Missing connectivity between {} and {} in parent mesh" -/
  | parentToCells
  /-- "Missing connectivity between {} and {} in submesh" (entities to vertices) -/
  | subToVertices
  /-- "Missing connectivity between {} and {} in submesh" (cells to entities) -/
  | subToEntities
  /-- "Entities of dimension {} does not exist in submesh topology." -/
  | subEntities
  /-- "Missing connectivity between {} and 0" -/
  | parentToVertices
deriving DecidableEq, Repr

/-- Arguments: tags with their dimension, the connectivities of the mesh (tagged entities to vertices and to entities of
the dimension of the sub-mesh) and of the sub-mesh (entities to vertices, cells to entities), numbers of
entities, and the maps of the cells and vertices of the sub-mesh. -/
structure Input (V : Type) where
  tagDim : Nat
  subDim : Nat
  tags : List (Nat × V)
  subCells : Option Nat
  parentEnts : Option Nat
  e2c : Option (Nat → List Nat)
  e2v : Option (Nat → List Nat)
  subE2v : Option (Nat → List Nat)
  subC2e : Option (Nat → List Nat)
  subEnts : Option Nat
  cellMap : List Nat
  vertMap : List Nat
  /-- `std::numeric_limits<T>::max()` -/
  maxVal : V

variable {V : Type} [DecidableEq V]

/-- `entity_matches`, L1645-1653. -/
def isMatch (vertMap ev sv : List Nat) : Bool :=
  sv.all fun v => match vertMap[v]? with
    | some p => ev.contains p
    | none => false

/-- `find_and_map_sub_entity`, L1615-1662; `none` is -1. -/
def findSub (same : Bool) (table : List (Option Nat)) (vertMap : List Nat) (e2c e2v subE2v subC2e : Nat → List Nat)
    (e : Nat) : Option Nat :=
  if same then (table[e]?).join
  else ((e2c e).filterMap fun c => (table[c]?).join).findSome? fun k =>
    (subC2e k).find? fun s => isMatch vertMap (e2v e) (subE2v s)

/-- `transfer_meshtags_to_submesh`, L1501-1685: indices with values. -/
def transfer (I : Input V) : Except Err (List (Nat × V)) :=
  if I.tagDim > I.subDim then .error .dim
  else match I.subCells with
  | none => .error .subCells
  | some nc =>
  match I.parentEnts with
  | none => .error .parentEntities
  | some np =>
  if I.tagDim ≠ I.subDim ∧ I.e2c.isNone then .error .parentToCells
  else match I.subE2v with
  | none => .error .subToVertices
  | some subE2v =>
  match I.subC2e with
  | none => .error .subToEntities
  | some subC2e =>
  match I.subEnts with
  | none => .error .subEntities
  | some ns =>
  match I.e2v with
  | none => .error .parentToVertices
  | some e2v =>
    let table := inverse np (I.cellMap.take nc)
    let values := I.tags.foldl (fun a t =>
      match findSub (decide (I.tagDim = I.subDim)) table I.vertMap (I.e2c.getD fun _ => []) e2v subE2v subC2e t.1 with
      | some s => a.set s t.2
      | none => a) (List.replicate ns I.maxVal)
    .ok ((values.zipIdx.map fun p => (p.2, p.1)).filter fun p => decide (p.2 ≠ I.maxVal))

end Verif.SubmeshTags
