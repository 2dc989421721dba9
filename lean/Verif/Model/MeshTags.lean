import Verif.Model.StdAlg
import Mathlib.Order.Lattice
/-!
# Mesh tags

Model of `common/utils.h` L26-72 (`sort_unique`), `mesh/Topology.cpp` L1602-1656
(`entities_to_index`) and `mesh/MeshTags.h` L46-178.  Exceptions are error values.  `std::map` is
an association list whose insertion fails on an existing key.  The debug checks of the `MeshTags`
constructor are part of the model.
-/
namespace Verif.MeshTags
open Verif.Std

/-- Errors. -/
inductive Err where
  /-- "Cannot sort two arrays of different lengths" -/
  | lengths
  /-- "Duplicate mesh entity detected." -/
  | duplicateEntity
  /-- "Duplicate mesh entities when building MeshTags object." -/
  | duplicateTags
  /-- "Indices and values arrays must have same size." -/
  | sizes
  /-- "MeshTag data is not sorted" (debug) -/
  | notSorted
  /-- "MeshTag data has duplicates" (debug) -/
  | duplicates
deriving DecidableEq, Repr

/-- The loop of `std::unique` after the kept element `a`. -/
def uniqueFrom {α : Type} (eq : α → α → Bool) : α → List α → List α
  | _, [] => []
  | a, b :: l => if eq a b then uniqueFrom eq a l else b :: uniqueFrom eq b l

/-- `std::unique` with a predicate, followed by the removal of the tail. -/
def uniqueBy {α : Type} (eq : α → α → Bool) : List α → List α
  | [] => []
  | a :: l => a :: uniqueFrom eq a l

section
variable {V : Type} [LinearOrder V]

/-- `operator<` of `std::pair` as a total order. -/
def pairLe (a b : Int × V) : Bool := decide (a.1 < b.1 ∨ (a.1 = b.1 ∧ a.2 ≤ b.2))

/-- `sort_unique`, `common/utils.h` L37-72. -/
def sortUnique (ind : List Int) (vals : List V) : Except Err (List Int × List V) :=
  if ind.length ≠ vals.length then .error .lengths
  else
    let data := uniqueBy (fun a b : Int × V => decide (a.1 = b.1)) (sort pairLe (ind.zip vals))
    .ok (data.map Prod.fst, data.map Prod.snd)
end

/-- A `MeshTags` object: `_indices` and `_values`. -/
structure Tags (V : Type) where
  indices : List Int
  values : List V
deriving DecidableEq, Repr

section
variable {V : Type}

/-- The constructor, `MeshTags.h` L46-70. -/
def Tags.new (ind : List Int) (vals : List V) : Except Err (Tags V) :=
  if ind.length ≠ vals.length then .error .sizes
  else if ¬ (ind.Pairwise (· ≤ ·)) then .error .notSorted
  else if ¬ ind.Nodup then .error .duplicates
  else .ok ⟨ind, vals⟩

/-- `find`, `MeshTags.h` L90-101. -/
def Tags.find [DecidableEq V] (t : Tags V) (v : V) : List Int :=
  (List.range t.values.length).foldl (fun out i =>
    if t.values[i]? = some v then out ++ (t.indices[i]?).toList else out) []
end

/-- Sorted key of an entity or of a query. -/
def key (vs : List Nat) : List Nat := sortNat vs

/-- One insertion in `entity_key_to_index`, L1625-1633. -/
def insertKey (m : List (List Nat × Nat)) (k : List Nat) (e : Nat) : Except Err (List (List Nat × Nat)) :=
  if (m.lookup k).isSome then .error .duplicateEntity else .ok (m ++ [(k, e)])

/-- `entity_key_to_index`; `rows` are the vertices of entities `e`, `e + 1`, …. -/
def buildKeys : List (List Nat) → Nat → List (List Nat × Nat) → Except Err (List (List Nat × Nat))
  | [], _, m => .ok m
  | vs :: rows, e, m =>
    match insertKey m (key vs) e with
    | .error x => .error x
    | .ok m' => buildKeys rows (e + 1) m'

/-- `entities_to_index`: `etov` is the entity to vertex connectivity, `queries` the vertices of
the entities to look up. -/
def entitiesToIndex (etov queries : List (List Nat)) : Except Err (List Int) :=
  match buildKeys etov 0 [] with
  | .error x => .error x
  | .ok m => .ok (queries.map fun q => match m.lookup (key q) with | some e => (e : Int) | none => -1)

/-- `create_meshtags`, `MeshTags.h` L145-178. -/
def createMeshtags {V : Type} [LinearOrder V] (etov queries : List (List Nat)) (vals : List V) :
    Except Err (Tags V) :=
  match entitiesToIndex etov queries with
  | .error x => .error x
  | .ok ind =>
    if ind.length ≠ vals.length then .error .duplicateTags
    else
      match sortUnique ind vals with
      | .error x => .error x
      | .ok (i, v) =>
        let pos := lowerBound (fun e => decide (e < 0)) i
        Tags.new (i.drop pos) (v.drop pos)

end Verif.MeshTags
