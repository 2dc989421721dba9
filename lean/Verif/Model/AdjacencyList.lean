/-!
# `dolfinx::graph::AdjacencyList`

Model of `cpp/dolfinx/graph/AdjacencyList.h`.  Simplification: offsets are
naturals (the C++ stores `int32` and would wrap past 2^31 links).
-/
namespace Verif.AdjList

variable {α : Type}

/-- Failures of the constructors. -/
inductive Err where
  /-- "Last offset must equal the size of the data array." (L72-76) -/
  | lastOffset
  /-- "Degree is zero but data is not empty ..." (L262-266) -/
  | degreeZero
  /-- "Incompatible data size and degree ..." (L268-272) -/
  | incompatible
  /-- `_offsets.back()` on an empty vector (undefined behaviour) -/
  | noOffsets
deriving DecidableEq, Repr

/-- Members `_array` and `_offsets`. -/
structure AdjList (α : Type) where
  array : List α
  offsets : List Nat
deriving DecidableEq, Repr

/-- Trivial list, L51-55: node `i` is linked to itself. -/
def trivial (n : Nat) : AdjList Nat := ⟨List.range n, List.range (n + 1)⟩

/-- Constructor from data and offsets, L69-77. -/
def ofData (data : List α) (offsets : List Nat) : Except Err (AdjList α) :=
  match offsets.getLast? with
  | none => .error .noOffsets
  | some o => if o ≠ data.length then .error .lastOffset else .ok ⟨data, offsets⟩

/-- The offset loop of the row constructor, L120-123. -/
def pushOffset (o : List Nat) (row : List α) : List Nat := o ++ [o.getLast?.getD 0 + row.length]

/-- Constructor from a container of rows, L117-128. -/
def ofRows (rows : List (List α)) : AdjList α :=
  { offsets := rows.foldl pushOffset [0], array := rows.foldl (fun a e => a ++ e) [] }

/-- `num_nodes`, L153. -/
def AdjList.numNodes (a : AdjList α) : Nat := a.offsets.length - 1

/-- `num_links`, L159-163; `none` = assertion failure. -/
def AdjList.numLinks (a : AdjList α) (node : Nat) : Option Nat :=
  match a.offsets[node]?, a.offsets[node + 1]? with
  | some x, some y => some (y - x)
  | _, _ => none

/-- `links`, L169-185; `none` = reading past the end of the offsets. -/
def AdjList.links (a : AdjList α) (node : Nat) : Option (List α) :=
  match a.offsets[node]?, a.offsets[node + 1]? with
  | some x, some y => some ((a.array.drop x).take (y - x))
  | _, _ => none

/-- `regular_adjacency_list`, L255-282.  A negative `degree` is converted to a
huge `size_t` in `data.size() / degree`, giving 0 nodes. -/
def regular (data : List α) (degree : Int) : Except Err (AdjList α) :=
  if degree = 0 ∧ data ≠ [] then .error .degreeZero
  else if 0 < degree ∧ data.length % degree.toNat ≠ 0 then .error .incompatible
  else
    let numNodes := if degree = 0 then data.length
      else if degree < 0 then 0 else data.length / degree.toNat
    let offsets := (List.range numNodes).foldl
      (fun o _ => o ++ [o.getLast?.getD 0 + degree.toNat]) [0]
    ofData data offsets

end Verif.AdjList
