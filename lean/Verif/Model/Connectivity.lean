import Verif.Model.Offsets
import Verif.Model.StdAlg
/-!
# Mesh connectivity

Model of `compute_from_transpose`, `compute_from_map` and `compute_connectivity`,
`cpp/dolfinx/mesh/topologycomputation.cpp` L964-1045 and L1113-1205, and of `Topology::create_connectivity`,
`cpp/dolfinx/mesh/Topology.cpp` L1068-1105, for entities that exist already.

An adjacency list that is an argument is given by its rows, a computed one by its data and offsets.  Histogram and
cursor loops are those of `Model/Offsets`.  `std::map` and `boost::unordered_flat_map` keep an existing entry on
insertion.  The reference edges of triangles and quadrilaterals are the tables of Basix.
-/
namespace Verif.Connectivity
open Verif.Offsets Verif.Std

/-- Rows of an adjacency list. -/
abbrev Adj := List (List Nat)

/-- Links as pairs (target, node), in the order of the loops L972-976 and L985-987. -/
def links (c : Adj) : List (Nat × Nat) := c.zipIdx.flatMap fun p => p.1.map fun e => (e, p.2)

/-- `compute_from_transpose`, L964-990: data and offsets. -/
def fromTranspose (c : Adj) (n : Nat) : List Nat × List Nat :=
  let offsets := (List.range (n + 1)).map (excl (cnt Prod.fst (links c)))
  ((fill Prod.fst Prod.snd (fun b => offsets.getD b 0) (List.replicate (offsets.getD n 0) 0) (links c)).2, offsets)

/-- `links(i)` for all nodes of an adjacency list with given data and offsets. -/
def toRows (data offsets : List Nat) : Adj :=
  (List.range (offsets.length - 1)).map fun i =>
    (data.drop (offsets.getD i 0)).take (offsets.getD (i + 1) 0 - offsets.getD i 0)

/-- `edge_to_index`, L1005-1018. -/
def edgeTable (edges : Adj) : List (List Nat × Nat) :=
  edges.zipIdx.foldl (fun t p => if (t.lookup (sortNat p.1)).isSome then t else t ++ [(sortNat p.1, p.2)]) []

/-- Reference edges, L1027-1030. -/
def refEdges (n : Nat) : List (Nat × Nat) :=
  if n = 3 then [(1, 2), (0, 2), (0, 1)] else [(0, 1), (0, 2), (1, 3), (2, 3)]

/-- Vertices of edge `i` of a facet, L1037-1039. -/
def facetEdge (f : List Nat) (i : Nat) : List Nat :=
  [f.getD ((refEdges f.length).getD i (0, 0)).1 0, f.getD ((refEdges f.length).getD i (0, 0)).2 0]

/-- The loop over the facets, L1031-1045; `none` if an edge is missing. -/
def fromMapData (facets edges : Adj) : Option (List Nat) :=
  (facets.flatMap fun f => (List.range f.length).map fun i => (edgeTable edges).lookup (sortNat (facetEdge f i))).mapM id

/-- `compute_from_map`, L999-1048: data and offsets, which are those of the facet to vertex list. -/
def fromMap (facets edges : Adj) : Option (List Nat × List Nat) :=
  (fromMapData facets edges).map fun d => (d, (List.range (facets.length + 1)).map (excl fun i => (facets.getD i []).length))

/-- Entity types. -/
inductive CellType where
  | point | interval | triangle | quadrilateral | tetrahedron | hexahedron | prism | pyramid
deriving DecidableEq, Repr

/-- Dimension and number of an entity type. -/
abbrev Key := Nat × Nat

/-- The parts of a `Topology` that are used. -/
structure Topo where
  types : Nat → List CellType
  conn : Key → Key → Option Adj

/-- Failures. -/
inductive Err where
  /-- "Missing entities of dimension" -/
  | missing
  /-- a violated assertion or an edge that is not found -/
  | assert
deriving DecidableEq, Repr

/-- Type of an entity key. -/
def Topo.typ (t : Topo) (d : Key) : CellType := (t.types d.1).getD d.2 .point

/-- Cell types without common entities, L1129-1139. -/
def excluded (a b : CellType) : Bool :=
  decide ((a = .hexahedron ∧ b = .triangle) ∨ (a = .triangle ∧ b = .hexahedron)) ||
  decide ((a = .tetrahedron ∧ b = .quadrilateral) ∨ (a = .quadrilateral ∧ b = .tetrahedron))

/-- The identity adjacency list, `graph/AdjacencyList.h` L51-57. -/
def identity (n : Nat) : Adj := (List.range n).map fun i => [i]

/-- `compute_connectivity`, L1113-1205. -/
def compute (t : Topo) (d0 d1 : Key) : Except Err (Option Adj × Option Adj) :=
  if (t.conn d0 d1).isSome then .ok (none, none)
  else if d0.1 = d1.1 ∧ d0.2 ≠ d1.2 then .ok (none, none)
  else if excluded (t.typ d0) (t.typ d1) then .ok (none, none)
  else if d0.1 > 0 ∧ (t.conn d0 (0, 0)).isNone then .error .missing
  else if d1.1 > 0 ∧ (t.conn d1 (0, 0)).isNone then .error .missing
  else
    match t.conn d0 (0, 0), t.conn d1 (0, 0) with
    | some v0, some v1 =>
      if d0 = d1 then .ok (some (identity v0.length), none)
      else if d0.1 < d1.1 then
        match t.conn d1 d0 with
        | none =>
          if d0.1 = 1 ∧ d1.1 = 2 then
            match fromMap v1 v0 with
            | none => .error .assert
            | some c =>
              let x := fromTranspose (toRows c.1 c.2) v0.length
              .ok (some (toRows x.1 x.2), some (toRows c.1 c.2))
          else .error .assert
        | some c =>
          let x := fromTranspose c v0.length
          .ok (some (toRows x.1 x.2), none)
      else if d0.1 = 2 ∧ d1.1 = 1 then
        match fromMap v0 v1 with
        | none => .error .assert
        | some c => .ok (some (toRows c.1 c.2), none)
      else .error .assert
    | _, _ => .error .assert

/-- `_connectivity.insert`, of a pointer that may be null (`Topology.cpp` L1097-1101). -/
def Topo.insert (t : Topo) (a b : Key) (c : Option Adj) : Topo :=
  match c, t.conn a b with
  | some c, none => { t with conn := fun x y => if x = a ∧ y = b then some c else t.conn x y }
  | _, _ => t

/-- One iteration of `create_connectivity`, `Topology.cpp` L1079-1102. -/
def createStep (t : Topo) (d0 d1 : Key) : Except Err Topo :=
  match compute t d0 d1 with
  | .error e => .error e
  | .ok (c01, c10) => .ok ((t.insert d0 d1 c01).insert d1 d0 c10)

/-- A loop that stops at the first failure. -/
def loopM (t : Topo) : List (Key × Key) → Except Err Topo
  | [] => .ok t
  | p :: l =>
    match createStep t p.1 p.2 with
    | .error e => .error e
    | .ok t => loopM t l

/-- `Topology::create_connectivity`, `Topology.cpp` L1068-1105, with entities of both dimensions present. -/
def create (t : Topo) (d0 d1 : Nat) : Except Err Topo :=
  loopM t ((List.range (t.types d0).length).flatMap fun i0 =>
    (List.range (t.types d1).length).map fun i1 => ((d0, i0), (d1, i1)))

end Verif.Connectivity
