import Verif.Model.CellPerm
import Verif.Model.StdAlg
/-!
# Meshes from Gmsh

Model of `python/dolfinx/io/gmsh.py` L168-506: `extract_topology_and_markers`, `extract_geometry` and
`model_to_mesh` up to the arguments of `create_mesh` (C70) and `distribute_entity_data` (C73).

* The functions of the Gmsh API are given (`Gmsh`).
* A Python dictionary is a list of pairs in the order of insertion.
* Tags and node numbers are naturals; subtracting 1 from the number 0 is not modelled (Gmsh numbers start at 1).
* A rank that raises an exception while others wait in a broadcast leaves them there: `waits`.
-/
namespace Verif.Gmsh
open Verif.CellPerm
open Verif.Connectivity (CellType)

/-- Results of the Gmsh API: `getPhysicalGroups`, `getEntitiesForPhysicalGroup(dim, tag)`, `getElements(dim, entity)` (types,
element tags, node tags), `getElements(dim, -1)` (types, element tags), `getElementProperties(type)` (dimension, number
of nodes), `getPhysicalName(dim, tag)`, `getNodes()`. -/
structure Gmsh (X : Type) where
  groups : List (Nat × Nat)
  entities : Nat → Nat → List Nat
  elements : Nat → Nat → List (Nat × List Nat × List Nat)
  allElements : Nat → List (Nat × List Nat)
  dim : Nat → Nat
  numNodes : Nat → Nat
  groupName : Nat → Nat → String
  nodes : List (Nat × X)

/-- Exceptions. -/
inductive Err where
  | noModel | nodes | shape | noGroups | noElements | notTagged | key | cellType | order | mixed | unsupported
  deriving DecidableEq

variable {X : Type}

/-! ## Dictionaries -/

/-- `d[k] = v`. -/
def dictSet {K V : Type} [DecidableEq K] (k : K) (v : V) : List (K × V) → List (K × V)
  | [] => [(k, v)]
  | p :: d => if p.1 = k then (k, v) :: d else p :: dictSet k v d

/-- `d[k]`. -/
def dictGet {K V : Type} [DecidableEq K] (k : K) : List (K × V) → Option V
  | [] => none
  | p :: d => if p.1 = k then some p.2 else dictGet k d

/-! ## Topology and markers -/

/-- An entry of `topologies`: `topology`, `cell_data`, `entity_tags`. -/
structure Topo where
  rows : List (List Nat)
  data : List Nat
  tags : List Nat
  deriving DecidableEq

/-- `a.reshape(-1, n)`. -/
def reshape (n : Nat) (a : List Nat) : Option (List (List Nat)) :=
  if n = 0 ∨ a.length % n ≠ 0 then none else some ((List.range (a.length / n)).map fun i => (a.drop (i * n)).take n)

/-- The rows that a block of elements adds, with the markers, L216-228. -/
def blockTopo (m : Gmsh X) (tag : Nat) (blk : Nat × List Nat × List Nat) : Option Topo :=
  (reshape (m.numNodes blk.1) blk.2.2).map fun rows =>
    ⟨rows.map fun r => r.map (· - 1), List.replicate blk.2.1.length tag, blk.2.1⟩

/-- L230-245. -/
def addTopo (ty : Nat) (t : Topo) (tops : List (Nat × Topo)) : List (Nat × Topo) :=
  match dictGet ty tops with
  | some o => dictSet ty ⟨o.rows ++ t.rows, o.data ++ t.data, o.tags ++ t.tags⟩ tops
  | none => dictSet ty t tops

/-- L213-245 for one block.  The variable `dim` of the outer loop is overwritten, L219. -/
def addBlock (m : Gmsh X) (tag : Nat) (st : List (Nat × Topo) × Nat) (blk : Nat × List Nat × List Nat) : Option (List (Nat × Topo) × Nat) :=
  (blockTopo m tag blk).map fun t => (addTopo blk.1 t st.1, m.dim blk.1)

/-- L206-245 for one entity of a group. -/
def addEntity (m : Gmsh X) (tag : Nat) (st : List (Nat × Topo) × Nat) (ent : Nat) : Option (List (Nat × Topo) × Nat) :=
  (m.elements st.2 ent).foldlM (addBlock m tag) st

/-- L202-246 for one group. -/
def addGroup (m : Gmsh X) (st : List (Nat × Topo) × List (String × Nat × Nat)) (g : Nat × Nat) :
    Option (List (Nat × Topo) × List (String × Nat × Nat)) :=
  ((m.entities g.1 g.2).foldlM (addEntity m g.2) (st.1, g.1)).map fun r =>
    (r.1, dictSet (m.groupName r.2 g.2) (r.2, g.2) st.2)

/-- `extract_topology_and_markers`, L168-248. -/
def extractTopology (m : Gmsh X) : Option (List (Nat × Topo) × List (String × Nat × Nat)) :=
  m.groups.foldlM (addGroup m) ([], [])

/-! ## Geometry -/

/-- `extract_geometry`, L251-283.  `numpy.argsort` is any sort: equal numbers lead to the exception. -/
def extractGeometry (m : Gmsh X) : Option (List X) :=
  let s := Std.sort (fun a b => decide (a.1 ≤ b.1)) (m.nodes.map fun p => (p.1 - 1, p.2))
  if s.map Prod.fst = List.range s.length then some (s.map Prod.snd) else none

/-! ## Cells and tags -/

/-- `_gmsh_to_cells`, L62-85. -/
def cellTable : List (Nat × CellType × Nat) :=
  [(1, .interval, 1), (2, .triangle, 1), (3, .quadrilateral, 1), (4, .tetrahedron, 1), (5, .hexahedron, 1), (6, .prism, 1),
   (7, .pyramid, 1), (8, .interval, 2), (9, .triangle, 2), (10, .quadrilateral, 2), (11, .tetrahedron, 2), (12, .hexahedron, 2),
   (13, .prism, 2), (14, .pyramid, 2), (15, .point, 0), (21, .triangle, 3), (26, .interval, 3), (29, .tetrahedron, 3),
   (36, .quadrilateral, 3), (92, .hexahedron, 3)]

/-- Number of nodes of the Lagrange element of a cell, `basix_element.dim`. -/
def lagrangeDim (t : CellType) (n : Nat) : Nat :=
  match t with
  | .point => 1
  | .interval => n + 1
  | .triangle => (n + 1) * (n + 2) / 2
  | .quadrilateral => (n + 1) * (n + 1)
  | .tetrahedron => (n + 1) * (n + 2) * (n + 3) / 6
  | .hexahedron => (n + 1) * (n + 1) * (n + 1)
  | .prism => (n + 1) * (n + 2) / 2 * (n + 1)
  | .pyramid => (n + 1) * (n + 2) * (2 * n + 3) / 6

/-- The greatest dimension, L363-367. -/
def topDim (m : Gmsh X) (tops : List (Nat × Topo)) : Option Nat := (tops.map fun p => m.dim p.1).max?

/-- The check that all cells are tagged once, L368-389, on the rank that has the model: an exception, or whether there is a
message.  L377 reads the dictionary also if the type is not there. -/
def checkTagged (tops : List (Nat × Topo)) : List (Nat × List Nat) → Except Err Bool
  | [] => .ok false
  | b :: bs =>
    match dictGet b.1 tops with
    | none => .error .key
    | some t =>
      match checkTagged tops bs with
      | .error e => .error e
      | .ok msg => .ok (decide (b.2.length ≠ t.tags.length) || decide (t.tags.length ≠ (Std.unique (Std.sortNat t.tags)).length) || msg)

/-- `meshtags[codim]`, L391-407: types, rows and values.  Ranks without the model have no rows. -/
def tagsOf (m : Gmsh X) (tops : List (Nat × Topo)) (root : Bool) (tdim codim : Nat) : List (Nat × List (List Nat) × List Nat) :=
  (tops.filter fun p => decide (tdim - m.dim p.1 = codim)).reverse.map fun p => if root then (p.1, p.2.rows, p.2.data) else (p.1, [], [])

/-- The cells of one type in DOLFINx' order, L413-421. -/
def cellsOf (m : Gmsh X) (t : Nat × List (List Nat) × List Nat) : Except Err (CellType × List Int) :=
  match dictGet t.1 cellTable with
  | none => .error .cellType
  | some (ct, deg) =>
    if m.numNodes t.1 ≠ lagrangeDim ct deg then .error .order
    else match readGmsh (t.2.1.flatMap fun r => r.map Int.ofNat) t.2.1.length (lagrangeDim ct deg) ct with
      | .error _ => .error .order
      | .ok c => .ok (ct, c)

/-- The entities and values for one dimension, L470-490: `none` for no tags. -/
def tagInput (m : Gmsh X) (tops : List (Nat × Topo)) (root : Bool) (tdim : Nat) (cts : List CellType) (codim : Nat) :
    Except Err (Option (List (List Nat) × List Nat)) :=
  match tagsOf m tops root tdim codim with
  | [t] =>
    match cts with
    | [ct] => if (codim = 1 ∧ ct = .prism) ∨ ct = .pyramid then .error .unsupported else .ok (some t.2)
    | _ => .error .mixed
  | _ => .ok none

/-- What a rank gives to `create_mesh` and `distribute_entity_data`. -/
structure Result (X : Type) where
  tdim : Nat
  cells : List (CellType × List Int)
  x : List X
  tags : List (Option (List (List Nat) × List Nat))
  groups : List (String × Nat × Nat)
  deriving DecidableEq

/-- L391-506. -/
def finish (m : Gmsh X) (x : List X) (tops : List (Nat × Topo)) (pg : List (String × Nat × Nat)) (root : Bool) (tdim : Nat) :
    Except Err (Result X) := do
  let cells ← (tagsOf m tops root tdim 0).mapM (cellsOf m)
  let tags ← [0, 1, 2, 3].mapM (tagInput m tops root tdim (cells.map Prod.fst))
  .ok ⟨tdim, cells, if root then x else [], tags, pg⟩

/-! ## All ranks -/

/-- What happens to a rank. -/
inductive Outcome (α : Type) where
  | done (a : α)
  | raised (e : Err)
  | waits
  deriving DecidableEq

/-- An exception on the rank that has the model only. -/
def alone {α : Type} (root q : Nat) (e : Err) : Outcome α := if q = root then .raised e else .waits

/-- `model_to_mesh` on rank `q`; `root` has the model. -/
def modelToMesh (model : Option (Gmsh X)) (root q : Nat) : Outcome (Result X) :=
  match model with
  | none => alone root q .noModel
  | some m =>
    match extractGeometry m with
    | none => alone root q .nodes
    | some x =>
      match extractTopology m with
      | none => alone root q .shape
      | some (tops, pg) =>
        if pg.isEmpty then .raised .noGroups
        else match topDim m tops with
          | none => .raised .noElements
          | some tdim =>
            match checkTagged tops (m.allElements tdim) with
            | .error e => alone root q e
            | .ok true => .raised .notTagged
            | .ok false =>
              match finish m x tops pg (decide (q = root)) tdim with
              | .error e => .raised e
              | .ok r => .done r

end Verif.Gmsh
