import Verif.Model.SubMap
/-!
# Meshes of a subset of the entities

Model of `mesh::create_submesh`, `cpp/dolfinx/mesh/utils.h` L1464-1492, with `create_subgeometry` L1370-1453,
`entities_to_geometry` L885-992, `mesh::compute_incident_entities`, `cpp/dolfinx/mesh/utils.cpp` L133-171, and
`mesh::create_subtopology`, `cpp/dolfinx/mesh/Topology.cpp` L1520-1600, on all processes together.

The mesh has one cell type.  Flat arrays with a fixed row length are lists of rows.  A violated assertion and
an index past the end of an array are errors.  The connectivities used exist, since `create_submesh` creates them
(L1470-1479).  `permute_subentity_closure` is a function of Basix; here it is a parameter of the mesh.  The
coordinate element of the new mesh is not part of the model.
-/
namespace Verif.Submesh
open Verif.Std Verif.World Verif.SubMap

/-- Errors. -/
inductive Err where
  /-- "Index owner change detected!" on some process, raised by `create_sub_index_map` -/
  | ownerChange
  /-- "mesh::entities_to_geometry for prism/pyramid cell facets not yet supported." -/
  | facets
  /-- a violated assertion or an index past the end -/
  | assert
deriving DecidableEq, Repr

/-- The parts of a mesh on one process that `entities_to_geometry` reads: geometry dof map, closure dofs of the
coordinate element by dimension and local entity, connectivities between entities of dimension `dim` and
cells, and the permutation of closure dofs for a cell and local entity. -/
structure Geo where
  xdofs : Nat → List Nat
  closure : Nat → Nat → List Nat
  e2c : Nat → List Nat
  c2e : Nat → List Nat
  permute : Nat → Nat → List Nat → List Nat

/-- Geometry dofs of the closure of one entity, L925-934 and L961-989. -/
def entityNodes (g : Geo) (tdim dim e : Nat) : Option (List Nat) :=
  if dim = tdim then (g.closure tdim 0).mapM fun d => (g.xdofs e)[d]?
  else do
    let c ← (g.e2c e).head?
    let le := (g.c2e c).idxOf e
    if (g.c2e c).length ≤ le then none
    else (g.permute c le (g.closure dim le)).mapM fun d => (g.xdofs c)[d]?

/-- `entities_to_geometry` with `permute = true`, L885-992. -/
def entitiesToGeometry (wedge : Bool) (g : Geo) (tdim dim : Nat) (entities : List Nat) : Except Err (List (List Nat)) :=
  if wedge = true ∧ dim = 2 then .error .facets
  else match entities.mapM (entityNodes g tdim dim) with
    | none => .error .assert
    | some l => .ok l

/-- `compute_incident_entities`, `utils.cpp` L159-170. -/
def incident (e0e1 : Nat → List Nat) (entities : List Nat) : List Nat :=
  unique (sortNat (entities.flatMap e0e1))

/-- `vertex_to_subvertex` and `x_to_subx_dof_map`, L1579-1582 and `utils.h` L1414-1417; `none` is -1. -/
def inverse (n : Nat) (l : List Nat) : List (Option Nat) :=
  l.zipIdx.foldl (fun t p => t.set p.1 (some p.2)) (List.replicate n none)

/-- The rows in the new numbering, L1584-1593 and `utils.h` L1420-1427. -/
def renumber (n : Nat) (l : List Nat) (rows : List (List Nat)) : Option (List (List Nat)) :=
  rows.mapM fun row => row.mapM fun v => ((inverse n l)[v]?).join

/-- A mesh on all processes: index maps of the entities of dimension `dim`, the vertices and the geometry nodes;
vertices of the entities; geometry; coordinates and original indices of the nodes. -/
structure Mesh (X : Type) where
  tdim : Nat
  /-- cells are prisms or pyramids -/
  wedge : Bool
  ents : World
  verts : World
  nodes : World
  e2v : Nat → Nat → List Nat
  geo : Nat → Geo
  x : Nat → List X
  igi : Nat → List Int

/-- The new mesh on all processes, with the maps to the indices of the old mesh. -/
structure SubData (X : Type) where
  ents : World
  verts : World
  nodes : World
  toEnt : Nat → List Nat
  toVert : Nat → List Nat
  toNode : Nat → List Nat
  cells : Nat → List (List Nat)
  xdofs : Nat → List (List Nat)
  x : Nat → List X
  igi : Nat → List Int

/-- Number of indices of a process. -/
def numLocal (w : World) (r : Nat) : Nat := w.size r + (w.ghosts r).length

variable {X : Type}

/-- The new map of the cells, `Topology.cpp` L1532-1543. -/
def entMap (m : Mesh X) (ind : Nat → List Nat) : SubMap.Input :=
  { w := m.ents, ind := fun r => unique (sortNat (ind r)), preserve := false }

/-- The new map of the vertices, L1556-1563. -/
def vertMap (m : Mesh X) (ind : Nat → List Nat) : SubMap.Input :=
  { w := m.verts, ind := fun r => incident (m.e2v r) ((entMap m ind).toParent r), preserve := false }

/-- The vertices of the new cells, L1565-1596. -/
def subCells (m : Mesh X) (ind : Nat → List Nat) (r : Nat) : Option (List (List Nat)) :=
  renumber (numLocal m.verts r) ((vertMap m ind).toParent r) (((entMap m ind).toParent r).map (m.e2v r))

/-- `x_indices`, `utils.h` L1382-1383. -/
def xIndices (m : Mesh X) (dim : Nat) (ind : Nat → List Nat) (r : Nat) : Except Err (List (List Nat)) :=
  entitiesToGeometry m.wedge (m.geo r) m.tdim dim ((entMap m ind).toParent r)

/-- The new map of the nodes, `utils.h` L1385-1401. -/
def nodeMap (m : Mesh X) (rows : Nat → List (List Nat)) : SubMap.Input :=
  { w := m.nodes, ind := fun r => unique (sortNat (rows r).flatten), preserve := false }

/-- `create_subgeometry` after `x_indices` on one process, L1403-1444: geometry dof map, coordinates and original
indices. -/
def subGeometry (m : Mesh X) (rows : Nat → List (List Nat)) (r : Nat) :
    Option (List (List Nat) × List X × List Int) := do
  let new := (nodeMap m rows).toParent r
  let xdofs ← renumber (numLocal m.nodes r) new (rows r)
  let x ← new.mapM fun i => (m.x r)[i]?
  let igi ← new.mapM fun i => (m.igi r)[i]?
  return (xdofs, x, igi)

/-- `create_submesh`, L1464-1492.  An error on one process is an error of the call. -/
def createSubmesh (m : Mesh X) (dim : Nat) (ind : Nat → List Nat) : Except Err (SubData X) :=
  let ranks := List.range m.ents.P
  if ranks.any (entMap m ind).throws then .error .ownerChange
  else do
    let cells ← match ranks.mapM (subCells m ind) with
      | none => .error .assert
      | some c => .ok c
    let rows ← ranks.mapM (xIndices m dim ind)
    let rows := fun r => rows.getD r []
    let geo ← match ranks.mapM (subGeometry m rows) with
      | none => .error .assert
      | some g => .ok g
    return { ents := (entMap m ind).sub, verts := (vertMap m ind).sub, nodes := (nodeMap m rows).sub
             toEnt := (entMap m ind).toParent, toVert := (vertMap m ind).toParent, toNode := (nodeMap m rows).toParent
             cells := fun r => cells.getD r []
             xdofs := fun r => (geo.getD r ([], [], [])).1
             x := fun r => (geo.getD r ([], [], [])).2.1
             igi := fun r => (geo.getD r ([], [], [])).2.2 }

end Verif.Submesh
