import Verif.Model.IntegrationDomains
/-!
# Locating mesh entities

`mesh::locate_entities`, `mesh::locate_entities_boundary`, `cpp/dolfinx/mesh/utils.h` L640-872, with
`impl::compute_vertex_coords` L640-685 and `impl::compute_vertex_coords_boundary` L72-160, on one process.

Simplifications: a point is one value of a type `X` instead of three numbers in a column of an array; one list for each
cell or entity instead of flat arrays.  Connectivities exist, since the functions create them.  An index past the end of
an array and a violated assertion are the error `assert`.
-/
namespace Verif.LocateEntities
open Verif.Std

/-- Errors. -/
inductive Err where
  /-- "Length of array of markers is wrong." -/
  | markers
  /-- "Multiple entity types of this dimension. …", "Multiple facet types in mesh. …", "Multiple entity types in mesh. …" -/
  | types
  /-- "Cannot use mesh::locate_entities_boundary (boundary) for cells." -/
  | cells
  /-- an index past the end of an array -/
  | assert
deriving DecidableEq, Repr

/-- Vertices and geometry nodes of the cells of one type. -/
structure Cells where
  verts : List (List Nat)
  nodes : List (List Nat)

/-- Assignments `vertex_to_node[vertices[i]] = x_dofs[i]` of one cell, L668-671. -/
def cellWrites (t : Cells) (c : Nat) : Option (List (Nat × Nat)) := do
  let vs ← t.verts[c]?
  vs.zipIdx.mapM fun p => do
    let xs ← t.nodes[c]?
    let node ← xs[p.2]?
    some (p.1, node)

/-- All assignments, L657-673. -/
def writes (ts : List Cells) : Option (List (Nat × Nat)) := do
  let l ← ts.mapM fun t => (List.range t.verts.length).mapM (cellWrites t)
  some l.flatten.flatten

/-- `compute_vertex_coords`, L644-685; `n` is the number of vertices. -/
def vertexCoords {X : Type} (n : Nat) (ts : List Cells) (x : List X) : Option (List X) := do
  let l ← writes ts
  let vertexToNode := l.foldl (fun t p => t.set p.1 p.2) (List.replicate n 0)
  vertexToNode.mapM fun i => x[i]?

/-- The loop over the vertices of an entity, L733-741 and L853-862. -/
def allMarked (marked : Nat → Option Bool) : List Nat → Option Bool
  | [] => some true
  | v :: l => match marked v with
    | none => none
    | some false => some false
    | some true => allMarked marked l

/-- The loop over entities, L729-745 and L850-867. -/
def markedEntities (marked : Nat → Option Bool) (e2v : List (List Nat)) (entities : List Nat) : Option (List Nat) := do
  let l ← entities.mapM fun e => do
    let vs ← e2v[e]?
    let b ← allMarked marked vs
    some (e, b)
  some ((l.filter Prod.snd).map Prod.fst)

/-- `Option` as `Except`. -/
def orAssert {α : Type} : Option α → Except Err α
  | none => .error .assert
  | some a => .ok a

/-- `locate_entities` for one entity type, L705-748. -/
def locateEntities {X : Type} (n : Nat) (ts : List Cells) (x : List X) (e2v : List (List Nat)) (marker : List X → List Bool) :
    Except Err (List Nat) := do
  let pts ← orAssert (vertexCoords n ts x)
  let marked := marker pts
  if marked.length ≠ pts.length then .error .markers
  else orAssert (markedEntities (fun v => marked[v]?) e2v (List.range e2v.length))

/-- `locate_entities` without an index of the entity type, L764-776. -/
def locateEntitiesAll {X : Type} (n : Nat) (ts : List Cells) (x : List X) (e2vs : List (List (List Nat))) (marker : List X → List Bool) :
    Except Err (List Nat) :=
  if 1 < e2vs.length then .error .types
  else match e2vs with
    | e2v :: _ => locateEntities n ts x e2v marker
    | [] => .error .assert

/-- What `compute_vertex_coords_boundary` reads for one cell type: connectivities facet-vertex, facet-entity, vertex-cell, cell-vertex, and
the geometry. -/
structure Input (X : Type) where
  f2v : List (List Nat)
  f2e : List (List Nat)
  v2c : List (List Nat)
  cells : Cells
  x : List X

/-- The node of a vertex, L138-150. -/
def vertexNode {X : Type} (I : Input X) (v : Nat) : Option X := do
  let cs ← I.v2c[v]?
  let c ← cs.head?
  let vs ← I.cells.verts[c]?
  let xs ← I.cells.nodes[c]?
  let node ← xs[vs.idxOf v]?
  if v ∈ vs then I.x[node]? else none

/-- `compute_vertex_coords_boundary`, L86-160: entities, points, and positions of the vertices. -/
def boundaryCoords {X : Type} (I : Input X) (facets : List Nat) : Option (List Nat × List X × List (Option Nat)) := do
  let vs ← facets.mapM fun f => I.f2v[f]?
  let es ← facets.mapM fun f => I.f2e[f]?
  let vertices := unique (sortNat vs.flatten)
  let entities := unique (sortNat es.flatten)
  let pts ← vertices.mapM (vertexNode I)
  let pos := vertices.zipIdx.foldl (fun t p => t.set p.1 (some p.2)) (List.replicate I.v2c.length none)
  some (entities, pts, pos)

/-- `locate_entities_boundary`, L811-871; `isCell`: `dim == tdim`; `numTypes`: the largest number of entity types in dimensions `dim`, `tdim - 1`, `tdim`; `n`, `e2c`, `inter`: number of owned facets, their
cells, and interprocess facets, which `exterior_facet_indices` reads. -/
def locateBoundary {X : Type} (isCell : Bool) (numTypes : Nat) (I : Input X) (n : Nat) (e2c : List (List Nat)) (inter : List Nat)
    (e2v : List (List Nat)) (marker : List X → List Bool) : Except Err (List Nat) := do
  if isCell then .error .cells
  else if 1 < numTypes then .error .types
  else match Integration.exteriorFacets n (some e2c) inter with
    | .error _ => .error .assert
    | .ok facets =>
      let (entities, pts, pos) ← orAssert (boundaryCoords I facets)
      let marked := marker pts
      if marked.length ≠ pts.length then .error .markers
      else orAssert (markedEntities (fun v => (pos[v]?.join).bind fun k => marked[k]?) e2v entities)

end Verif.LocateEntities
