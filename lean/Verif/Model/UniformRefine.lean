import Verif.Model.Connectivity
import Verif.Model.Scatterer
import Mathlib.Algebra.Field.Defs
/-!
# Uniform refinement

`refinement::uniform_refine`, `cpp/dolfinx/refinement/uniform.cpp` L13-318, up to the call of `create_mesh`, on all ranks.

Simplifications: lists of cells hold one list for each cell instead of a flat array; coordinates are one item of a vector space instead
of three numbers; the point-to-point scatter is the neighbourhood exchange of `Model/Scatterer`.
-/
namespace Verif.Uniform
open Verif.World
open Verif.Connectivity (CellType)

/-- Errors. -/
inductive Err where
  /-- "Uniform refinement only for 2D and 3D meshes", L21-22 -/
  | dim
  /-- "Missing entities of dimension", L62-67 -/
  | missing
  /-- "Cannot refine mesh with pyramids and no tetrahedra.", L232-234 -/
  | noTets
  /-- "Unhandled cell type", L247-248 -/
  | unhandled
deriving DecidableEq, Repr

/-- `refined_cell_list`, L201-249, cut into cells. -/
def table : CellType → Option (List (List Nat))
  | .hexahedron => some
      [[0, 9, 8, 20, 10, 22, 21, 26], [1, 11, 8, 20, 12, 23, 21, 26],
       [2, 13, 9, 20, 14, 24, 22, 26], [3, 13, 11, 20, 15, 24, 23, 26],
       [4, 16, 10, 21, 17, 25, 22, 26], [5, 16, 12, 21, 18, 25, 23, 26],
       [6, 17, 14, 22, 19, 25, 24, 26], [7, 18, 15, 23, 19, 25, 24, 26]]
  | .tetrahedron => some
      [[0, 7, 8, 9], [1, 5, 6, 9], [2, 4, 6, 8], [3, 4, 5, 7],
       [9, 4, 6, 8], [9, 4, 8, 7], [9, 4, 7, 5], [9, 4, 5, 6]]
  | .prism => some
      [[0, 6, 7, 8, 15, 16], [6, 1, 9, 15, 10, 17], [7, 9, 2, 16, 17, 11],
       [6, 9, 7, 15, 17, 16], [15, 17, 16, 12, 14, 13], [8, 15, 16, 3, 12, 13],
       [11, 17, 16, 5, 14, 13], [10, 15, 17, 4, 12, 14]]
  | .pyramid => some
      [[0, 5, 6, 13, 7], [1, 8, 5, 13, 9], [3, 10, 8, 13, 12], [2, 6, 10, 13, 11], [7, 9, 11, 12, 4]]
  | .triangle => some [[0, 4, 5], [1, 5, 3], [2, 3, 4], [3, 4, 5]]
  | .quadrilateral => some [[0, 4, 5, 8], [1, 6, 4, 8], [2, 7, 5, 8], [3, 7, 6, 8]]
  | _ => none

/-- `pyr_to_tet_list`, L184-185, cut into cells. -/
def pyrToTet : List (List Nat) := [[5, 13, 7, 9], [6, 13, 11, 7], [10, 13, 12, 11], [8, 13, 9, 12]]

/-- Connectivities of an owned cell to vertices, edges and quadrilateral facets (local numbers; no facets if there is no such
connectivity). -/
structure Conns where
  verts : List Nat
  edges : List Nat
  quads : List Nat

/-- What the function reads: the dimension, the cell types, the index maps of vertices, edges, quadrilaterals (facets in 3D, cells in 2D;
if any) and hexahedra (if any), `index_maps` L45-71, and the owned cells of each type on each rank.  `created d` tells whether
the entities of dimension `d` were created. -/
structure Input where
  tdim : Nat
  types : List CellType
  maps : List World
  created : Nat → Bool
  cells : Nat → Nat → List Conns

variable (I : Input)

/-- Index map `j`. -/
def Input.map (j : Nat) : World := I.maps.getD j { P := 0, size := fun _ => 0, ghosts := fun _ => [], owners := fun _ => [] }

/-- `entity_offsets`, L98-100. -/
def entityOffset (r : Nat) : Nat → Nat := Offsets.excl fun j => (I.map j).size r

/-- `nlocal`, L57-71. -/
def nlocal (r : Nat) : Nat := entityOffset I r I.maps.length

/-- `local_range[0]`, L138-141: exclusive prefix sum. -/
def start (r : Nat) : Nat := Offsets.excl (nlocal I) r

/-- `new_v[j]` before the exchange, L146-149. -/
def ownNumber (j r i : Nat) : Nat := if i < (I.map j).size r then start I r + entityOffset I r j + i else 0

/-- `new_v[j]` on rank `r`, L143-172. -/
def newV (j r : Nat) : Nat → Nat := Scatterer.scatterFwd (I.map j) 1 (ownNumber I j) r

/-- `entities` for cell `c`, L256-295. -/
def entities (r : Nat) (t : CellType) (c : Nat) (k : Conns) : List Nat :=
  k.verts.map (newV I 0 r) ++ k.edges.map (newV I 1 r) ++
    (if I.maps.length > 2 then
      if I.tdim = 3 then k.quads.map (newV I 2 r) else if t = .quadrilateral then [newV I 2 r c] else []
    else []) ++
    (if I.maps.length > 3 ∧ t = .hexahedron then [newV I 3 r c] else [])

/-- `entities[i]` for the entries of a list; `none` for a read outside of the array. -/
def pickAll (ents : List Nat) (tab : List (List Nat)) : Option (List (List Nat)) := tab.mapM fun l => l.mapM fun i => ents[i]?

/-- Loop over the cells of type number `k`, L251-306: `mixed_topology` afterwards.  `none` for a read outside of the array. -/
def addCells (r k ktet : Nat) (t : CellType) (tab : List (List Nat)) (mixed : List (List (List Nat))) : Option (List (List (List Nat))) :=
  (I.cells r k).zipIdx.foldlM (fun mixed p => do
    let rows ← pickAll (entities I r t p.2 p.1) tab
    let mixed := mixed.modify k (· ++ rows)
    if t = .pyramid then do
      let tets ← pickAll (entities I r t p.2 p.1) pyrToTet
      return mixed.modify ktet (· ++ tets)
    else return mixed) mixed

/-- One pass of the loop over the cell types, L188-307. -/
def typeStep (r k : Nat) (t : CellType) (mixed : List (List (List Nat))) : Except Err (Option (List (List (List Nat)))) :=
  match table t with
  | none => .error .unhandled
  | some tab =>
    if t = .pyramid ∧ .tetrahedron ∉ I.types then .error .noTets
    else .ok (addCells I r k (I.types.idxOf .tetrahedron) t tab mixed)

/-- `mixed_topology` on rank `r`, L174-307; `none` for a read outside of an array. -/
def topology (r : Nat) : Except Err (Option (List (List (List Nat)))) :=
  if I.tdim < 2 then .error .dim
  else if (List.range I.maps.length).any fun j => !I.created j then .error .missing
  else I.types.zipIdx.foldlM (fun (m : Option (List (List (List Nat)))) p => match m with
    | none => .ok none
    | some m => typeStep I r p.2 p.1 m) (some (List.replicate I.types.length []))

/-- Geometry of a rank: for each cell type the vertices of its cells (owned and ghosts) and the geometry dofs; `vdof k i` is the dof of vertex
`i` of the layout; `x` are the coordinates.  `e2v j w` are the vertices of owned entity `w` of kind `j`. -/
structure Geo (X : Type) where
  c2v : Nat → List (List Nat)
  xdof : Nat → List (List Nat)
  vdof : Nat → Nat → Nat
  x : Nat → X
  e2v : Nat → Nat → List Nat

/-- `vertex_to_x`, L73-95. -/
def vertexToX {X : Type} (r : Nat) (m : Geo X) : List Nat :=
  ((List.range I.types.length).flatMap fun k => ((m.c2v k).zip (m.xdof k)).flatMap fun p =>
    p.1.zipIdx.map fun q => (q.1, p.2.getD (m.vdof k q.2) 0)).foldl (fun l p => l.set p.1 p.2)
    (List.replicate ((I.map 0).size r + ((I.map 0).ghosts r).length) 0)

/-- Position of a local vertex. -/
def vertexPos {X : Type} (r : Nat) (m : Geo X) (v : Nat) : X := m.x ((vertexToX I r m).getD v 0)

/-- Centre of an entity with vertices at `l`, L122-134, one coordinate. -/
def centre {K : Type} [Field K] (l : List K) : K := l.foldl (· + ·) 0 / (l.length : K)

/-- `new_x`, L102-136: positions of owned vertices, then of the centres of the owned entities, kind after kind.  `mean` gives the centre of an
entity. -/
def newX {X : Type} (mean : List X → X) (r : Nat) (m : Geo X) : List X :=
  ((List.range ((I.map 0).size r)).map (vertexPos I r m)) ++
    (List.range (I.maps.length - 1)).flatMap fun j => (List.range ((I.map (j + 1)).size r)).map fun w =>
      mean ((m.e2v (j + 1) w).map (vertexPos I r m))

end Verif.Uniform
