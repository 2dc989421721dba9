import Verif.Model.Collide
import Verif.Model.BBTree
/-!
# Search for the cells that contain points

Model of the constructor of `BoundingBoxTree` for mesh entities with `compute_bbox_of_entity`, `cpp/dolfinx/geometry/BoundingBoxTree.h` L30-60 and L236-286,
and of `compute_collisions` for points, `cpp/dolfinx/geometry/utils.h` L479-502, with `build_from_leaf` and `_compute_collisions_point` from `Model/BBTree`,
`entities_to_geometry` from `Model/EntityGeom` and `compute_colliding_cells` from `Model/Collide`.  `search` is the sequence of calls that the
demos use (`python/demo/demo_static-condensation.py` L296-303: `bb_tree`, `compute_collisions_points`, `compute_colliding_cells`).

* Arithmetic of boxes may be rounded (`BB.Fl`), that of GJK is exact.
* Offsets are natural numbers.
-/
namespace Verif.PointSearch
open Verif.Submesh (Geo)
open Verif.Gjk (V)
open Verif.EntityGeom (point points)
open Verif.BB (Fl Box)
open Verif.AdjList (AdjList)

/-- Exceptions. -/
inductive Err where
  /-- "Dimension must be non-negative and less than or equal to the topological dimension of the mesh", `BoundingBoxTree.h` L258-263 -/
  | dim
  /-- from `entities_to_geometry` -/
  | entities (e : EntityGeom.Err)
  /-- from `compute_colliding_cells` -/
  | collide (e : Collide.Err)
  /-- an index past the end -/
  | assert
  deriving DecidableEq

variable {K : Type} [Field K] [LinearOrder K]

/-- The three coordinates of a point by index. -/
def fn (p : V K) (j : Nat) : K := if j = 0 then p.1 else if j = 1 then p.2.1 else p.2.2

/-- The nodes of one entity as `compute_bbox_of_entity` gets them, L36-48: index, first node, all nodes. -/
def entityOf (wedge : Bool) (g : Geo) (tdim dim : Nat) (x : List K) (e : Nat) : Except Err (Nat × (Nat → K) × List (Nat → K)) :=
  match EntityGeom.nodes wedge g tdim dim [e] with
  | .error err => .error (.entities err)
  | .ok rows =>
    match points x rows.flatten with
    | some (p :: ps) => .ok (e, fn p, (p :: ps).map fn)
    | _ => .error .assert

/-- The loop L269-277 without the boxes. -/
def entitiesOf (wedge : Bool) (g : Geo) (tdim dim : Nat) (x : List K) : List Nat → Except Err (List (Nat × (Nat → K) × List (Nat → K)))
  | [] => .ok []
  | e :: es =>
    match entityOf wedge g tdim dim x e with
    | .error err => .error err
    | .ok a =>
      match entitiesOf wedge g tdim dim x es with
      | .error err => .error err
      | .ok l => .ok (a :: l)

/-- The constructor L236-286; `n` is the number of entities with ghosts, `entities` is `none` for all of them. -/
def tree (F : Fl K) (padding : K) (nth : List (Box K × Nat) → List (Box K × Nat)) (wedge : Bool) (g : Geo) (tdim dim n : Nat) (x : List K)
    (entities : Option (List Nat)) : Except Err (BB.Tree K) :=
  if tdim < dim then .error .dim
  else
    match entitiesOf wedge g tdim dim x (entities.getD (List.range n)) with
    | .error err => .error err
    | .ok l =>
      match BB.fromMesh F padding nth l with
      | some t => .ok t
      | none => .error .assert

/-- The loop L486-491 over the points `l`; `ents` and `offs` are `entities` and `offsets`. -/
def collisionsLoop (F : Fl K) (t : BB.Tree K) (pts : List K) : List Nat → List Nat → List Nat → Option (List Nat × List Nat)
  | [], ents, offs => some (ents, offs)
  | p :: l, ents, offs =>
    match point pts p with
    | none => none
    | some x =>
      match BB.collidePoint F t (fn x) with
      | none => none
      | some r => collisionsLoop F t pts l (ents ++ r) (offs.set (p + 1) (ents ++ r).length)

/-- `compute_collisions`, L479-502. -/
def collisions (F : Fl K) (t : BB.Tree K) (pts : List K) : Except Err (AdjList Nat) :=
  if 0 < t.nodes.length then
    match collisionsLoop F t pts (List.range (pts.length / 3)) [] (List.replicate (pts.length / 3 + 1) 0) with
    | none => .error .assert
    | some (ents, offs) =>
      match AdjList.ofData ents offs with
      | .ok a => .ok a
      | .error _ => .error .assert
  else
    match AdjList.ofData [] (List.replicate (pts.length / 3 + 1) 0) with
    | .ok a => .ok a
    | .error _ => .error .assert

/-- The candidates of all points, as `compute_colliding_cells` reads them (`utils.h` L640-642). -/
def rows (a : AdjList Nat) : Option (List (List Nat)) := (List.range a.numNodes).mapM a.links

/-- `compute_colliding_cells(mesh, compute_collisions_points(bb_tree(mesh, tdim, padding, entities), pts), pts)`. -/
def search (junk : Nat → Nat → Nat → K) (sqrt : K → K) (eps eps2 : K) (F : Fl K) (padding : K) (nth : List (Box K × Nat) → List (Box K × Nat)) (wedge : Bool)
    (g : Geo) (tdim n : Nat) (x : List K) (entities : Option (List Nat)) (pts : List K) : Except Err (AdjList Nat) :=
  match tree F padding nth wedge g tdim tdim n x entities with
  | .error e => .error e
  | .ok t =>
    match collisions F t pts with
    | .error e => .error e
    | .ok a =>
      match rows a with
      | none => .error .assert
      | some cand =>
        match Collide.collidingCells junk sqrt eps eps2 g tdim x cand pts with
        | .error e => .error (.collide e)
        | .ok r => .ok r

end Verif.PointSearch
