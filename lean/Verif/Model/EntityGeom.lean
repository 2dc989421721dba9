import Verif.Model.Submesh
import Verif.Model.Connectivity
import Mathlib.Algebra.Order.Field.Basic
/-!
# Size, midpoint and normal of mesh entities

Model of `mesh::h`, `mesh::cell_normals` and `mesh::compute_midpoints`, `cpp/dolfinx/mesh/utils.h` L430-636, with
`entities_to_geometry` L885-992 (`Model/Submesh`, here with `permute = false`).

* Arithmetic is exact, in an ordered field `K`; `std::sqrt` is a function `sqrt`.  Division by zero is not modelled (it is 0 in `K`); the
  theorems assume that it does not occur.
* Coordinates are a flat array with three numbers for each node.  Reading past its end is the error `assert`.
* The mesh has one cell type.
-/
namespace Verif.EntityGeom
open Verif.Submesh (Geo)
open Verif.Connectivity (CellType)

/-- Exceptions; `facets` and `assert` come from `entities_to_geometry`. -/
inductive Err where
  | facets | assert | prism | interval | cellType
  deriving DecidableEq

variable {K : Type} [Field K] [LinearOrder K]

/-- `permute = false`, L964-972. -/
def plain (g : Geo) : Geo := { g with permute := fun _ _ l => l }

/-- `entities_to_geometry(mesh, dim, entities, false)`. -/
def nodes (wedge : Bool) (g : Geo) (tdim dim : Nat) (entities : List Nat) : Except Err (List (List Nat)) :=
  match Submesh.entitiesToGeometry wedge (plain g) tdim dim entities with
  | .ok l => .ok l
  | .error .facets => .error .facets
  | .error _ => .error .assert

/-- `std::span(x.data() + 3 * row, 3)`. -/
def point (x : List K) (row : Nat) : Option (K × K × K) := do
  let a ← x[3 * row]?
  let b ← x[3 * row + 1]?
  let c ← x[3 * row + 2]?
  some (a, b, c)

/-- Points of a row of nodes. -/
def points (x : List K) (rows : List Nat) : Option (List (K × K × K)) := rows.mapM (point x)

/-- A loop over the rows of `entities_to_geometry`. -/
def eachRow {β : Type} (x : List K) (f : List (K × K × K) → Option β) (rows : List (List Nat)) : Except Err (List β) :=
  match rows.mapM fun r => (points x r).bind f with
  | some l => .ok l
  | none => .error .assert

/-- `p1 - p0`, L529-531. -/
def sub (p q : K × K × K) : K × K × K := (p.1 - q.1, p.2.1 - q.2.1, p.2.2 - q.2.2)

/-- `delta_norm`, L455-461. -/
def deltaNorm (sqrt : K → K) (p q : K × K × K) : K :=
  sqrt (0 + (p.1 - q.1) * (p.1 - q.1) + (p.2.1 - q.2.1) * (p.2.1 - q.2.1) + (p.2.2 - q.2.2) * (p.2.2 - q.2.2))

/-- The two loops L473-481: each point with all that follow it. -/
def pairMax (sqrt : K → K) : K → List (K × K × K) → K
  | h, [] => h
  | h, p :: ps => pairMax sqrt (ps.foldl (fun h q => max h (deltaNorm sqrt p q)) h) ps

/-- `h`, L439-485. -/
def sizes (sqrt : K → K) (wedge : Bool) (g : Geo) (tdim dim : Nat) (x : List K) (entities : List Nat) : Except Err (List K) :=
  if entities = [] then .ok []
  else if dim = 0 then .ok (List.replicate entities.length 0)
  else (nodes wedge g tdim dim entities).bind (eachRow x fun ps => some (pairMax sqrt 0 ps))

/-- The loop L626-632. -/
def mean (ps : List (K × K × K)) : K × K × K :=
  ps.foldl (fun p y => (p.1 + y.1 / ps.length, p.2.1 + y.2.1 / ps.length, p.2.2 + y.2.2 / ps.length)) (0, 0, 0)

/-- `compute_midpoints`, L608-636. -/
def midpoints (wedge : Bool) (g : Geo) (tdim dim : Nat) (x : List K) (entities : List Nat) : Except Err (List (K × K × K)) :=
  if entities = [] then .ok []
  else (nodes wedge g tdim dim entities).bind (eachRow x fun ps => some (mean ps))

/-- `math::cross`, `common/math.h` L26-34. -/
def cross (u v : K × K × K) : K × K × K :=
  (u.2.1 * v.2.2 - u.2.2 * v.2.1, u.2.2 * v.1 - u.1 * v.2.2, u.1 * v.2.1 - u.2.1 * v.1)

/-- L528-537. -/
def edgeNormal (sqrt : K → K) (ps : List (K × K × K)) : Option (K × K × K) := do
  let p0 ← ps[0]?
  let p1 ← ps[1]?
  let t := sub p1 p0
  let norm := sqrt (t.1 * t.1 + t.2.1 * t.2.1)
  some (-t.2.1 / norm, t.1 / norm, 0)

/-- L553-564 and L582-593. -/
def faceNormal (sqrt : K → K) (ps : List (K × K × K)) : Option (K × K × K) := do
  let p0 ← ps[0]?
  let p1 ← ps[1]?
  let p2 ← ps[2]?
  let n := cross (sub p1 p0) (sub p2 p0)
  let norm := sqrt (n.1 * n.1 + n.2.1 * n.2.1 + n.2.2 * n.2.2)
  some (n.1 / norm, n.2.1 / norm, n.2.2 / norm)

/-- `cell_normals`, L491-602; `cell` is the type of the cells and `type` that of the entities. -/
def normals (sqrt : K → K) (cell type : CellType) (gdim : Nat) (g : Geo) (tdim dim : Nat) (x : List K) (entities : List Nat) :
    Except Err (List (K × K × K)) :=
  if entities = [] then .ok []
  else if cell = .prism ∧ dim = 2 then .error .prism
  else (nodes (decide (cell = .prism ∨ cell = .pyramid)) g tdim dim entities).bind fun rows =>
    match type with
    | .interval => if gdim > 2 then .error .interval else eachRow x (edgeNormal sqrt) rows
    | .triangle => eachRow x (faceNormal sqrt) rows
    | .quadrilateral => eachRow x (faceNormal sqrt) rows
    | _ => .error .cellType

end Verif.EntityGeom
