import Verif.Model.Gjk
import Verif.Model.EntityGeom
import Verif.Model.AdjacencyList
/-!
# Distance of points and mesh entities; collision of points and cells

Model of `shortest_vector` L52-127, `squared_distance` L173-183, `compute_first_colliding_cell` L522-554 and `compute_colliding_cells` L630-657 of
`cpp/dolfinx/geometry/utils.h`, with `compute_distance_gjk` (`Model/Gjk`).

* Arithmetic is exact, as in `Model/Gjk`.  The tolerance `eps2` (`1e-12`, L638) is a parameter.
* The mesh has one cell type.  `many`: there are several types of entities of dimension `dim` (facets of prisms and pyramids); then
  `Topology::connectivity(d0, d1)` throws (`Topology.cpp` L959-968).
* Indices past the end of an array are the error `assert`.
* The numbers that GJK reads and that were never set may be different for each call: `junk` has the number of the call as first argument.
-/
namespace Verif.Collide
open Verif.Submesh (Geo)
open Verif.Gjk (V)
open Verif.EntityGeom (point points)

/-- Exceptions. -/
inductive Err where
  /-- "Multiple entity types in mesh." -/
  | types
  /-- from `compute_distance_gjk` -/
  | gjk (e : Gjk.Err)
  /-- an index past the end -/
  | assert
  deriving DecidableEq

variable {K : Type} [Field K] [LinearOrder K]

/-- The nodes of entity `e`: for cells L70-77, otherwise L94-118. -/
def nodesOf (g : Geo) (tdim dim : Nat) (x : List K) (e : Nat) : Option (List (V K)) :=
  if dim = tdim then points x (g.xdofs e)
  else do
    let c ← (g.e2c e).head?
    let le := (g.c2e c).idxOf e
    if (g.c2e c).length ≤ le then none
    else do
      let l ← (g.closure dim le).mapM fun d => (g.xdofs c)[d]?
      points x l

/-- `compute_distance_gjk(point, nodes)`, L79-80 and L120-121. -/
def gjk (junk : Nat → K) (sqrt : K → K) (eps : K) (p : V K) (ps : List (V K)) : Except Err (V K) :=
  match Gjk.distance junk sqrt eps [p] ps with
  | .ok v => .ok v
  | .error e => .error (.gjk e)

/-- The body of both loops of `shortest_vector` for entity `e` at position `i`. -/
def vector (junk : Nat → Nat → K) (sqrt : K → K) (eps : K) (g : Geo) (tdim dim : Nat) (x pts : List K) (i e : Nat) : Except Err (V K) :=
  match nodesOf g tdim dim x e, point pts i with
  | some ps, some p => gjk (junk i) sqrt eps p ps
  | _, _ => .error .assert

/-- The loops of `shortest_vector` from position `i` on. -/
def vectors (junk : Nat → Nat → K) (sqrt : K → K) (eps : K) (g : Geo) (tdim dim : Nat) (x pts : List K) : Nat → List Nat → Except Err (List (V K))
  | _, [] => .ok []
  | i, e :: es =>
    match vector junk sqrt eps g tdim dim x pts i e with
    | .error err => .error err
    | .ok v =>
      match vectors junk sqrt eps g tdim dim x pts (i + 1) es with
      | .error err => .error err
      | .ok vs => .ok (v :: vs)

/-- `shortest_vector`, L52-127. -/
def shortest (junk : Nat → Nat → K) (sqrt : K → K) (eps : K) (many : Bool) (g : Geo) (tdim dim : Nat) (x : List K) (es : List Nat) (pts : List K) :
    Except Err (List (V K)) :=
  if dim ≠ tdim ∧ many = true then .error .types else vectors junk sqrt eps g tdim dim x pts 0 es

/-- The sum of L180-181. -/
def square (v : V K) : K := 0 + v.1 * v.1 + v.2.1 * v.2.1 + v.2.2 * v.2.2

/-- `squared_distance`, L173-183. -/
def squared (junk : Nat → Nat → K) (sqrt : K → K) (eps : K) (many : Bool) (g : Geo) (tdim dim : Nat) (x : List K) (es : List Nat) (pts : List K) :
    Except Err (List K) :=
  match shortest junk sqrt eps many g tdim dim x es pts with
  | .ok vs => .ok (vs.map square)
  | .error e => .error e

/-- `_point`, L643-646. -/
def copies (p : V K) : Nat → List K
  | 0 => []
  | n + 1 => p.1 :: p.2.1 :: p.2.2 :: copies p n

/-- `colliding_cells` and `offsets`. -/
structure State where
  cells : List Nat
  offsets : List Nat
  deriving DecidableEq

/-- The loop L649-653. -/
def push (eps2 : K) (s : State) (cells : List Nat) (ds : List K) : State :=
  let new := s.cells ++ ((cells.zip ds).filter fun c => decide (c.2 < eps2)).map fun c => c.1
  ⟨new, s.offsets ++ [new.length]⟩

/-- The loop L640-654 from point `i` on. -/
def pointsLoop (junk : Nat → Nat → Nat → K) (sqrt : K → K) (eps eps2 : K) (g : Geo) (tdim : Nat) (x pts : List K) :
    Nat → List (List Nat) → State → Except Err State
  | _, [], s => .ok s
  | i, cells :: rest, s =>
    match (if cells = [] then some (0, 0, 0) else point pts i) with
    | none => .error .assert
    | some p =>
      match squared (junk i) sqrt eps false g tdim tdim x cells (copies p cells.length) with
      | .error e => .error e
      | .ok ds => pointsLoop junk sqrt eps eps2 g tdim x pts (i + 1) rest (push eps2 s cells ds)

/-- `compute_colliding_cells`, L630-657; `cand` has the candidate cells of each point. -/
def collidingCells (junk : Nat → Nat → Nat → K) (sqrt : K → K) (eps eps2 : K) (g : Geo) (tdim : Nat) (x : List K) (cand : List (List Nat)) (pts : List K) :
    Except Err (AdjList.AdjList Nat) :=
  match pointsLoop junk sqrt eps eps2 g tdim x pts 0 cand ⟨[], [0]⟩ with
  | .ok s =>
    match AdjList.ofData s.cells s.offsets with
    | .ok a => .ok a
    | .error _ => .error .assert
  | .error e => .error e

/-- The operation of L547. -/
def op (d e : K) : K := d + e * e

/-- `std::reduce` as the libraries for C++ do it for three numbers: from left to right. -/
def leftToRight (f : K → K → K) (init a b c : K) : K := f (f (f init a) b) c

/-- `compute_first_colliding_cell`, L522-554, `none` is -1.  `reduce` is what `std::reduce` does with three numbers. -/
def firstCell (reduce : (K → K → K) → K → K → K → K → K) (junk : Nat → Nat → K) (sqrt : K → K) (eps : K) (g : Geo) (x : List K) (p : V K) (tol : K) :
    Nat → List Nat → Except Err (Option Nat)
  | _, [] => .ok none
  | i, c :: cs =>
    match points x (g.xdofs c) with
    | none => .error .assert
    | some ps =>
      match gjk (junk i) sqrt eps p ps with
      | .error e => .error e
      | .ok v => if reduce op 0 v.1 v.2.1 v.2.2 < tol then .ok (some c) else firstCell reduce junk sqrt eps g x p tol (i + 1) cs

end Verif.Collide
