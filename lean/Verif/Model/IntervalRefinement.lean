import Verif.Model.NewVertices
/-!
# Refinement of intervals

`interval::compute_refinement_data`, `cpp/dolfinx/refinement/interval.h` L40-190, on all ranks.  `we` is the index map of the cells (which
are the edges), `wv` that of the vertices.

Simplifications: `cell_topology` holds one list for each new cell; coordinates are `NewVert.newGeometry`.  A failed assertion is `none`.
-/
namespace Verif.IntervalRef
open Verif.World Verif.RefMark

/-- `refinement_marker`, L78-115: marks given by the caller, with one exchange unless all cells are refined. -/
def marks (we : World) (cells : Nat → Option (List Nat)) : Option (Nat → List Bool) :=
  if (List.range we.P).all fun r => (cells r).isNone then some fun r => (start we cells r).marks
  else (updateAll we (start we cells)).map fun s r => (s r).marks

/-- One cell, L155-184. -/
def cellRows (adj : List Nat) (marked : Bool) (new : List Nat) (vs : List Nat) : Option (List (List Nat)) := do
  let (v0, v1) ← match vs with
    | [v0, v1] => some (v0, v1)
    | _ => none
  let a ← adj[v0]?
  let b ← adj[v1]?
  if marked then
    match new with
    | [c] => some [[a, c], [c, b]]
    | _ => none
  else some [[a, b]]

/-- Loop over the owned cells, L153-184: new cells and their parents. -/
def refineRank (size : Nat) (adj : List Nat) (marks : List Bool) (new : List Nat × List Nat) (c2v : List (List Nat)) :
    Option (List (List Nat) × List Nat) := do
  let rows ← (List.range size).mapM fun c => (c2v[c]?).bind (cellRows adj (marks.getD c false) (links new.1 new.2 c))
  return (rows.flatten, rows.zipIdx.flatMap fun p => List.replicate p.1.length p.2)

/-- `compute_refinement_data` on all ranks. -/
def refineMesh (we wv : World) (c2v : Nat → List (List Nat)) (cells : Nat → Option (List Nat)) : Option (List (List (List Nat) × List Nat)) := do
  let m ← marks we cells
  let new ← NewVert.newVertices we wv m
  (List.range we.P).mapM fun r => refineRank (we.size r) (NewVert.adjust we wv m r) (m r) (new r) (c2v r)

end Verif.IntervalRef
