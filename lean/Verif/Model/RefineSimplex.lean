import Mathlib.Data.List.Basic
/-!
# Subdivision of one simplex

`cpp/dolfinx/refinement/plaza.cpp` L26-181.

`m` holds, for each edge of the cell, whether `indices[num_vertices + e] >= 0`, i.e. whether the edge has a new vertex.
Points of a cell are numbered as in the code: vertices first, then (possible) midpoints of the edges.
Simplification: the flat array of vertices is returned as one list for each new cell.
-/
namespace Verif.Refine

/-- `get_triangles`, plaza.cpp L36-66. -/
def getTriangles (m : List Bool) (le : Nat) (uniform : Bool) : List (List Nat) :=
  let v0 := (le + 1) % 3
  let v1 := (le + 2) % 3
  let v2 := le
  let e0 := v0 + 3
  let e1 := v1 + 3
  let e2 := v2 + 3
  if uniform && m.getD v0 false && m.getD v1 false then [[e0, e1, v2], [e1, e2, v0], [e2, e0, v1], [e2, e1, e0]]
  else if m.getD v0 false && m.getD v1 false then [[e2, v2, e0], [e2, e0, v1], [e2, v2, e1], [e2, e1, v0]]
  else if m.getD v0 false && !m.getD v1 false then [[e2, v2, e0], [e2, e0, v1], [e2, v2, v0]]
  else if !m.getD v0 false && m.getD v1 false then [[e2, v2, v1], [e2, v2, e1], [e2, e1, v0]]
  else [[e2, v2, v1], [e2, v2, v0]]

/-- `edges[6][2]`, plaza.cpp L81-82. -/
def tetEdges : List (Nat × Nat) := [(2, 3), (1, 3), (1, 2), (0, 3), (0, 2), (0, 1)]

/-- Ends of an edge. -/
def tetEdge (e : Nat) : Nat × Nat := tetEdges.getD e (0, 0)

/-- `conn[i][j] = true`, plaza.cpp L78; the array of 10 by 10 flags is kept in the bits of a number. -/
def connSet (c : Nat) (i j : Nat) : Nat := c ||| (1 <<< (10 * i + j))

/-- `conn[i][j]`. -/
def connGet (c : Nat) (i j : Nat) : Bool := c.testBit (10 * i + j)

/-- Facet `j` attached to a marked edge, plaza.cpp L104-133. -/
def connFacet (m : List Bool) (le : List Nat) (ei : Nat) (c : Nat) (j : Nat) : Nat :=
  let eopp := 5 - ei
  let fj := if j = 0 then (tetEdge eopp).1 else (tetEdge eopp).2
  let lej := le.getD fj 0
  if lej = ei then
    let fk := if j = 0 then (tetEdge eopp).2 else (tetEdge eopp).1
    let lek := le.getD fk 0
    let c := connSet c fk (ei + 4)
    if lek = ei ∧ m.getD eopp false = true then connSet (connSet c (ei + 4) (eopp + 4)) (eopp + 4) (ei + 4) else c
  else connSet (connSet c (lej + 4) (ei + 4)) (ei + 4) (lej + 4)

/-- One edge, plaza.cpp L85-141. -/
def connEdge (m : List Bool) (le : List Nat) (c : Nat) (ei : Nat) : Nat :=
  let v0 := (tetEdge ei).1
  let v1 := (tetEdge ei).2
  if m.getD ei false then
    [0, 1].foldl (connFacet m le ei) (connSet (connSet c v1 (ei + 4)) v0 (ei + 4))
  else connSet (connSet c v1 v0) v0 v1

/-- All connections, plaza.cpp L78-142. -/
def conns (m : List Bool) (le : List Nat) : Nat := (List.range 6).foldl (connEdge m le) 0

/-- Loop over `k`, plaza.cpp L153-175: state is `facet_set` and `tet_set`. -/
def tetInner (c i j : Nat) (s : List Nat × List (List Nat)) (k : Nat) : List Nat × List (List Nat) :=
  if connGet c i k && connGet c j k then
    (s.1 ++ [k], s.2 ++ (s.1.filter fun m => connGet c m k).map fun m => [i, j, m, k])
  else s

/-- `get_tetrahedra`, plaza.cpp L69-181. -/
def getTetrahedra (m : List Bool) (le : List Nat) : List (List Nat) :=
  let c := conns m le
  (List.range 10).flatMap fun i => ((List.range 10).filter fun j => decide (i < j)).flatMap fun j =>
    if connGet c i j then (((List.range 10).filter fun k => decide (j < k)).foldl (tetInner c i j) ([], [])).2 else []

end Verif.Refine
