import Verif.Model.Connectivity
/-!
# Positions of the nodes of Lagrange cells in DOLFINx, VTK and Gmsh

Nodes of a cell of degree `n` are placed on a lattice; positions are lattice coordinates. The orders are those of
Basix (see the pictures in `cpp/dolfinx/io/cells.h`), of VTK's arbitrary order Lagrange cells and of Gmsh. They are
written down independently of the tables of the code.
-/
namespace Verif.Spec
open Verif.Connectivity (CellType)

/-- A position on the lattice. -/
abbrev Pt := Nat × Nat × Nat

/-- `a p + b q`. -/
def comb2 (a : Nat) (p : Pt) (b : Nat) (q : Pt) : Pt :=
  (a * p.1 + b * q.1, a * p.2.1 + b * q.2.1, a * p.2.2 + b * q.2.2)

/-- `a p + b q + c r`. -/
def comb3 (a : Nat) (p : Pt) (b : Nat) (q : Pt) (c : Nat) (r : Pt) : Pt :=
  (a * p.1 + b * q.1 + c * r.1, a * p.2.1 + b * q.2.1 + c * r.2.1, a * p.2.2 + b * q.2.2 + c * r.2.2)

/-- Corner of a cell with unit coordinates `p`. -/
def corner (n : Nat) (p : Pt) : Pt := (n * p.1, n * p.2.1, n * p.2.2)

/-- Points inside the edge from corner `p` to corner `q`, in that order. -/
def edgePts (n : Nat) (p q : Pt) : List Pt := (List.range (n - 1)).map fun k => comb2 (n - 1 - k) p (k + 1) q

/-- Points of a triangular lattice of degree `m`, row by row. -/
def triLattice {β : Type} (m : Nat) (g : Nat → Nat → β) : List β :=
  (List.range (m + 1)).flatMap fun y => (List.range (m + 1 - y)).map fun x => g x y

/-- The point inside the triangle `p`, `q`, `r` that is `x + 1` steps towards `q` and `y + 1` steps towards `r`. -/
def triPoint (n : Nat) (p q r : Pt) (x y : Nat) : Pt := comb3 (n - 2 - x - y) p (x + 1) q (y + 1) r

/-- Points inside the triangle `p`, `q`, `r`, row by row. -/
def triPts (n : Nat) (p q r : Pt) : List Pt := if n < 3 then [] else triLattice (n - 3) (triPoint n p q r)

/-- Points inside the parallelogram with corner `p` and neighbours `q`, `r` of `p` (`0 ≤ p ≤ q, r`), row by row. -/
def quadPts (n : Nat) (p q r : Pt) : List Pt :=
  (List.range (n - 1)).flatMap fun y => (List.range (n - 1)).map fun x =>
    ((n - 1 - x) * p.1 + (x + 1) * q.1 + (y + 1) * (r.1 - p.1), (n - 1 - x) * p.2.1 + (x + 1) * q.2.1 + (y + 1) * (r.2.1 - p.2.1),
      (n - 1 - x) * p.2.2 + (x + 1) * q.2.2 + (y + 1) * (r.2.2 - p.2.2))

/-- Points of a tetrahedral lattice of degree `m`, row by row and layer by layer. -/
def tetLattice {β : Type} (m : Nat) (g : Nat → Nat → Nat → β) : List β :=
  (List.range (m + 1)).flatMap fun z => triLattice (m - z) fun x y => g x y z

/-- Unit coordinates of the vertices of a tetrahedron (also those of a triangle). -/
def tetV (i : Nat) : Pt := if i = 1 then (1, 0, 0) else if i = 2 then (0, 1, 0) else if i = 3 then (0, 0, 1) else (0, 0, 0)

/-- Unit coordinates of the vertices of a hexahedron (also those of a quadrilateral) in the order of DOLFINx. -/
def hexV (i : Nat) : Pt := (i % 2, i / 2 % 2, i / 4 % 2)

/-- Nodes in the order of DOLFINx (Basix): vertices, points inside of edges, inside of faces and inside of the cell. -/
def basixTri (n : Nat) : List Pt :=
  ([0, 1, 2].map fun i => corner n (tetV i)) ++
  ([(1, 2), (0, 2), (0, 1)].flatMap fun e => edgePts n (tetV e.1) (tetV e.2)) ++
  triPts n (tetV 0) (tetV 1) (tetV 2)

/-- As `basixTri`, for tetrahedra. -/
def basixTet (n : Nat) : List Pt :=
  ([0, 1, 2, 3].map fun i => corner n (tetV i)) ++
  ([(2, 3), (1, 3), (1, 2), (0, 3), (0, 2), (0, 1)].flatMap fun e => edgePts n (tetV e.1) (tetV e.2)) ++
  ([(1, 2, 3), (0, 2, 3), (0, 1, 3), (0, 1, 2)].flatMap fun f => triPts n (tetV f.1) (tetV f.2.1) (tetV f.2.2)) ++
  (if n < 4 then [] else tetLattice (n - 4) fun x y z => (x + 1, y + 1, z + 1))

/-- As `basixTri`, for quadrilaterals. -/
def basixQuad (n : Nat) : List Pt :=
  ([0, 1, 2, 3].map fun i => corner n (hexV i)) ++
  ([(0, 1), (0, 2), (1, 3), (2, 3)].flatMap fun e => edgePts n (hexV e.1) (hexV e.2)) ++
  quadPts n (hexV 0) (hexV 1) (hexV 2)

/-- As `basixTri`, for hexahedra. -/
def basixHex (n : Nat) : List Pt :=
  ([0, 1, 2, 3, 4, 5, 6, 7].map fun i => corner n (hexV i)) ++
  ([(0, 1), (0, 2), (0, 4), (1, 3), (1, 5), (2, 3), (2, 6), (3, 7), (4, 5), (4, 6), (5, 7), (6, 7)].flatMap fun e =>
    edgePts n (hexV e.1) (hexV e.2)) ++
  ([(0, 1, 2), (0, 1, 4), (0, 2, 4), (1, 3, 5), (2, 3, 6), (4, 5, 6)].flatMap fun f =>
    quadPts n (hexV f.1) (hexV f.2.1) (hexV f.2.2)) ++
  ((List.range (n - 1)).flatMap fun z => (List.range (n - 1)).flatMap fun y => (List.range (n - 1)).map fun x =>
    (x + 1, y + 1, z + 1))

/-- VTK's order of the points of a triangular lattice of degree `m`: corners, edges (counter-clockwise) and, in the
same way, the points inside. -/
def vtkTriLattice : Nat → List (Nat × Nat)
  | 0 => [(0, 0)]
  | 1 => [(0, 0), (1, 0), (0, 1)]
  | 2 => [(0, 0), (2, 0), (0, 2), (1, 0), (1, 1), (0, 1)]
  | m + 3 =>
    [(0, 0), (m + 3, 0), (0, m + 3)] ++ ((List.range (m + 2)).map fun k => (k + 1, 0)) ++
    ((List.range (m + 2)).map fun k => (m + 2 - k, k + 1)) ++ ((List.range (m + 2)).map fun k => (0, m + 2 - k)) ++
    (vtkTriLattice m).map fun p => (p.1 + 1, p.2 + 1)

/-- Points inside the triangle `p`, `q`, `r` in VTK's order. -/
def vtkTriPts (n : Nat) (p q r : Pt) : List Pt :=
  if n < 3 then [] else (vtkTriLattice (n - 3)).map fun x => triPoint n p q r x.1 x.2

/-- Points of a tetrahedron of degree `m` on its corners, edges and faces in VTK's order. -/
def vtkTetShell (n : Nat) : List Pt :=
  ([0, 1, 2, 3].map fun i => corner n (tetV i)) ++
  ([(0, 1), (1, 2), (2, 0), (0, 3), (1, 3), (2, 3)].flatMap fun e => edgePts n (tetV e.1) (tetV e.2)) ++
  ([(0, 1, 3), (2, 3, 1), (0, 3, 2), (0, 2, 1)].flatMap fun f => vtkTriPts n (tetV f.1) (tetV f.2.1) (tetV f.2.2))

/-- Nodes of a tetrahedron in VTK's order: the shell and, in the same way, the points inside. -/
def vtkTet : Nat → List Pt
  | 0 => [(0, 0, 0)]
  | 1 => vtkTetShell 1
  | 2 => vtkTetShell 2
  | 3 => vtkTetShell 3
  | n + 4 => vtkTetShell (n + 4) ++ (vtkTet n).map fun p => (p.1 + 1, p.2.1 + 1, p.2.2 + 1)

/-- Nodes of a triangle in VTK's order. -/
def vtkTri (n : Nat) : List Pt := (vtkTriLattice n).map fun p => (p.1, p.2, 0)

/-- Nodes of a quadrilateral in VTK's order. -/
def vtkQuad (n : Nat) : List Pt :=
  ([(0, 0, 0), (1, 0, 0), (1, 1, 0), (0, 1, 0)].map (corner n)) ++
  edgePts n (0, 0, 0) (1, 0, 0) ++ edgePts n (1, 0, 0) (1, 1, 0) ++ edgePts n (0, 1, 0) (1, 1, 0) ++
  edgePts n (0, 0, 0) (0, 1, 0) ++
  ((List.range (n - 1)).flatMap fun y => (List.range (n - 1)).map fun x => (x + 1, y + 1, 0))

/-- Edges of a hexahedron in VTK's order. -/
def vtkHexEdges : List (Pt × Pt) :=
  [((0, 0, 0), (1, 0, 0)), ((1, 0, 0), (1, 1, 0)), ((0, 1, 0), (1, 1, 0)), ((0, 0, 0), (0, 1, 0)),
   ((0, 0, 1), (1, 0, 1)), ((1, 0, 1), (1, 1, 1)), ((0, 1, 1), (1, 1, 1)), ((0, 0, 1), (0, 1, 1)),
   ((0, 0, 0), (0, 0, 1)), ((1, 0, 0), (1, 0, 1)), ((1, 1, 0), (1, 1, 1)), ((0, 1, 0), (0, 1, 1))]

/-- Nodes of a hexahedron in VTK's order. -/
def vtkHex (n : Nat) : List Pt :=
  let square (g : Nat → Nat → Pt) := (List.range (n - 1)).flatMap fun b => (List.range (n - 1)).map fun a => g (a + 1) (b + 1)
  ([(0, 0, 0), (1, 0, 0), (1, 1, 0), (0, 1, 0), (0, 0, 1), (1, 0, 1), (1, 1, 1), (0, 1, 1)].map (corner n)) ++
  (vtkHexEdges.flatMap fun e => edgePts n e.1 e.2) ++
  square (fun y z => (0, y, z)) ++ square (fun y z => (n, y, z)) ++
  square (fun x z => (x, 0, z)) ++ square (fun x z => (x, n, z)) ++
  square (fun x y => (x, y, 0)) ++ square (fun x y => (x, y, n)) ++
  ((List.range (n - 1)).flatMap fun z => (List.range (n - 1)).flatMap fun y => (List.range (n - 1)).map fun x =>
    (x + 1, y + 1, z + 1))

/-- Nodes of an interval; all three programs use this order. -/
def intervalNodes (n : Nat) : List Pt := [(0, 0, 0), (n, 0, 0)] ++ edgePts n (0, 0, 0) (1, 0, 0)

/-- Nodes of a cell of degree two: `(a, b)` stands for the point halfway between vertices `a` and `b`, i.e. a vertex
(`a = b`), the middle of an edge, or the centre of a parallelogram or of a hexahedron (`a` opposite of `b`). Positions
are multiplied by two. -/
def halfway (v : List Pt) (ab : List (Nat × Nat)) : List Pt :=
  ab.map fun e => comb2 1 (v.getD e.1 (0, 0, 0)) 1 (v.getD e.2 (0, 0, 0))

/-- The vertices `0, …, n - 1` as nodes of a cell of degree two. -/
def cornerPairs (n : Nat) : List (Nat × Nat) := (List.range n).map fun i => (i, i)

/-- Unit coordinates of the vertices of a prism (DOLFINx, VTK and Gmsh). -/
def prismV : List Pt := [(0, 0, 0), (1, 0, 0), (0, 1, 0), (0, 0, 1), (1, 0, 1), (0, 1, 1)]

/-- Edges and quadrilateral faces of a prism (DOLFINx and Gmsh). -/
def basixPrism : List (Nat × Nat) := cornerPairs 6 ++
  [(0, 1), (0, 2), (0, 3), (1, 2), (1, 4), (2, 5), (3, 4), (3, 5), (4, 5)] ++ [(0, 4), (0, 5), (1, 5)]

/-- Edges and quadrilateral faces of a prism (VTK). -/
def vtkPrism : List (Nat × Nat) := cornerPairs 6 ++
  [(0, 1), (1, 2), (2, 0), (3, 4), (4, 5), (5, 3), (0, 3), (1, 4), (2, 5)] ++ [(0, 4), (1, 5), (2, 3)]

/-- Unit coordinates of the vertices of a pyramid (DOLFINx). -/
def pyramidV : List Pt := [(0, 0, 0), (1, 0, 0), (0, 1, 0), (1, 1, 0), (0, 0, 1)]

/-- Unit coordinates of the vertices of a pyramid (VTK and Gmsh: counter-clockwise). -/
def pyramidV' : List Pt := [(0, 0, 0), (1, 0, 0), (1, 1, 0), (0, 1, 0), (0, 0, 1)]

/-- Edges and base of a pyramid (DOLFINx). -/
def basixPyramid : List (Nat × Nat) := cornerPairs 5 ++
  [(0, 1), (0, 2), (0, 4), (1, 3), (1, 4), (2, 3), (2, 4), (3, 4)] ++ [(0, 3)]

/-- Edges and base of a pyramid (VTK). -/
def vtkPyramidNodes : List (Nat × Nat) := cornerPairs 5 ++
  [(0, 1), (1, 2), (2, 3), (3, 0), (0, 4), (1, 4), (2, 4), (3, 4)] ++ [(0, 2)]

/-- Edges and base of a pyramid (Gmsh). -/
def gmshPyramidNodes : List (Nat × Nat) := cornerPairs 5 ++
  [(0, 1), (0, 3), (0, 4), (1, 2), (1, 4), (2, 3), (2, 4), (3, 4)] ++ [(0, 2)]

/-- Unit coordinates of the vertices of a hexahedron (VTK and Gmsh: counter-clockwise). -/
def hexV' : List Pt :=
  [(0, 0, 0), (1, 0, 0), (1, 1, 0), (0, 1, 0), (0, 0, 1), (1, 0, 1), (1, 1, 1), (0, 1, 1)]

/-- Vertices and edges of a hexahedron (DOLFINx). -/
def basixHex20 : List (Nat × Nat) := cornerPairs 8 ++
  [(0, 1), (0, 2), (0, 4), (1, 3), (1, 5), (2, 3), (2, 6), (3, 7), (4, 5), (4, 6), (5, 7), (6, 7)]

/-- Vertices and edges of a hexahedron (VTK). -/
def vtkHex20 : List (Nat × Nat) := cornerPairs 8 ++
  [(0, 1), (1, 2), (2, 3), (3, 0), (4, 5), (5, 6), (6, 7), (7, 4), (0, 4), (1, 5), (2, 6), (3, 7)]

/-- `VtkOrder t num P V`: cells of type `t` with `num` nodes have their nodes at the positions `P` in DOLFINx' order and
at the positions `V` in VTK's order. -/
inductive VtkOrder : CellType → Nat → List Pt → List Pt → Prop
  | point : VtkOrder .point 1 [(0, 0, 0)] [(0, 0, 0)]
  | interval (n : Nat) (h : 1 ≤ n) : VtkOrder .interval (n + 1) (intervalNodes n) (intervalNodes n)
  | triangle (n : Nat) (h : 1 ≤ n) : VtkOrder .triangle ((n + 1) * (n + 2) / 2) (basixTri n) (vtkTri n)
  | tetrahedron (n : Nat) (h : 1 ≤ n) : VtkOrder .tetrahedron ((n + 1) * (n + 2) * (n + 3) / 6) (basixTet n) (vtkTet n)
  | quadrilateral (n : Nat) (h : 1 ≤ n) : VtkOrder .quadrilateral ((n + 1) * (n + 1)) (basixQuad n) (vtkQuad n)
  | hexahedron (n : Nat) (h : 1 ≤ n) : VtkOrder .hexahedron ((n + 1) * (n + 1) * (n + 1)) (basixHex n) (vtkHex n)
  | hexahedron20 : VtkOrder .hexahedron 20 (halfway ((List.range 8).map hexV) basixHex20) (halfway hexV' vtkHex20)
  | prism (num : Nat) (h : num = 6 ∨ num = 15 ∨ num = 18) :
    VtkOrder .prism num (halfway prismV (basixPrism.take num)) (halfway prismV (vtkPrism.take num))
  | pyramid (num : Nat) (h : num = 5 ∨ num = 13 ∨ num = 14) :
    VtkOrder .pyramid num (halfway pyramidV (basixPyramid.take num)) (halfway pyramidV' (vtkPyramidNodes.take num))

/-- Nodes of a triangle of degree at most three in Gmsh's order. -/
def gmshTri (n : Nat) : List Pt :=
  ([0, 1, 2].map fun i => corner n (tetV i)) ++
  ([(0, 1), (1, 2), (2, 0)].flatMap fun e => edgePts n (tetV e.1) (tetV e.2)) ++ triPts n (tetV 0) (tetV 1) (tetV 2)

/-- Nodes of a tetrahedron of degree at most three in Gmsh's order. -/
def gmshTet (n : Nat) : List Pt :=
  ([0, 1, 2, 3].map fun i => corner n (tetV i)) ++
  ([(0, 1), (1, 2), (2, 0), (3, 0), (3, 2), (3, 1)].flatMap fun e => edgePts n (tetV e.1) (tetV e.2)) ++
  ([(0, 2, 1), (0, 1, 3), (0, 3, 2), (3, 1, 2)].flatMap fun f => triPts n (tetV f.1) (tetV f.2.1) (tetV f.2.2))

/-- Nodes of a quadrilateral of degree at most three in Gmsh's order. The points inside are a quadrilateral of degree
`n - 2`. -/
def gmshQuad (n : Nat) : List Pt :=
  let v := [(0, 0, 0), (1, 0, 0), (1, 1, 0), (0, 1, 0)]
  (v.map (corner n)) ++
  ([(0, 1), (1, 2), (2, 3), (3, 0)].flatMap fun e => edgePts n (v.getD e.1 (0, 0, 0)) (v.getD e.2 (0, 0, 0))) ++
  (if n = 2 then [(1, 1, 0)] else if n = 3 then v.map fun p => (p.1 + 1, p.2.1 + 1, 0) else [])

/-- Vertices, edges, faces and inside of a hexahedron in Gmsh's order. -/
def gmshHexNodes : List (Nat × Nat) := cornerPairs 8 ++
  [(0, 1), (0, 3), (0, 4), (1, 2), (1, 5), (2, 3), (2, 6), (3, 7), (4, 5), (4, 7), (5, 6), (6, 7)] ++
  [(0, 2), (0, 5), (0, 7), (1, 6), (2, 7), (4, 6)] ++ [(0, 6)]

/-- `GmshOrder t num P G`: cells of type `t` with `num` nodes have their nodes at the positions `P` in DOLFINx' order
and at the positions `G` in Gmsh's order. -/
inductive GmshOrder : CellType → Nat → List Pt → List Pt → Prop
  | point : GmshOrder .point 1 [(0, 0, 0)] [(0, 0, 0)]
  | interval (n : Nat) (h : 1 ≤ n) : GmshOrder .interval (n + 1) (intervalNodes n) (intervalNodes n)
  | triangle (n : Nat) (h : n = 1 ∨ n = 2 ∨ n = 3) : GmshOrder .triangle ((n + 1) * (n + 2) / 2) (basixTri n) (gmshTri n)
  | tetrahedron (n : Nat) (h : n = 1 ∨ n = 2 ∨ n = 3) :
    GmshOrder .tetrahedron ((n + 1) * (n + 2) * (n + 3) / 6) (basixTet n) (gmshTet n)
  | quadrilateral (n : Nat) (h : n = 1 ∨ n = 2 ∨ n = 3) : GmshOrder .quadrilateral ((n + 1) * (n + 1)) (basixQuad n) (gmshQuad n)
  | hexahedron8 : GmshOrder .hexahedron 8 (basixHex 1) hexV'
  | hexahedron27 : GmshOrder .hexahedron 27 (basixHex 2) (halfway hexV' gmshHexNodes)
  | prism (num : Nat) (h : num = 6 ∨ num = 15 ∨ num = 18) :
    GmshOrder .prism num (halfway prismV (basixPrism.take num)) (halfway prismV (basixPrism.take num))
  | pyramid (num : Nat) (h : num = 5 ∨ num = 13 ∨ num = 14) :
    GmshOrder .pyramid num (halfway pyramidV (basixPyramid.take num)) (halfway pyramidV' (gmshPyramidNodes.take num))

/-- The nodes that row `c` of an array of cells with `N` nodes per cell lists are, in the cell, at the positions `L`.
`pos c v` is the position of node `v` in cell `c`. -/
def NodesAt (cells : List Int) (rows N : Nat) (pos : Nat → Int → Pt) (L : List Pt) : Prop :=
  ∀ c, c < rows → ∀ i, i < N → ∃ v, cells[c * N + i]? = some v ∧ L[i]? = some (pos c v)

end Verif.Spec
