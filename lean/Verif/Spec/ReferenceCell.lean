import Verif.Model.Connectivity
import Mathlib.Algebra.Order.Field.Basic
import Mathlib.Data.Finset.Image
import Mathlib.Data.Finset.Union
/-!
# Reference cells

Vertices, edges and facets of the reference cells in the numbering of Basix, and the maps from the reference cells to cells with given
vertices (Lagrange, degree 1).  A point of a cell is a vertex, the middle of an edge, of a quadrilateral, or of a hexahedron.
-/
namespace Verif.Spec.RefCell
open Verif.Connectivity (CellType)

/-- For each point of a cell the vertices that it is in the middle of: vertices, edges, quadrilaterals, and the hexahedron itself. -/
def pts : CellType → List (List Nat)
  | .triangle => [[0], [1], [2], [1, 2], [0, 2], [0, 1]]
  | .quadrilateral => [[0], [1], [2], [3], [0, 1], [0, 2], [1, 3], [2, 3], [0, 1, 2, 3]]
  | .tetrahedron => [[0], [1], [2], [3], [2, 3], [1, 3], [1, 2], [0, 3], [0, 2], [0, 1]]
  | .hexahedron =>
      [[0], [1], [2], [3], [4], [5], [6], [7],
       [0, 1], [0, 2], [0, 4], [1, 3], [1, 5], [2, 3], [2, 6], [3, 7], [4, 5], [4, 6], [5, 7], [6, 7],
       [0, 1, 2, 3], [0, 1, 4, 5], [0, 2, 4, 6], [1, 3, 5, 7], [2, 3, 6, 7], [4, 5, 6, 7], [0, 1, 2, 3, 4, 5, 6, 7]]
  | .prism =>
      [[0], [1], [2], [3], [4], [5], [0, 1], [0, 2], [0, 3], [1, 2], [1, 4], [2, 5], [3, 4], [3, 5], [4, 5],
       [0, 1, 3, 4], [0, 2, 3, 5], [1, 2, 4, 5]]
  | .pyramid => [[0], [1], [2], [3], [4], [0, 1], [0, 2], [0, 4], [1, 3], [1, 4], [2, 3], [2, 4], [3, 4], [0, 1, 2, 3]]
  | _ => []

/-- Number of vertices. -/
def nverts : CellType → Nat
  | .interval => 2
  | .triangle => 3
  | .quadrilateral => 4
  | .tetrahedron => 4
  | .hexahedron => 8
  | .prism => 6
  | .pyramid => 5
  | _ => 0

/-- Dimension. -/
def dim : CellType → Nat
  | .point => 0
  | .interval => 1
  | .triangle | .quadrilateral => 2
  | _ => 3

/-- Vertices of the facets. -/
def facets : CellType → List (List Nat)
  | .interval => [[0], [1]]
  | .triangle => [[1, 2], [0, 2], [0, 1]]
  | .quadrilateral => [[0, 1], [0, 2], [1, 3], [2, 3]]
  | .tetrahedron => [[1, 2, 3], [0, 2, 3], [0, 1, 3], [0, 1, 2]]
  | .hexahedron => [[0, 1, 2, 3], [0, 1, 4, 5], [0, 2, 4, 6], [1, 3, 5, 7], [2, 3, 6, 7], [4, 5, 6, 7]]
  | .prism => [[0, 1, 2], [0, 1, 3, 4], [0, 2, 3, 5], [1, 2, 4, 5], [3, 4, 5]]
  | .pyramid => [[0, 1, 2, 3], [0, 1, 4], [0, 2, 4], [1, 3, 4], [2, 3, 4]]
  | _ => []

/-- Vertices of the edges. -/
def edges (t : CellType) : List (List Nat) := (pts t).filter fun l => l.length = 2

variable {K : Type} [Field K]

/-- Vertices of the reference cells. -/
def vertex : CellType → Nat → K × K × K
  | .interval, i => [(0, 0, 0), (1, 0, 0)].getD i (0, 0, 0)
  | .triangle, i => [(0, 0, 0), (1, 0, 0), (0, 1, 0)].getD i (0, 0, 0)
  | .quadrilateral, i => [(0, 0, 0), (1, 0, 0), (0, 1, 0), (1, 1, 0)].getD i (0, 0, 0)
  | .tetrahedron, i => [(0, 0, 0), (1, 0, 0), (0, 1, 0), (0, 0, 1)].getD i (0, 0, 0)
  | .hexahedron, i => [(0, 0, 0), (1, 0, 0), (0, 1, 0), (1, 1, 0), (0, 0, 1), (1, 0, 1), (0, 1, 1), (1, 1, 1)].getD i (0, 0, 0)
  | .prism, i => [(0, 0, 0), (1, 0, 0), (0, 1, 0), (0, 0, 1), (1, 0, 1), (0, 1, 1)].getD i (0, 0, 0)
  | .pyramid, i => [(0, 0, 0), (1, 0, 0), (0, 1, 0), (1, 1, 0), (0, 0, 1)].getD i (0, 0, 0)
  | _, _ => (0, 0, 0)

/-- The map from the reference cell to the cell whose vertices have the coordinates `p`, one coordinate.  (The map of a pyramid is affine if
its base is a parallelogram, and only this case is given here.) -/
def mapTo : CellType → (Nat → K) → K × K × K → K
  | .interval, p, (x, _, _) => (1 - x) * p 0 + x * p 1
  | .triangle, p, (x, y, _) => (1 - x - y) * p 0 + x * p 1 + y * p 2
  | .quadrilateral, p, (x, y, _) => (1 - x) * (1 - y) * p 0 + x * (1 - y) * p 1 + (1 - x) * y * p 2 + x * y * p 3
  | .tetrahedron, p, (x, y, z) => (1 - x - y - z) * p 0 + x * p 1 + y * p 2 + z * p 3
  | .hexahedron, p, (x, y, z) => (1 - x) * (1 - y) * (1 - z) * p 0 + x * (1 - y) * (1 - z) * p 1 + (1 - x) * y * (1 - z) * p 2 +
      x * y * (1 - z) * p 3 + (1 - x) * (1 - y) * z * p 4 + x * (1 - y) * z * p 5 + (1 - x) * y * z * p 6 + x * y * z * p 7
  | .prism, p, (x, y, z) => (1 - x - y) * (1 - z) * p 0 + x * (1 - z) * p 1 + y * (1 - z) * p 2 +
      (1 - x - y) * z * p 3 + x * z * p 4 + y * z * p 5
  | .pyramid, p, (x, y, z) => (1 - x - y - z) * p 0 + x * p 1 + y * p 2 + z * p 4
  | _, _, _ => 0

/-- Mean of the coordinates of the vertices `s`. -/
def mean (p : Nat → K) (s : List Nat) : K := (s.map p).sum / (s.length : K)

/-- Coordinates of the vertices of the new cell `l` (a list of points) of a cell with vertices `p`. -/
def newPos (t : CellType) (p : Nat → K) (l : List Nat) (i : Nat) : K := mean p ((pts t).getD (l.getD i 0) [])

/-- The map from the reference cell `t'` to the new cell `l` of the reference cell `t`. -/
def mapRef (t t' : CellType) (l : List Nat) (x : K × K × K) : K × K × K :=
  (mapTo t' (newPos t (fun i => (vertex t i).1) l) x, mapTo t' (newPos t (fun i => (vertex t i).2.1) l) x,
    mapTo t' (newPos t (fun i => (vertex t i).2.2) l) x)

variable [LinearOrder K]

/-- The (closed) reference cell. -/
def Inside : CellType → K × K × K → Prop
  | .interval, (x, y, z) => 0 ≤ x ∧ x ≤ 1 ∧ y = 0 ∧ z = 0
  | .triangle, (x, y, z) => 0 ≤ x ∧ 0 ≤ y ∧ x + y ≤ 1 ∧ z = 0
  | .quadrilateral, (x, y, z) => 0 ≤ x ∧ x ≤ 1 ∧ 0 ≤ y ∧ y ≤ 1 ∧ z = 0
  | .tetrahedron, (x, y, z) => 0 ≤ x ∧ 0 ≤ y ∧ 0 ≤ z ∧ x + y + z ≤ 1
  | .hexahedron, (x, y, z) => 0 ≤ x ∧ x ≤ 1 ∧ 0 ≤ y ∧ y ≤ 1 ∧ 0 ≤ z ∧ z ≤ 1
  | .prism, (x, y, z) => 0 ≤ x ∧ 0 ≤ y ∧ x + y ≤ 1 ∧ 0 ≤ z ∧ z ≤ 1
  | .pyramid, (x, y, z) => 0 ≤ x ∧ x + z ≤ 1 ∧ 0 ≤ y ∧ y + z ≤ 1 ∧ 0 ≤ z
  | _, _ => False

/-- Its interior. -/
def Inner : CellType → K × K × K → Prop
  | .interval, (x, y, z) => 0 < x ∧ x < 1 ∧ y = 0 ∧ z = 0
  | .triangle, (x, y, z) => 0 < x ∧ 0 < y ∧ x + y < 1 ∧ z = 0
  | .quadrilateral, (x, y, z) => 0 < x ∧ x < 1 ∧ 0 < y ∧ y < 1 ∧ z = 0
  | .tetrahedron, (x, y, z) => 0 < x ∧ 0 < y ∧ 0 < z ∧ x + y + z < 1
  | .hexahedron, (x, y, z) => 0 < x ∧ x < 1 ∧ 0 < y ∧ y < 1 ∧ 0 < z ∧ z < 1
  | .prism, (x, y, z) => 0 < x ∧ 0 < y ∧ x + y < 1 ∧ 0 < z ∧ z < 1
  | .pyramid, (x, y, z) => 0 < x ∧ x + z < 1 ∧ 0 < y ∧ y + z < 1 ∧ 0 < z
  | _, _ => False

variable (K) in
/-- The new cells `C` (of the same type) tile the cell: their maps are the map of the cell after the maps to the new cells of the reference
cell, and these lie in the reference cell, cover it, have no common inner points, and are not degenerate. -/
structure Tiles (t : CellType) (C : List (List Nat)) : Prop where
  maps : ∀ l ∈ C, ∀ (p : Nat → K) (x : K × K × K), mapTo t (newPos t p l) x = mapTo t p (mapRef t t l x)
  inside : ∀ l ∈ C, ∀ x : K × K × K, Inside t x → Inside t (mapRef t t l x)
  cover : ∀ x : K × K × K, Inside t x → ∃ l ∈ C, ∃ y, Inside t y ∧ mapRef t t l y = x
  apart : C.Pairwise fun l l' => ∀ x y : K × K × K, mapRef t t l x = mapRef t t l' y → ¬ (Inner t x ∧ Inside t y) ∧ ¬ (Inside t x ∧ Inner t y)
  proper : ∀ l ∈ C, ∀ x y : K × K × K, Inside t x → Inside t y → mapRef t t l x = mapRef t t l y → x = y

end Verif.Spec.RefCell
