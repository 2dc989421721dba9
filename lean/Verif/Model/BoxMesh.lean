import Verif.Model.LocalRange
import Verif.Model.Connectivity
import Mathlib.Algebra.Order.Field.Basic
/-!
# Meshes of intervals, rectangles and boxes

`create_interval`, `create_rectangle` and `create_box`, `cpp/dolfinx/mesh/generation.h`: the arrays of vertices and cells that each process
gives to `create_mesh`.

Simplifications: coordinates are exact numbers of a field `K`; a point is a triple (coordinates beyond the geometric dimension are 0, as in the
code) instead of part of a flat array; cells are lists; numbers of cells are natural numbers; `eps` is `numeric_limits<T>::epsilon()`.
-/
namespace Verif.BoxMesh
open Verif.Connectivity (CellType)
open Verif.LocalRange

variable {K : Type} [Field K] [LinearOrder K]

/-- `DiagonalType`, `generation.h` L28-36. -/
inductive Diagonal where
  | left | right | crossed | sharedFacet | leftRight | rightLeft
deriving DecidableEq, Repr

/-- The errors. -/
inductive Err where
  | gdim | cells | order | width | cellType
deriving DecidableEq, Repr

/-- What a process gives to `create_mesh`. -/
structure Arrays (K : Type) where
  x : List (K × K × K)
  cells : List (List Nat)

/-- `create_interval_cells`, L308-330. -/
def intervalArrays (a b : K) (n : Nat) : Arrays K :=
  let h := (b - a) / (n : K)
  ⟨(List.range (n + 1)).map fun (i : Nat) => (a + h * (i : K), 0, 0), (List.range n).map fun ix => [ix, ix + 1]⟩

/-- `create_interval` on process `rank`, L256-303. -/
def createInterval (eps : K) (rank gdim n : Nat) (a b : K) : Except Err (Arrays K) :=
  if gdim < 1 ∨ 3 < gdim then .error .gdim
  else if n < 1 then .error .cells
  else if b ≤ a then .error .order
  else if |a - b| < eps then .error .width
  else .ok (if rank = 0 then intervalArrays a b n else ⟨[], []⟩)

/-- Vertices of `build_tri` without midpoints, L567-573. -/
def triVertices (a b c d : K) (nx ny : Nat) : List (K × K × K) :=
  let ab := (b - a) / (nx : K)
  let cd := (d - c) / (ny : K)
  (List.range (ny + 1)).flatMap fun (iy : Nat) => (List.range (nx + 1)).map fun (ix : Nat) => (a + ab * (ix : K), c + cd * (iy : K), 0)

/-- Midpoints of `build_tri`, L576-591. -/
def triMidpoints (a b c d : K) (nx ny : Nat) : List (K × K × K) :=
  let ab := (b - a) / (nx : K)
  let cd := (d - c) / (ny : K)
  (List.range ny).flatMap fun (iy : Nat) => (List.range nx).map fun (ix : Nat) => (a + ab * ((ix : K) + 1 / 2), c + cd * ((iy : K) + 1 / 2), 0)

/-- Cells of `build_tri` for crossed diagonals, L596-615. -/
def triCrossed (nx ny : Nat) : List (List Nat) :=
  (List.range ny).flatMap fun iy => (List.range nx).flatMap fun ix =>
    let v0 := iy * (nx + 1) + ix
    let v1 := v0 + 1
    let v2 := v0 + (nx + 1)
    let v3 := v1 + (nx + 1)
    let vmid := (nx + 1) * (ny + 1) + iy * nx + ix
    [[v0, v1, vmid], [v0, v2, vmid], [v1, v3, vmid], [v2, v3, vmid]]

/-- The diagonal at the begin of row `iy`, L618-637; `prev` is the last value of `local_diagonal`. -/
def rowDiagonal (diagonal prev : Diagonal) (iy : Nat) : Diagonal :=
  match diagonal with
  | .rightLeft => if iy % 2 ≠ 0 then .right else .left
  | .leftRight => if iy % 2 ≠ 0 then .left else .right
  | _ => prev

/-- One pass of the loop over `ix`, L638-670: two cells and the next `local_diagonal`. -/
def triSquare (diagonal loc : Diagonal) (nx iy ix : Nat) : List (List Nat) × Diagonal :=
  let v0 := iy * (nx + 1) + ix
  let v1 := v0 + 1
  let v2 := v0 + (nx + 1)
  let v3 := v1 + (nx + 1)
  match loc with
  | .left => ([[v0, v1, v2], [v1, v2, v3]], if diagonal = .rightLeft ∨ diagonal = .leftRight then .right else loc)
  | _ => ([[v0, v1, v3], [v0, v2, v3]], if diagonal = .rightLeft ∨ diagonal = .leftRight then .left else loc)

/-- Cells of `build_tri` for other diagonals, L616-674. -/
def triCells (diagonal : Diagonal) (nx ny : Nat) : List (List Nat) :=
  ((List.range ny).foldl (fun (s : List (List Nat) × Diagonal) iy =>
    (List.range nx).foldl (fun (s : List (List Nat) × Diagonal) ix =>
      let q := triSquare diagonal s.2 nx iy ix
      (s.1 ++ q.1, q.2)) (s.1, rowDiagonal diagonal s.2 iy)) ([], diagonal)).1

/-- `build_tri`, L521-693. -/
def buildTri (eps : K) (rank : Nat) (a b c d : K) (nx ny : Nat) (diagonal : Diagonal) : Except Err (Arrays K) :=
  if rank = 0 then
    if |b - a| < eps ∨ |d - c| < eps then .error .width
    else .ok (if diagonal = .crossed then ⟨triVertices a b c d nx ny ++ triMidpoints a b c d nx ny, triCrossed nx ny⟩
      else ⟨triVertices a b c d nx ny, triCells diagonal nx ny⟩)
  else .ok ⟨[], []⟩

/-- `build_quad`, L695-758. -/
def buildQuad (rank : Nat) (a b c d : K) (nx ny : Nat) : Arrays K :=
  if rank = 0 then
    let ab := (b - a) / (nx : K)
    let cd := (d - c) / (ny : K)
    ⟨(List.range (nx + 1)).flatMap fun (ix : Nat) => (List.range (ny + 1)).map fun (iy : Nat) => (a + ab * (ix : K), c + cd * (iy : K), 0),
     (List.range nx).flatMap fun ix => (List.range ny).map fun iy =>
       let i0 := ix * (ny + 1)
       [i0 + iy, i0 + iy + 1, i0 + iy + ny + 1, i0 + iy + ny + 2]⟩
  else ⟨[], []⟩

/-- `create_rectangle` on process `rank`, L181-213, with corners `(a, c)` and `(b, d)`. -/
def createRectangle (eps : K) (rank gdim : Nat) (a b c d : K) (nx ny : Nat) (t : CellType) (diagonal : Diagonal) : Except Err (Arrays K) :=
  if gdim < 2 ∨ 3 < gdim then .error .gdim
  else if nx < 1 ∨ ny < 1 then .error .cells
  else if b ≤ a ∨ d ≤ c then .error .order
  else match t with
    | .triangle => buildTri eps rank a b c d nx ny diagonal
    | .quadrilateral => .ok (buildQuad rank a b c d nx ny)
    | _ => .error .cellType

/-- `create_geom`, L332-377, on process `rank` of `size`. -/
def geom (eps : K) (rank size : Nat) (p0 p1 : K × K × K) (nx ny nz : Nat) : Except Err (List (K × K × K)) :=
  let e0 := (p1.1 - p0.1) / (nx : K)
  let e1 := (p1.2.1 - p0.2.1) / (ny : K)
  let e2 := (p1.2.2 - p0.2.2) / (nz : K)
  if |e0| < 2 * eps ∨ |e1| < 2 * eps ∨ |e2| < 2 * eps then .error .width
  else
    let rng := localRange rank ((nx + 1) * (ny + 1) * (nz + 1)) size
    let sqxy := (nx + 1) * (ny + 1)
    .ok ((List.range' rng.1 (rng.2 - rng.1)).map fun v =>
      let p := v % sqxy
      (p0.1 + ((p % (nx + 1) : Nat) : K) * e0, p0.2.1 + ((p / (nx + 1) : Nat) : K) * e1, p0.2.2 + ((v / sqxy : Nat) : K) * e2))

/-- The vertices `v0`, …, `v7` of a cuboid, L402-415, L451-464, L498-511 (`v0` is written as `(iz * (ny + 1) + iy) * (nx + 1) + ix` in the latter two). -/
def corners (nx ny i : Nat) : List Nat :=
  let iz := i / (nx * ny)
  let j := i % (nx * ny)
  let iy := j / nx
  let ix := j % nx
  let v0 := iz * (nx + 1) * (ny + 1) + iy * (nx + 1) + ix
  let v1 := v0 + 1
  let v2 := v0 + (nx + 1)
  let v3 := v1 + (nx + 1)
  [v0, v1, v2, v3, v0 + (nx + 1) * (ny + 1), v1 + (nx + 1) * (ny + 1), v2 + (nx + 1) * (ny + 1), v3 + (nx + 1) * (ny + 1)]

/-- The cells of a cuboid by its vertices: L418-420 (tetrahedra), L465 (hexahedron), L512-513 (prisms). -/
def boxTable : CellType → List (List Nat)
  | .tetrahedron => [[0, 1, 3, 7], [0, 1, 7, 5], [0, 5, 7, 4], [0, 3, 2, 7], [0, 6, 4, 7], [0, 2, 6, 7]]
  | .hexahedron => [[0, 1, 2, 3, 4, 5, 6, 7]]
  | .prism => [[0, 1, 2, 4, 5, 6], [1, 2, 3, 5, 6, 7]]
  | _ => []

/-- `build_tet`, `build_hex` and `build_prism`, L379-519. `sub` is the rank in and the size of `subcomm` (`none` on processes that are not in
it), `comm` the same for `comm`, which `build_prism` uses for the range of cells (L491-492). -/
def buildBox (eps : K) (comm : Nat × Nat) (sub : Option (Nat × Nat)) (p0 p1 : K × K × K) (nx ny nz : Nat) (t : CellType) : Except Err (Arrays K) :=
  match sub with
  | none => .ok ⟨[], []⟩
  | some sub => do
    let x ← geom eps sub.1 sub.2 p0 p1 nx ny nz
    let rng := if t = .prism then localRange comm.1 (nx * ny * nz) comm.2 else localRange sub.1 (nx * ny * nz) sub.2
    .ok ⟨x, (List.range' rng.1 (rng.2 - rng.1)).flatMap fun i => (boxTable t).map fun l => l.map fun k => (corners nx ny i).getD k 0⟩

/-- `create_box`, L104-136. -/
def createBox (eps : K) (comm : Nat × Nat) (sub : Option (Nat × Nat)) (p0 p1 : K × K × K) (nx ny nz : Nat) (t : CellType) : Except Err (Arrays K) :=
  if nx < 1 ∨ ny < 1 ∨ nz < 1 then .error .cells
  else if p1.1 ≤ p0.1 ∨ p1.2.1 ≤ p0.2.1 ∨ p1.2.2 ≤ p0.2.2 then .error .order
  else if t = .tetrahedron ∨ t = .hexahedron ∨ t = .prism then buildBox eps comm sub p0 p1 nx ny nz t
  else .error .cellType

end Verif.BoxMesh
