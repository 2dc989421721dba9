import Verif.Model.Connectivity
/-!
# Model: orderings of the nodes of a cell in files

`cpp/dolfinx/io/cells.cpp`. Entries of the arrays are `std::uint16_t`: every number that is stored is reduced
with `w`. Positions that are handed to `vec_pop` are `int`. The roots in `cell_degree` are modelled by exact integer
roots (in the code: truncated floating point roots).
-/
namespace Verif.CellPerm
open Verif.Connectivity (CellType)

/-- Failures. -/
inductive Err where
  /-- `std::runtime_error`: "Unknown ... layout" -/
  | layout
  /-- access outside of an array -/
  | range
deriving DecidableEq, Repr

/-- Conversion to `std::uint16_t`. -/
def w (n : Nat) : Nat := n % 65536

variable {α : Type}

/-- `vec_pop`, L24-30: remove and return the value at a position, which is counted from the end if negative. -/
def vecPop (v : List α) (i : Int) : Except Err (α × List α) :=
  let pos := if i < 0 then (v.length : Int) + i else i
  if pos < 0 then .error .range
  else match v[pos.toNat]? with
    | some x => .ok (x, v.eraseIdx pos.toNat)
    | none => .error .range

/-- A loop `for (; i < i + count; ++i) { map.push_back(vec_pop(v, d)); d += f(i); }`. Returns the values pushed to
`map` and the rest of `v`. -/
def popLoop (f : Nat → Int) : Nat → Nat → Int → List α → Except Err (List α × List α)
  | 0, _, _, v => .ok ([], v)
  | n + 1, i, d, v =>
    match vecPop v d with
    | .error e => .error e
    | .ok (x, v) =>
      match popLoop f n (i + 1) (d + f i) v with
      | .error e => .error e
      | .ok (xs, v) => .ok (x :: xs, v)

/-- A cubic root rounded down, for `std::cbrt`. -/
def cbrt (n : Nat) : Nat := ((List.range (n + 1)).filter fun k => k * k * k ≤ n).length - 1

/-- The loop `while (n * (n + 1) * (n + 2) < 6 * num_nodes) ++n`, L630-632, with enough fuel. -/
def tetLoop (num : Nat) : Nat → Nat → Nat
  | 0, n => n
  | f + 1, n => if n * (n + 1) * (n + 2) < 6 * num then tetLoop num f (n + 1) else n

/-- `cell_degree`, L610-685. -/
def cellDegree (t : CellType) (num : Nat) : Except Err Int :=
  match t with
  | .point => .ok 1
  | .interval => .ok ((num : Int) - 1)
  | .triangle =>
    let n := (Nat.sqrt (1 + 8 * num) - 1) / 2
    if 2 * num ≠ n * (n + 1) then .error .layout else .ok ((n : Int) - 1)
  | .tetrahedron =>
    let n := tetLoop num (6 * num) 0
    if n * (n + 1) * (n + 2) ≠ 6 * num then .error .layout else .ok ((n : Int) - 1)
  | .quadrilateral =>
    let n := Nat.sqrt num
    if num ≠ n * n then .error .layout else .ok ((n : Int) - 1)
  | .hexahedron =>
    let n := cbrt num
    if num ≠ n * n * n then .error .layout else .ok ((n : Int) - 1)
  | .prism => if num = 6 then .ok 1 else if num = 15 then .ok 2 else .error .layout
  | .pyramid => if num = 5 then .ok 1 else if num = 13 then .ok 2 else .error .layout

/-- The body of the loop of `vtk_triangle_remainders`, L46-63, for at least two remainders: the values pushed to
`map` and the rest. -/
def triStep (v : List α) : Except Err (List α × List α) := do
  let degree ← cellDegree .triangle v.length
  let (x0, v) ← vecPop v 0
  let (x1, v) ← vecPop v (degree - 1)
  let (x2, v) ← vecPop v (-1)
  let (e0, v) ← popLoop (fun _ => 0) (degree - 1).toNat 0 0 v
  let (e1, v) ← popLoop (fun i => degree - i) (degree - 1).toNat 1 (-(degree * (degree - 1) / 2)) v
  let (e2, v) ← popLoop (fun i => -(i : Int)) (degree - 1).toNat 1 (-1) v
  return ([x0, x1, x2] ++ e0 ++ e1 ++ e2, v)

/-- The loop of `vtk_triangle_remainders`, L38-64, with enough fuel. -/
def triLoop : Nat → List α → Except Err (List α)
  | 0, _ => .error .range
  | fuel + 1, v =>
    match v with
    | [] => .ok []
    | [x] => .ok [x]
    | v => do
      let (m, v) ← triStep v
      let ms ← triLoop fuel v
      return m ++ ms

/-- `vtk_triangle_remainders`, L32-67. -/
def triRem (v : List α) : Except Err (List α) := triLoop (v.length + 1) v

/-- `vtk_triangle`, L69-95. -/
def vtkTriangle (num : Nat) : Except Err (List Nat) := do
  let degree ← cellDegree .triangle num
  let n := degree.toNat
  let map := [0, 1, 2] ++ ((List.range (n - 1)).map fun k => w (3 + 2 * (n - 1) + k)) ++
    ((List.range (n - 1)).map fun k => w (3 + k)) ++ ((List.range (n - 1)).map fun k => w (2 * n - k))
  if degree < 3 then return map
  let rem := (List.range (num - map.length)).map fun i => w (3 * n + i)
  let r ← triRem rem
  return map ++ r

/-- The four corners, L114-117. -/
def tetCorners (deg : Int) (v : List α) : Except Err (List α × List α) := do
  let (x0, v) ← vecPop v 0
  let (x1, v) ← vecPop v (deg - 2)
  let (x2, v) ← vecPop v (deg * (deg + 1) / 2 - 3)
  let (x3, v) ← vecPop v (-1)
  return ([x0, x1, x2, x3], v)

/-- The six edges, L119-169. -/
def tetEdges (deg : Int) (v : List α) : Except Err (List α × List α) := do
  let c := (deg - 2).toNat
  let (e0, v) ← popLoop (fun _ => 0) c 0 0 v
  let (e1, v) ← popLoop (fun i => deg - 3 - i) c 0 (deg - 2) v
  let (e2, v) ← popLoop (fun i => -(2 + i : Int)) c 0 ((deg - 2) * (deg - 1) / 2 - 1) v
  let (e3, v) ← popLoop (fun i => (deg - i) * (deg - i - 1) / 2 - 1) c 0 ((deg - 3) * (deg - 2) / 2) v
  let (e4, v) ← popLoop (fun i => (deg - 2 - i) * (deg - 1 - i) / 2 + deg - 4 - i) c 0
    ((deg - 3) * (deg - 2) / 2 + deg - 3) v
  let (e5, v) ← popLoop (fun i => (deg - 3 - i) * (deg - 2 - i) / 2 + deg - i - 5) c 0
    ((deg - 3) * (deg - 2) / 2 + deg - 3 + (deg - 2) * (deg - 1) / 2 - 1) v
  return (e0 ++ e1 ++ e2 ++ e3 ++ e4 ++ e5, v)

/-- Two nested loops `for (i; ...) { d = start(i); for (ii < count(i)) { dofs.push_back(vec_pop(v, d)); d += f(i, ii); } }`. -/
def popNest (start : Nat → Int) (count : Nat → Nat) (f : Nat → Nat → Int) : Nat → Nat → List α →
    Except Err (List α × List α)
  | 0, _, v => .ok ([], v)
  | n + 1, i, v =>
    match popLoop (f i) (count i) 0 (start i) v with
    | .error e => .error e
    | .ok (xs, v) =>
      match popNest start count f n (i + 1) v with
      | .error e => .error e
      | .ok (ys, v) => .ok (xs ++ ys, v)

/-- Value of a variable that starts with `a` and is changed by `f(i)` at the end of iteration `i`. -/
def after (a : Int) (f : Nat → Int) : Nat → Int
  | 0 => a
  | i + 1 => after a f i + f i

/-- The four faces, L171-250. -/
def tetFaces (deg : Int) (v : List α) : Except Err (List α × List α) := do
  let c := (deg - 3).toNat
  let count := fun i => c - i
  let (d0, v) ← popNest (after ((deg - 3) * (deg - 2) / 2) fun i => (deg - 2 - i) * (deg - 1 - i) / 2 - 1) count
    (fun _ _ => 0) c 0 v
  let m0 ← triRem d0
  let (d1, v) ← popNest (after (deg * deg - 4 * deg + 2) fun i => -(2 + i : Int)) count
    (fun i ii => (deg - 3 - ii) * (deg - 3 - ii + 1) / 2 - 2 - i) c 0 v
  let m1 ← triRem d1
  let (d2, v) ← popNest (after ((deg - 3) * (deg - 2) / 2) fun i => deg - 4 - i) count
    (fun i ii => (deg - 3 - ii) * (deg - 3 - ii + 1) / 2 - 1 - 2 * i) c 0 v
  let m2 ← triRem d2
  let (d3, v) ← popNest (fun _ => 0) count (fun i ii => deg - 4 - i - ii) c 0 v
  let m3 ← triRem d3
  return (m0 ++ m1 ++ m2 ++ m3, v)

/-- The body of the loop of `vtk_tetrahedron_remainders`, L111-250, for at least two remainders. -/
def tetStep (v : List α) : Except Err (List α × List α) := do
  let degree ← cellDegree .tetrahedron v.length
  let deg := degree + 1
  let (m0, v) ← tetCorners deg v
  let (m1, v) ← if deg > 2 then tetEdges deg v else .ok ([], v)
  let (m2, v) ← if deg > 3 then tetFaces deg v else .ok ([], v)
  return (m0 ++ m1 ++ m2, v)

/-- The loop of `vtk_tetrahedron_remainders`, L103-251, with enough fuel. -/
def tetLoopRem : Nat → List α → Except Err (List α)
  | 0, _ => .error .range
  | fuel + 1, v =>
    match v with
    | [] => .ok []
    | [x] => .ok [x]
    | v => do
      let (m, v) ← tetStep v
      let ms ← tetLoopRem fuel v
      return m ++ ms

/-- `vtk_tetrahedron_remainders`, L97-254. -/
def tetRem (v : List α) : Except Err (List α) := tetLoopRem (v.length + 1) v

/-- Dofs of a face of a tetrahedron in the order expected by `vtk_triangle_remainders`, L292-323. -/
def tetFaceDofs (n base face : Nat) : List Nat :=
  let nf := (n - 1) * (n - 2) / 2
  if face = 2 then (List.range nf).map fun i => w (base + nf * face + i)
  else if face = 0 then
    (List.range (n - 2)).flatMap fun k =>
      let i := n - 3 - k
      (List.range (i + 1)).map fun ii => w (base + nf * face + (after i (fun j => (n : Int) - 3 - j) ii).toNat)
  else
    (List.range (n - 2)).flatMap fun i =>
      (List.range (n - 2 - i)).map fun ii => w (base + nf * face + (after i (fun j => (n : Int) - 2 - j) ii).toNat)

/-- `vtk_tetrahedron`, L257-341. -/
def vtkTetrahedron (num : Nat) : Except Err (List Nat) := do
  let degree ← cellDegree .tetrahedron num
  let n := degree.toNat
  let map := [0, 1, 2, 3]
  if degree < 2 then return map
  let e := n - 1
  let map := map ++ [5, 2, 4, 3, 1, 0].flatMap fun edge =>
    if edge = 4 then (List.range e).map fun i => w (4 + e * (edge + 1) - 1 - i)
    else (List.range e).map fun i => w (4 + e * edge + i)
  if degree < 3 then return map
  let base := 4 + 6 * e
  let nf := (n - 1) * (n - 2) / 2
  let f2 ← triRem (tetFaceDofs n base 2)
  let f0 ← triRem (tetFaceDofs n base 0)
  let f1 ← triRem (tetFaceDofs n base 1)
  let f3 ← triRem (tetFaceDofs n base 3)
  let map := map ++ f2 ++ f0 ++ f1 ++ f3
  if degree < 4 then return map
  let base := base + 4 * nf
  let r ← tetRem ((List.range ((n - 1) * (n - 2) * (n - 3) / 6)).map fun i => w (base + i))
  return map ++ r

/-- `vtk_wedge`, L343-356. -/
def vtkWedge (num : Nat) : Except Err (List Nat) :=
  if num = 6 then .ok [0, 1, 2, 3, 4, 5]
  else if num = 15 then .ok [0, 1, 2, 3, 4, 5, 6, 9, 7, 12, 14, 13, 8, 10, 11]
  else if num = 18 then .ok [0, 1, 2, 3, 4, 5, 6, 9, 7, 12, 14, 13, 8, 10, 11, 15, 17, 16]
  else .error .layout

/-- `vtk_pyramid`, L358-371. -/
def vtkPyramid (num : Nat) : Except Err (List Nat) :=
  if num = 5 then .ok [0, 1, 3, 2, 4]
  else if num = 13 then .ok [0, 1, 3, 2, 4, 5, 8, 10, 6, 7, 9, 12, 11]
  else if num = 14 then .ok [0, 1, 3, 2, 4, 5, 8, 10, 6, 7, 9, 12, 11, 13]
  else .error .layout

/-- `vtk_quadrilateral`, L373-400. -/
def vtkQuadrilateral (num : Nat) : Except Err (List Nat) := do
  let degree ← cellDegree .quadrilateral num
  let e := (degree - 1).toNat
  return [0, 1, 3, 2] ++ ((List.range e).map fun k => w (4 + k)) ++ ((List.range e).map fun k => w (4 + 2 * e + k)) ++
    ((List.range e).map fun k => w (4 + 3 * e + k)) ++ ((List.range e).map fun k => w (4 + e + k)) ++
    ((List.range (e * e)).map fun k => w (4 + e * 4 + k))

/-- `vtk_hexahedron`, L402-440. -/
def vtkHexahedron (num : Nat) : Except Err (List Nat) :=
  if num = 20 then .ok ([0, 1, 3, 2, 4, 5, 7, 6] ++ [0, 3, 5, 1, 8, 10, 11, 9, 2, 4, 7, 6].map fun e => 8 + e)
  else do
    let degree ← cellDegree .hexahedron num
    let e := (degree - 1).toNat
    let base := 8 + 12 * e
    let nf := e * e
    return [0, 1, 3, 2, 4, 5, 7, 6] ++
      ([0, 3, 5, 1, 8, 10, 11, 9, 2, 4, 7, 6].flatMap fun k => (List.range e).map fun i => w (8 + e * k + i)) ++
      ([2, 3, 1, 4, 0, 5].flatMap fun f => (List.range nf).map fun i => w (base + nf * f + i)) ++
      ((List.range (nf * e)).map fun i => w (base + 6 * nf + i))

/-- `transpose`, L687-694; `none` if an entry is outside of the array. -/
def transpose (map : List Nat) : Except Err (List Nat) :=
  if map.all fun k => decide (k < map.length) then
    .ok (map.zipIdx.foldl (fun t p => t.set p.1 (w p.2)) (List.replicate map.length 0))
  else .error .range

/-- The tables before transposition, L537-567. -/
def vtkMap (t : CellType) (num : Nat) : Except Err (List Nat) :=
  match t with
  | .point => .ok [0]
  | .interval => .ok ((List.range num).map w)
  | .triangle => vtkTriangle num
  | .tetrahedron => vtkTetrahedron num
  | .quadrilateral => vtkQuadrilateral num
  | .hexahedron => vtkHexahedron num
  | .prism => vtkWedge num
  | .pyramid => vtkPyramid num

/-- `perm_vtk`, L533-570. -/
def permVtk (t : CellType) (num : Nat) : Except Err (List Nat) := do
  let map ← vtkMap t num
  transpose map

/-- `gmsh_triangle`, `gmsh_tetrahedron`, `gmsh_hexahedron`, `gmsh_quadrilateral`, `gmsh_prism` and `gmsh_pyramid`,
L443-530, and the cases of L575-605. -/
def gmshMap (t : CellType) (num : Nat) : Except Err (List Nat) :=
  match t with
  | .point => .ok [0]
  | .interval => .ok ((List.range num).map w)
  | .triangle =>
    if num = 3 then .ok [0, 1, 2] else if num = 6 then .ok [0, 1, 2, 5, 3, 4]
    else if num = 10 then .ok [0, 1, 2, 7, 8, 3, 4, 6, 5, 9] else .error .layout
  | .tetrahedron =>
    if num = 4 then .ok [0, 1, 2, 3] else if num = 10 then .ok [0, 1, 2, 3, 9, 6, 8, 7, 4, 5]
    else if num = 20 then .ok [0, 1, 2, 3, 14, 15, 8, 9, 13, 12, 11, 10, 5, 4, 7, 6, 19, 18, 17, 16]
    else .error .layout
  | .hexahedron =>
    if num = 8 then .ok [0, 1, 3, 2, 4, 5, 7, 6]
    else if num = 27 then .ok [0, 1, 3, 2, 4, 5, 7, 6, 8, 9, 10, 11, 12, 13, 15, 14, 16, 17, 18, 19, 20, 21, 22, 23,
      24, 25, 26]
    else .error .layout
  | .quadrilateral =>
    if num = 4 then .ok [0, 1, 3, 2] else if num = 9 then .ok [0, 1, 3, 2, 4, 6, 7, 5, 8]
    else if num = 16 then .ok [0, 1, 3, 2, 4, 5, 8, 9, 11, 10, 7, 6, 12, 13, 15, 14] else .error .layout
  | .prism =>
    if num = 6 then .ok [0, 1, 2, 3, 4, 5]
    else if num = 15 then .ok [0, 1, 2, 3, 4, 5, 6, 7, 8, 9, 10, 11, 12, 13, 14]
    else if num = 18 then .ok [0, 1, 2, 3, 4, 5, 6, 7, 8, 9, 10, 11, 12, 13, 14, 15, 16, 17] else .error .layout
  | .pyramid =>
    if num = 5 then .ok [0, 1, 3, 2, 4] else if num = 13 then .ok [0, 1, 3, 2, 4, 5, 6, 7, 8, 9, 10, 12, 11]
    else if num = 14 then .ok [0, 1, 3, 2, 4, 5, 6, 7, 8, 9, 10, 12, 11, 13] else .error .layout

/-- `perm_gmsh`, L572-608. -/
def permGmsh (t : CellType) (num : Nat) : Except Err (List Nat) := do
  let map ← gmshMap t num
  transpose map

/-- `apply_permutation`, L696-715; a wrong size of the array of cells is an error, as is a row of another length
than the permutation (an assertion in the code). -/
def applyPermutation (cells : List Int) (rows cols : Nat) (p : List Nat) : Except Err (List Int) :=
  if cells.length ≠ rows * cols then .error .layout
  else if cols ≠ p.length then .error .range
  else
    ((List.range rows).flatMap fun c => (List.range cols).map fun i => ((cells.drop (c * cols)).take cols)[p.getD i 0]?).mapM
      fun (o : Option Int) => match o with
        | some x => .ok x
        | none => .error .range

/-- `extract_vtk_connectivity`, vtk_utils.cpp L21-48 (the same loop writes meshes to VTKHDF files, VTKHDF.h L78-86, and
XDMF files, xdmf_mesh.cpp L72-90): the nodes of the cells in VTK's order. -/
def extractVtk (dofmap : List Int) (rows cols : Nat) (t : CellType) : Except Err (List Int) := do
  let p ← permVtk t cols
  let vtkmap ← transpose p
  ((List.range rows).flatMap fun c => (List.range cols).map fun i => (c, i)).mapM fun ci =>
    match vtkmap[ci.2]? with
    | none => .error .range
    | some k =>
      match dofmap[ci.1 * cols + k]? with
      | none => .error .range
      | some x => .ok x

/-- Cells read from a file in VTK's order, xdmf_mesh.cpp L328-331 (and XDMFFile.cpp L393-394, VTKHDF.h L446-455). -/
def readVtk (cells : List Int) (rows cols : Nat) (t : CellType) : Except Err (List Int) := do
  let p ← permVtk t cols
  applyPermutation cells rows cols p

/-- Cells read from Gmsh: python/dolfinx/io/gmsh.py, `cells[:, perm_gmsh(cell_type, num_nodes)]`. -/
def readGmsh (cells : List Int) (rows cols : Nat) (t : CellType) : Except Err (List Int) := do
  let p ← permGmsh t cols
  applyPermutation cells rows cols p

end Verif.CellPerm
