import Mathlib.Data.List.Basic
import Mathlib.Data.Nat.Bitwise
/-!
# Entity permutations of a cell

Model of `mesh/permutationcomputation.cpp` L25-391 for one cell.  The threads of the C++ code work on
disjoint ranges of cells (see C01), and the data of a cell depends on that cell only.  Global vertex numbers
are unbounded integers except where the C++ code stores them in `int`.  Local vertex numbers are positions in
the vertex list of the cell.
-/
namespace Verif.Permutations

/-- Face types. -/
inductive Kind where
  | triangle
  | quadrilateral
deriving DecidableEq, Repr

/-- The loop of `std::ranges::min_element`: position `best` with value `x` so far, `i` the next position. -/
def minFrom (best : Nat) (x : Int) (i : Nat) : List Int → Nat
  | [] => best
  | y :: l => if y < x then minFrom i y (i + 1) l else minFrom best x (i + 1) l

/-- Position of the first minimum. -/
def minPos : List Int → Nat
  | [] => 0
  | x :: l => minFrom 0 x 1 l

/-- Conversion of a 64-bit integer to `int`. -/
def toInt32 (x : Int) : Int := (x + 2 ^ 31) % 2 ^ 32 - 2 ^ 31

/-- `compute_triangle_rot_reflect`, L25-61.  `g_pre` and `g_post` are declared `const int`. -/
def triangle (e v : List Int) : Bool × Nat :=
  let minV := minPos e
  let pre := e.getD ((minV + 2) % 3) 0
  let post := e.getD ((minV + 1) % 3) 0
  let gMin := minPos v
  let gPre := toInt32 (v.getD ((gMin + 2) % 3) 0)
  let gPost := toInt32 (v.getD ((gMin + 1) % 3) 0)
  let rots := if gPost > gPre then (gMin + 3 - minV) % 3 else (minV + 3 - gMin) % 3
  (decide (post > pre) == decide (gPost < gPre), rots)

/-- The table `prev`, L75. -/
def prev : List Nat := [2, 0, 3, 1]

/-- `compute_quad_rot_reflect`, L63-117. -/
def quad (e v : List Int) : Bool × Nat :=
  let minV := minPos e
  let pre := e.getD (prev.getD minV 0) 0
  let post := e.getD (prev.getD (3 - minV) 0) 0
  let minV := if minV = 2 ∨ minV = 3 then 5 - minV else minV
  let gMin := minPos v
  let gPre := v.getD (prev.getD gMin 0) 0
  let gPost := v.getD (prev.getD (3 - gMin) 0) 0
  let gMin := if gMin = 2 ∨ gMin = 3 then 5 - gMin else gMin
  let rots := if gPost > gPre then (gMin + 4 - minV) % 4 else (minV + 4 - gMin) % 4
  (decide (post > pre) == decide (gPost < gPre), rots)

/-- The function chosen for a face type, L205-207. -/
def rotReflect (k : Kind) (e v : List Int) : Bool × Nat :=
  if k = .triangle then triangle e v else quad e v

/-- Position of a vertex in the cell, L183-190. -/
def localPos (cv : List Int) (x : Int) : Int := (cv.idxOf x : Nat)

/-- The result for a face with stored vertices `v`, L171-194. -/
def faceResult (cv : List Int) (k : Kind) (v : List Int) : Bool × Nat :=
  rotReflect k (v.map (localPos cv)) v

/-- Bits of one face, L196-200. -/
def setFace (bits : List Bool) (fi : Nat) (r : Bool × Nat) : List Bool :=
  ((bits.set (3 * fi) r.1).set (3 * fi + 1) (decide (r.2 % 2 ≠ 0))).set (3 * fi + 2) (decide (r.2 / 2 ≠ 0))

/-- `face_type_indices[t]`, L145-151. -/
def faceTypeIndices (cellKinds : List Kind) (k : Kind) : List Nat :=
  (List.range cellKinds.length).filter fun j => decide (cellKinds[j]? = some k)

/-- The bits of all faces of a cell, L121-231.  `links k` are the vertices of the faces of type `k` of the
cell, in the order of `c_to_f`. -/
def facePerm (meshKinds cellKinds : List Kind) (cv : List Int) (links : Kind → List (List Int)) : List Bool :=
  meshKinds.foldl (fun bits k =>
    ((faceTypeIndices cellKinds k).zip (links k)).foldl
      (fun bits p => setFace bits p.1 (faceResult cv k p.2)) bits) (List.replicate 32 false)

/-- One edge, L271-284. -/
def edgeRefl (cv v : List Int) : Bool :=
  let it0 := cv.idxOf (v.getD 0 0)
  let it1 := cv.idxOf (v.getD 1 0)
  decide (it1 < it0) == decide (v.getD 1 0 > v.getD 0 0)

/-- The bits of all edges of a cell, L236-309. -/
def edgePerm (edgesPerCell : Nat) (cv : List Int) (edges : List (List Int)) : List Bool :=
  (List.range edgesPerCell).foldl (fun bits i => bits.set i (edgeRefl cv (edges.getD i [])))
    (List.replicate 32 false)

/-- `bitset::to_ulong`. -/
def toUlong : List Bool → Nat
  | [] => 0
  | b :: l => (if b then 1 else 0) + 2 * toUlong l

/-- The data of a cell that `compute_entity_permutations` reads. -/
structure Cell where
  tdim : Nat
  /-- global numbers of the vertices of the cell -/
  verts : List Int
  /-- types of the faces of the cell by local number -/
  kinds : List Kind
  /-- face types of the mesh -/
  meshKinds : List Kind
  /-- vertices of the faces of the cell, by type -/
  links : Kind → List (List Int)
  /-- vertices of the edges of the cell -/
  edges : List (List Int)
  edgesPerCell : Nat

/-- `cell_permutation_info` and `facet_permutations` of the cell, L333-390. -/
def permutations (c : Cell) : Nat × List Nat :=
  let faces := c.kinds.length
  let info := if c.tdim > 2 then toUlong (facePerm c.meshKinds c.kinds c.verts c.links) else 0
  let facets := if c.tdim > 2 then (List.range faces).map fun i => (info >>> (3 * i)) &&& 7 else []
  let used := if c.tdim > 2 then faces * 3 else 0
  if c.tdim > 1 then
    let eb := edgePerm c.edgesPerCell c.verts c.edges
    let info := info ||| (toUlong eb <<< used)
    let facets := if c.tdim = 2 then (List.range c.edgesPerCell).map fun i =>
      if eb.getD i false then 1 else 0 else facets
    (info, facets)
  else (info, facets)

end Verif.Permutations
