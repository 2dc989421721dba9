import Verif.Prelude
/-!
# Model: meshes of points

`create_point_mesh` (`python/dolfinx/mesh.py` L1462-1499), the constructor of `Geometry` in `python/dolfinx/wrappers/dolfinx_wrappers/mesh.h`
L160-200 and the check in `cpp/dolfinx/mesh/Geometry.h` L82-84.

Simplifications: the coordinates are elements of a type with a zero; the index map is the start of its local range (see `Model/IndexMap`), the
sum of the numbers of points of the processes before; the element, the data types and the Python objects around the mesh are left out.
-/
namespace Verif.PointMesh

variable {T : Type}

/-- A two-dimensional NumPy array: memory, address of the first entry, shape and strides (also negative or zero). -/
structure NdArray (T : Type) where
  mem : Int → T
  base : Int
  rows : Nat
  cols : Nat
  stride0 : Int
  stride1 : Int

/-- `_x(i, j)`: `x.view()` of the array. -/
def entry (x : NdArray T) (i j : Nat) : T := x.mem (x.base + i * x.stride0 + j * x.stride1)

/-- A mesh of points on one process. -/
structure Points (T : Type) where
  start : Nat
  cells : List Nat
  original : List Nat
  x : List T
  dim : Nat

/-- The loops that pad points, `mesh.h` L183-189: `x_vec[3 * i + j] = _x(i, j)`. -/
def pad [Zero T] (x : NdArray T) : List T :=
  (List.range x.rows).foldl (fun v i => (List.range x.cols).foldl (fun v j => v.set (3 * i + j) (entry x i j)) v) (List.replicate (3 * x.rows) 0)

/-- The coordinates, `mesh.h` L170-189; `none` is an exception. -/
def coordinates [Zero T] (x : NdArray T) : Option (List T) :=
  if x.cols = 0 ∨ 3 < x.cols then none
  else if x.cols = 3 ∧ x.stride0 = 3 ∧ x.stride1 = 1 then
    some ((List.range (x.rows * x.cols)).map (fun k : Nat => x.mem (x.base + (k : Int))))
  else some (pad x)

/-- `create_point_mesh` (`mesh.py` L1473-1488) on process `r` when process `s` gives `xs[s]`. -/
def createPointMesh [Zero T] (xs : List (NdArray T)) (r : Nat) : Option (Points T) := do
  let x ← xs[r]?
  let cells := List.range x.rows
  let start := ((xs.take r).map (·.rows)).sum
  let original := (List.range cells.length).map (fun i => i + start)
  let c ← coordinates x
  if c.length / 3 ≠ original.length then none
  else some ⟨start, cells, original, c, x.cols⟩

end Verif.PointMesh
