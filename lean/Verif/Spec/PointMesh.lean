import Verif.Model.PointMesh
/-! Specification of meshes of points. -/
namespace Verif.Spec.PointMesh
open Verif.PointMesh

variable {T : Type}

/-- Point `i` as given: coordinate `j` in memory, zero from the dimension of the points on. -/
def given [Zero T] (x : NdArray T) (i j : Nat) : T := if j < x.cols then x.mem (x.base + i * x.stride0 + j * x.stride1) else 0

/-- The mesh consists of exactly the given points: cell `i` is point `i`, at its place. -/
structure IsPoints [Zero T] (x : NdArray T) (m : Points T) : Prop where
  dim : m.dim = x.cols
  num : m.cells.length = x.rows
  numx : m.x.length = 3 * x.rows
  numo : m.original.length = x.rows
  cell : ∀ (i : Nat), i < x.rows → m.cells[i]? = some i
  place : ∀ (i j : Nat), i < x.rows → j < 3 → m.x[3 * i + j]? = some (given x i j)

/-- Points on all processes. -/
def total (xs : List (NdArray T)) : Nat := (xs.map (·.rows)).sum

end Verif.Spec.PointMesh
