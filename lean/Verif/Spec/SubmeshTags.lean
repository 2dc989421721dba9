import Verif.Prelude
/-! Specification: entities of a mesh and of a sub-mesh. -/
namespace Verif.Spec

/-- The entity with vertices `ev` is a face of the cell with vertices `cv`; `tbl` lists the vertices of the faces of the
reference cell. -/
def IsFaceOf (tbl : List (List Nat)) (cv ev : List Nat) : Prop :=
  ∃ f ∈ tbl, (ev.map some).Perm (f.map fun j => cv[j]?)

/-- The entity of the sub-mesh with vertices `sv` is the entity of the mesh with vertices `ev`. -/
def SameVertices (vertMap ev sv : List Nat) : Prop := (sv.map fun v => vertMap[v]?).Perm (ev.map some)

end Verif.Spec
