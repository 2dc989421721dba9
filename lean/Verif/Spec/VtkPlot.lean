import Verif.Spec.EntityGeom
import Verif.Spec.CellNodes
/-! Specification: cells for plotting in VTK's format. -/
namespace Verif.Spec.VtkPlot
open Verif.Connectivity (CellType)

/-- `row` has the nodes `l` of an entity, whose places in DOLFINx' order are `P`, at the same places in VTK's order `V`: the number at a
position of `row` is the node of the entity at this place. -/
def SamePlaces (P V : List Pt) (l row : List Nat) : Prop :=
  row.length = V.length ∧ ∀ (j v : Nat) (pt : Pt), row[j]? = some v → V[j]? = some pt → ∃ i : Nat, P[i]? = some pt ∧ l[i]? = some v

/-- A flat array of VTK cells: for each row the number of nodes and then the nodes. -/
inductive Cells : List (List Nat) → List Nat → Prop
  | nil : Cells [] []
  | cons (r : List Nat) (rs : List (List Nat)) (rest : List Nat) : Cells rs rest → Cells (r :: rs) (r.length :: (r ++ rest))

/-- VTK's cell types (vtkCellType.h): shape and number of nodes. -/
inductive VtkCell : Nat → CellType → Nat → Prop
  | vertex : VtkCell 1 .point 1
  | line : VtkCell 3 .interval 2
  | triangle : VtkCell 5 .triangle 3
  | quad : VtkCell 9 .quadrilateral 4
  | tetra : VtkCell 10 .tetrahedron 4
  | hexahedron : VtkCell 12 .hexahedron 8
  | wedge : VtkCell 13 .prism 6
  | pyramid : VtkCell 14 .pyramid 5
  | lagrangeCurve (d : Nat) (h : 1 ≤ d) : VtkCell 68 .interval (d + 1)
  | lagrangeTriangle (d : Nat) (h : 1 ≤ d) : VtkCell 69 .triangle ((d + 1) * (d + 2) / 2)
  | lagrangeQuad (d : Nat) (h : 1 ≤ d) : VtkCell 70 .quadrilateral ((d + 1) * (d + 1))
  | lagrangeTetra (d : Nat) (h : 1 ≤ d) : VtkCell 71 .tetrahedron ((d + 1) * (d + 2) * (d + 3) / 6)
  | lagrangeHexahedron (d : Nat) (h : 1 ≤ d) : VtkCell 72 .hexahedron ((d + 1) * (d + 1) * (d + 1))
  | lagrangeWedge (d : Nat) (h : 1 ≤ d) : VtkCell 73 .prism ((d + 1) * (d + 1) * (d + 2) / 2)

end Verif.Spec.VtkPlot
