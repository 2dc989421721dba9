import Verif.Model.Vtkhdf
import Verif.Spec.CellNodes
import Verif.Spec.GlobalIndex
/-!
# What a VTKHDF file says, and what a mesh consists of
-/
namespace Verif.Spec
open Verif.Vtkhdf
open Verif.Connectivity (CellType)

/-- The file describes these cells, given by VTK type and nodes: the nodes of all cells stand one after another, and
offset `c` is the number of nodes of all cells before cell `c` (the definition of VTK's unstructured grids). -/
structure Describes (f : File α) (cs : List (Nat × List Int)) : Prop where
  types : f.types = cs.map Prod.fst
  connectivity : f.connectivity = (cs.map Prod.snd).flatten
  length : f.offsets.length = cs.length + 1
  offsets : ∀ c, c ≤ cs.length → f.offsets[c]? = some ((((cs.take c).map fun x => x.2.length).sum : Nat) : Int)

/-- Number of nodes of a Lagrange cell of degree `d`. -/
def lagrangeNodes (t : CellType) (d : Nat) : Nat :=
  match t with
  | .point => 1
  | .interval => d + 1
  | .triangle => (d + 1) * (d + 2) / 2
  | .tetrahedron => (d + 1) * (d + 2) * (d + 3) / 6
  | .quadrilateral => (d + 1) * (d + 1)
  | .hexahedron => (d + 1) * (d + 1) * (d + 1)
  | .prism => (d + 1) * ((d + 1) * (d + 2) / 2)
  | .pyramid => (d + 1) * (d + 2) * (2 * d + 3) / 6

/-- VTK types of Lagrange cells of type `t` and degree `d`, for those degrees that can be read: the linear cells, the
quadratic simplices and cubic lines of VTK, and VTK's Lagrange cells (prisms of degree one only). -/
inductive VtkNumber : Nat → CellType → Nat → Prop
  | point : VtkNumber 1 .point 1
  | line : VtkNumber 3 .interval 1
  | triangle : VtkNumber 5 .triangle 1
  | quad : VtkNumber 9 .quadrilateral 1
  | tetra : VtkNumber 10 .tetrahedron 1
  | hexahedron : VtkNumber 12 .hexahedron 1
  | wedge : VtkNumber 13 .prism 1
  | pyramid : VtkNumber 14 .pyramid 1
  | quadraticEdge : VtkNumber 21 .interval 2
  | quadraticTriangle : VtkNumber 22 .triangle 2
  | quadraticTetra : VtkNumber 24 .tetrahedron 2
  | cubicLine : VtkNumber 35 .interval 3
  | lagrangeCurve (d : Nat) (h : 1 ≤ d) : VtkNumber 68 .interval d
  | lagrangeTriangle (d : Nat) (h : 1 ≤ d) : VtkNumber 69 .triangle d
  | lagrangeQuadrilateral (d : Nat) (h : 1 ≤ d) : VtkNumber 70 .quadrilateral d
  | lagrangeTetrahedron (d : Nat) (h : 1 ≤ d) : VtkNumber 71 .tetrahedron d
  | lagrangeHexahedron (d : Nat) (h : 1 ≤ d) : VtkNumber 72 .hexahedron d
  | lagrangeWedge : VtkNumber 73 .prism 1

/-- VTK's number for cells of any degree with this shape; for pyramids the number of linear ones. -/
def vtkNumberOf : CellType → Nat
  | .point => 1
  | .interval => 68
  | .triangle => 69
  | .quadrilateral => 70
  | .tetrahedron => 71
  | .hexahedron => 72
  | .prism => 73
  | .pyramid => 14

/-- Shapes and degrees that can be written and read: prisms and pyramids must be linear. -/
def Supported : CellType → Nat → Prop
  | .point, d | .prism, d | .pyramid, d => d = 1
  | _, d => 1 ≤ d ∧ d ≤ 255

/-- The nodes of one cell, at their positions in the cell. -/
def PlacedAt (row : List Int) (pos : Int → Pt) (L : List Pt) : Prop := row.map pos = L

/-- The owned cells of a mesh, process by process and type by type, with global numbers of nodes. -/
def ownedCells (m : Mesh α) : List (Kind × List Int) :=
  (List.range m.geom.P).flatMap fun r => m.kinds.flatMap fun k => ((k.dofmap r).take (k.owned r)).map fun row =>
    (k, row.map fun v => ((globalOf m.geom r v).getD 0 : Nat))

/-- Number of entries of the connectivity of a mesh. -/
def entries (m : Mesh α) : Nat := (m.kinds.map fun k => k.nodes * ((List.range m.geom.P).map k.owned).sum).sum

/-- What is required of a mesh: all nodes have global numbers and coordinates, cells have the number of nodes of their
type, and the nodes of the types have an order in VTK. -/
structure MeshValid (m : Mesh α) : Prop where
  coords : ∀ r < m.geom.P, m.geom.size r ≤ (m.x r).length
  owned : ∀ r < m.geom.P, ∀ k ∈ m.kinds, k.owned r ≤ (k.dofmap r).length
  width : ∀ r < m.geom.P, ∀ k ∈ m.kinds, ∀ row ∈ k.dofmap r, row.length = k.nodes
  nodes : ∀ r < m.geom.P, ∀ k ∈ m.kinds, ∀ row ∈ k.dofmap r, ∀ v ∈ row, ∃ g, globalOf m.geom r v = some g
  order : ∀ k ∈ m.kinds, (∃ P V, VtkOrder k.type k.nodes P V) ∧ k.nodes ≤ 65536

/-- Only the last type of cells may have ghost cells. -/
def GhostsLast (m : Mesh α) : Prop :=
  ∀ r < m.geom.P, ∀ i, i + 1 < m.kinds.length → ∀ k, m.kinds[i]? = some k → (k.dofmap r).length = k.owned r

end Verif.Spec
