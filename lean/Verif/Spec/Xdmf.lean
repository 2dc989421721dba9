import Verif.Model.Xdmf
import Verif.Spec.CellNodes
import Verif.Spec.GlobalIndex
import Verif.Spec.EntityData
/-!
# What meshes and tags in XDMF files stand for
-/
namespace Verif.Spec.Xdmf
open Verif.Xdmf Verif.Spec
open Verif.Connectivity (CellType)

/-- Types and numbers of nodes of the cells that can be written and read, with their degrees. -/
def supported : List (CellType × Nat × Nat) :=
  [(.point, 1, 1), (.interval, 2, 1), (.interval, 3, 2), (.triangle, 3, 1), (.triangle, 6, 2), (.tetrahedron, 4, 1), (.tetrahedron, 10, 2),
    (.quadrilateral, 4, 1), (.quadrilateral, 9, 2), (.quadrilateral, 16, 3), (.hexahedron, 8, 1), (.hexahedron, 20, 2), (.hexahedron, 27, 2),
    (.prism, 6, 1)]

variable {α : Type}

/-- Global numbers of nodes. -/
def globalRow (m : Mesh α) (r : Nat) (row : List Nat) : List Int := row.map fun v => ((globalOf m.geom r v).getD 0 : Nat)

/-- The owned cells of all processes, given by global numbers of their nodes. -/
def cells (m : Mesh α) : List (List Int) :=
  (List.range m.geom.P).flatMap fun r => ((m.dofmap r).take (m.owned (cellDim m.type) r)).map (globalRow m r)

/-- The coordinates of the owned nodes of all processes, that is, in the order of global numbers. -/
def points (m : Mesh α) : List (List α) := (List.range m.geom.P).flatMap fun r => (m.x r).take (m.geom.size r)

/-- What is required of the geometry of a mesh: cells have as many nodes as the element has dofs, and all nodes have global numbers. -/
structure CellsOk (m : Mesh α) (n : Nat) : Prop where
  closure : m.closure (cellDim m.type) 0 = List.range n
  owned : ∀ r < m.geom.P, m.owned (cellDim m.type) r ≤ (m.dofmap r).length
  width : ∀ r < m.geom.P, ∀ row ∈ m.dofmap r, row.length = n
  nodes : ∀ r < m.geom.P, ∀ row ∈ m.dofmap r, ∀ v ∈ row, ∃ g, globalOf m.geom r v = some g

/-- Every node has three coordinates; those after the geometric dimension are zero. -/
structure PointsOk [Zero α] (m : Mesh α) : Prop where
  gdim : 1 ≤ m.gdim ∧ m.gdim ≤ 3
  coords : ∀ r < m.geom.P, m.geom.size r ≤ (m.x r).length
  three : ∀ r < m.geom.P, ∀ row ∈ m.x r, row.length = 3
  zero : ∀ r < m.geom.P, ∀ row ∈ m.x r, ∀ j < 3, m.gdim ≤ j → row[j]? = some 0

/-- The rows of a data set whose nodes are in VTK's order: if the nodes of a cell are at the places of the nodes of the element, then the nodes in
the file are at the places that VTK gives them. -/
def VtkRow (t : CellType) (row file : List Int) : Prop :=
  file.Perm row ∧ ∀ P V, VtkOrder t row.length P V → ∀ pos : Int → Pt, row.map pos = P → file.map pos = V

/-! ## Tags -/

/-- `ns` are the global numbers of the nodes at the vertices of entity `e` on process `r`, as one of the cells of `e` has them. -/
def VertexNodes (m : Mesh α) (vertexDofs : List Nat) (dim r e : Nat) (ns : List Int) : Prop :=
  ∃ (c j : Nat) (ents xs : List Nat), (m.c2e dim r)[c]? = some ents ∧ ents[j]? = some e ∧ (m.dofmap r)[c]? = some xs ∧
    ns = globalRow m r (((m.closure dim j).filter fun d => decide (d ∈ vertexDofs)).map fun d => xs.getD d 0)

/-- The owned entity `e` of process `r` has the tag `v`. -/
def OwnedTag (m : Mesh α) (dim : Nat) (t : Tags V) (r e : Nat) (v : V) : Prop :=
  r < m.geom.P ∧ e < m.owned dim r ∧ ∃ k : Nat, (t.indices r)[k]? = some e ∧ (t.values r)[k]? = some v

/-- The dofs of an entity start with those of its vertices. -/
def VerticesFirst (vertexDofs l : List Nat) (nv : Nat) : Prop :=
  (∀ d ∈ l.take nv, d ∈ vertexDofs) ∧ ∀ d ∈ l.drop nv, d ∉ vertexDofs

/-- What is required of the entities of a mesh: their dofs are dofs of the cell, as many for all entities, and start with those of the vertices; an
entity has a cell, and its cell has it; the vertex nodes of an entity do not depend on the cell, and different owned entities have different
vertex nodes. -/
structure EntitiesOk (m : Mesh α) (vertexDofs : List Nat) (dim n : Nat) : Prop where
  length : ∀ r < m.geom.P, ∀ row ∈ m.c2e dim r, ∀ j < row.length, (m.closure dim j).length = n
  first : (m.closure dim 0).length = n
  dofs : ∀ r < m.geom.P, ∀ row ∈ m.c2e dim r, ∀ j < row.length, ∀ xs ∈ m.dofmap r, ∀ d ∈ m.closure dim j, d < xs.length
  vertices : ∀ r < m.geom.P, ∀ row ∈ m.c2e dim r, ∀ j < row.length, VerticesFirst vertexDofs (m.closure dim j) (numVertices (entityType m.type dim))
  nodes : ∀ r < m.geom.P, ∀ row ∈ m.dofmap r, ∀ v ∈ row, ∃ g, globalOf m.geom r v = some g
  cell : ∀ r < m.geom.P, ∀ e < m.owned dim r, ∃ (c : Nat) (cs ents xs : List Nat), (m.e2c dim r)[e]? = some (c :: cs) ∧
    (m.c2e dim r)[c]? = some ents ∧ e ∈ ents ∧ (m.dofmap r)[c]? = some xs
  same : ∀ r < m.geom.P, ∀ e ns ns', VertexNodes m vertexDofs dim r e ns → VertexNodes m vertexDofs dim r e ns' → ns.Perm ns'
  distinct : ∀ r < m.geom.P, ∀ r' < m.geom.P, ∀ e < m.owned dim r, ∀ e' < m.owned dim r', ∀ ns ns',
    VertexNodes m vertexDofs dim r e ns → VertexNodes m vertexDofs dim r' e' ns' → ns.Perm ns' → r = r' ∧ e = e'

/-- Cells as entities of the highest dimension: every cell is its only entity, with all dofs. -/
def CellEntities (m : Mesh α) (dim n : Nat) : Prop :=
  dim = cellDim m.type → m.closure dim 0 = List.range n ∧ (∀ r < m.geom.P, ∀ row ∈ m.dofmap r, row.length = n) ∧
    ∀ r < m.geom.P, ∀ e < m.owned dim r, (m.c2e dim r)[e]? = some [e] ∧ (m.e2c dim r)[e]? = some [e]

/-- Tags: sorted indices, one value each. -/
structure TagsOk (m : Mesh α) (t : Tags V) : Prop where
  sorted : ∀ r < m.geom.P, (t.indices r).Pairwise (· < ·)
  length : ∀ r < m.geom.P, (t.indices r).length = (t.values r).length

end Verif.Spec.Xdmf
