import Verif.Model.LocateEntities
import Verif.Spec.Integration
/-! Specification: a mesh on several processes with the points of its vertices, by global numbers. -/
namespace Verif.Spec.LocateEntities
open Verif.World Verif.Spec Verif.LocateEntities

/-- Cells and facets with their index maps; index maps of the vertices and of the entities of the dimension in question; what the
processes store; and the mesh by global numbers: vertices and entities of a facet, vertices of an entity, the point of a vertex. -/
structure Mesh (X : Type) where
  fac : Integration.Mesh
  V : World
  D : World
  types : Nat → List Cells
  x : Nat → List X
  e2v : Nat → List (List Nat)
  f2v : Nat → List (List Nat)
  f2e : Nat → List (List Nat)
  v2c : Nat → List (List Nat)
  vertsOf : Nat → List Nat
  facetVerts : Nat → List Nat
  facetEnts : Nat → List Nat
  point : Nat → X

/-- `rows` holds on process `r`, for each index of `w`, the row `G` of its global number, with the numbers of `u`. -/
def Rows (w u : World) (r : Nat) (rows : List (List Nat)) (G : Nat → List Nat) : Prop :=
  rows.length = w.size r + (w.ghosts r).length ∧
  ∀ (i g : Nat) (row : List Nat), globalOf w r i = some g → rows[i]? = some row → row.map (globalOf u r) = (G g).map some

/-- Vertices and points, with any cell types: each vertex of a process is in a cell, and the node at its place in any cell is the point of the
vertex. -/
structure PointsOk {X : Type} (m : Mesh X) : Prop where
  verts : m.V.Valid
  ents : m.D.Valid
  ranks : m.D.P = m.V.P
  e2v : ∀ r < m.V.P, Rows m.D m.V r (m.e2v r) m.vertsOf
  covered : ∀ r < m.V.P, ∀ v < m.V.size r + (m.V.ghosts r).length, ∃ t ∈ m.types r, ∃ row ∈ t.verts, v ∈ row
  points : ∀ r < m.V.P, ∀ t ∈ m.types r, ∀ (c : Nat) (row : List Nat) (i v : Nat), t.verts[c]? = some row → row[i]? = some v →
    ∃ (xs : List Nat) (node g : Nat), t.nodes[c]? = some xs ∧ xs[i]? = some node ∧ globalOf m.V r v = some g ∧ (m.x r)[node]? = some (m.point g)

/-- With facets, for one cell type (C38, C39 and C59 are about this data). -/
structure Ok {X : Type} (m : Mesh X) : Prop extends PointsOk m where
  facets : Integration.Ok m.fac
  franks : m.fac.C.P = m.V.P
  f2v : ∀ r < m.V.P, Rows m.fac.E m.V r (m.f2v r) m.facetVerts
  f2e : ∀ r < m.V.P, Rows m.fac.E m.D r (m.f2e r) m.facetEnts
  /-- the vertices of an entity of a facet are vertices of the facet -/
  closure : ∀ f, ∀ e ∈ m.facetEnts f, m.vertsOf e ⊆ m.facetVerts f
  v2c : ∀ r < m.V.P, (m.v2c r).length = m.V.size r + (m.V.ghosts r).length ∧ ∃ t, m.types r = [t] ∧
    ∀ (v : Nat) (cs : List Nat), (m.v2c r)[v]? = some cs → cs ≠ [] ∧ ∀ c ∈ cs, ∃ row : List Nat, t.verts[c]? = some row ∧ v ∈ row

/-- All vertices of the (global) entity are at points that the marker marks. -/
def Marked {X : Type} (m : Mesh X) (p : X → Bool) (g : Nat) : Prop := ∀ v ∈ m.vertsOf g, p (m.point v) = true

/-- The (global) facet belongs to one cell only. -/
def Exterior {X : Type} (m : Mesh X) (f : Nat) : Prop := (Integration.cellsAt m.fac f).length = 1

end Verif.Spec.LocateEntities
