import Verif.Model.Submesh
import Verif.Spec.SubMap
/-! Specification: a mesh made of a subset of the entities of a mesh. -/
namespace Verif.Spec
open Verif.World Verif.Submesh

/-- `new` numbers, on every process, exactly the chosen indices of `old`, each once, and two indices on any
processes get the same number exactly when they had the same number. -/
structure IsSubMap (old new : World) (to : Nat → List Nat) (chosen : Nat → Nat → Prop) : Prop where
  ranks : new.P = old.P
  valid : new.Valid
  size : ∀ r, r < old.P → (to r).length = new.size r + (new.ghosts r).length
  nodup : ∀ r, r < old.P → (to r).Nodup
  mem : ∀ r, r < old.P → ∀ i, i ∈ to r ↔ chosen r i
  same : ∀ r r' k k' i i', r < old.P → r' < old.P → (to r)[k]? = some i → (to r')[k']? = some i' →
    (globalOf new r k = globalOf new r' k' ↔ globalOf old r i = globalOf old r' i')

/-- `l` lists the geometry nodes of the closure of entity `e`, as seen from a cell; for cells in the order of
the cell. -/
def NodesOf (g : Geo) (tdim dim e : Nat) (l : List Nat) : Prop :=
  if dim = tdim then l.map some = (g.closure tdim 0).map fun d => (g.xdofs e)[d]?
  else ∃ c ∈ g.e2c e, ∃ le, (g.c2e c)[le]? = some e ∧
    (l.map some).Perm ((g.closure dim le).map fun d => (g.xdofs c)[d]?)

/-- The mesh `s` consists of the entities `ind` of `m`. -/
structure IsSubmesh {X : Type} (m : Mesh X) (dim : Nat) (ind : Nat → List Nat) (s : SubData X) : Prop where
  ents : IsSubMap m.ents s.ents s.toEnt fun r e => e ∈ ind r
  owners : ∀ r, r < m.ents.P → ∀ k e, (s.toEnt r)[k]? = some e → (k < s.ents.size r ↔ e < m.ents.size r)
  verts : IsSubMap m.verts s.verts s.toVert fun r v => ∃ e ∈ ind r, v ∈ m.e2v r e
  nodes : IsSubMap m.nodes s.nodes s.toNode fun r i => ∃ e ∈ ind r, ∃ l, NodesOf (m.geo r) m.tdim dim e l ∧ i ∈ l
  numCells : ∀ r, r < m.ents.P → (s.cells r).length = (s.toEnt r).length ∧ (s.xdofs r).length = (s.toEnt r).length
  cellVerts : ∀ r, r < m.ents.P → ∀ (k e : Nat), (s.toEnt r)[k]? = some e →
    ∃ row, (s.cells r)[k]? = some row ∧ (row.map fun i => (s.toVert r)[i]?) = (m.e2v r e).map some
  cellNodes : ∀ r, r < m.ents.P → ∀ (k e : Nat), (s.toEnt r)[k]? = some e →
    ∃ row l, (s.xdofs r)[k]? = some row ∧ NodesOf (m.geo r) m.tdim dim e l ∧ (row.map fun i => (s.toNode r)[i]?) = l.map some
  numNodes : ∀ r, r < m.ents.P → (s.x r).length = (s.toNode r).length ∧ (s.igi r).length = (s.toNode r).length
  coords : ∀ r, r < m.ents.P → ∀ (k i : Nat), (s.toNode r)[k]? = some i → (s.x r)[k]? = (m.x r)[i]? ∧ (s.igi r)[k]? = (m.igi r)[i]?

/-- Two processes holding the same index of `w` see the same global indices of `u` in its row. -/
def RowsAgree (w u : World) (row : Nat → Nat → List Nat) : Prop :=
  ∀ r r' e e' g, r < w.P → r' < w.P → globalOf w r e = some g → globalOf w r' e' = some g →
    (row r e).map (globalOf u r) = (row r' e').map (globalOf u r')

end Verif.Spec
