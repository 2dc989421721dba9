import Verif.Model.Gmsh
/-! Specification: a Gmsh mesh is a list of elements; physical groups are sets of geometric entities. -/
namespace Verif.Spec.Gmsh
open Verif.Gmsh

/-- A Gmsh element. -/
structure El where
  dim : Nat
  ent : Nat
  ty : Nat
  tag : Nat
  nodes : List Nat
  deriving DecidableEq

variable {X : Type}

/-- The API describes the elements `els`: `getElements` returns, for each type that occurs, the elements of that type. -/
structure Api (m : Gmsh X) (els : List El) : Prop where
  tags : (els.map El.tag).Nodup
  groups : m.groups.Nodup
  entities : ∀ d t, (d, t) ∈ m.groups → (m.entities d t).Nodup
  type : ∀ x ∈ els, m.dim x.ty = x.dim ∧ x.nodes.length = m.numNodes x.ty ∧ 0 < m.numNodes x.ty ∧ ∀ n ∈ x.nodes, 1 ≤ n
  elements : ∀ d e, ∃ bs : List (Nat × List El), m.elements d e = bs.map (fun b => (b.1, b.2.map El.tag, b.2.flatMap El.nodes)) ∧
    (∀ b ∈ bs, b.2 ≠ [] ∧ ∀ x ∈ b.2, x.ty = b.1) ∧ (bs.flatMap Prod.snd).Perm (els.filter fun x => decide (x.dim = d ∧ x.ent = e))
  all : ∀ d, ∃ bs : List (Nat × List El), m.allElements d = bs.map (fun b => (b.1, b.2.map El.tag)) ∧ (bs.map Prod.fst).Nodup ∧
    (∀ b ∈ bs, b.2 ≠ [] ∧ ∀ x ∈ b.2, x.ty = b.1) ∧ (bs.flatMap Prod.snd).Perm (els.filter fun x => decide (x.dim = d))

/-- The element belongs to the physical group with tag `t` (of its dimension). -/
def InGroup (m : Gmsh X) (x : El) (t : Nat) : Prop := (x.dim, t) ∈ m.groups ∧ x.ent ∈ m.entities x.dim t

/-- `L` lists the elements of type `ty` with the groups that they belong to, each pair once. -/
structure Marks (m : Gmsh X) (els : List El) (ty : Nat) (L : List (El × Nat)) : Prop where
  nodup : L.Nodup
  mem : ∀ x t, (x, t) ∈ L ↔ x ∈ els ∧ x.ty = ty ∧ InGroup m x t

/-- The element types of Gmsh that DOLFINx knows, with shape and number of nodes (Gmsh reference manual, MSH file format). -/
def mshTypes : List (Nat × Connectivity.CellType × Nat) :=
  [(1, .interval, 2), (2, .triangle, 3), (3, .quadrilateral, 4), (4, .tetrahedron, 4), (5, .hexahedron, 8), (6, .prism, 6),
   (7, .pyramid, 5), (8, .interval, 3), (9, .triangle, 6), (10, .quadrilateral, 9), (11, .tetrahedron, 10), (12, .hexahedron, 27),
   (13, .prism, 18), (14, .pyramid, 14), (15, .point, 1), (21, .triangle, 10), (26, .interval, 4), (29, .tetrahedron, 20),
   (36, .quadrilateral, 16), (92, .hexahedron, 64)]

/-- Some element of type `ty` and dimension `d` belongs to a physical group. -/
def Marked (m : Gmsh X) (els : List El) (d ty : Nat) : Prop := ∃ x ∈ els, ∃ t, x.dim = d ∧ x.ty = ty ∧ InGroup m x t

/-- Node numbers from zero. -/
def El.row (x : El) : List Nat := x.nodes.map (· - 1)

end Verif.Spec.Gmsh
