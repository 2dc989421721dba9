import Verif.Model.DualGraph
/-! # Neighbouring cells of a distributed mesh

The mesh on a rank is a list of groups of cells, one for each cell type; a cell is a list of vertices, and a facet of a cell
type a list of local vertex numbers.  Only the type `CellList` of the input is taken from the model. -/
namespace Verif.Spec.Dual
open Verif.DualGraph (CellList)

/-- The cells of a rank, in order, with the facets of their type. -/
def allCells (ls : List CellList) : List (List Nat × List (List Nat)) := ls.flatMap fun cl => cl.cells.map fun v => (v, cl.facets)

/-- All facets of all cells of a rank: number of the cell, and vertices of the facet. -/
def facets (ls : List CellList) : List (Nat × List Nat) :=
  (allCells ls).zipIdx.flatMap fun p => p.1.2.map fun f => (p.2, f.map fun j => p.1.1.getD j 0)

/-- Cell `c` of rank `r` and cell `c'` of rank `r'` have a facet in common: a facet of one, and another of the other, have
the same vertices. -/
def Adjacent (types : Nat → List CellList) (r c r' c' : Nat) : Prop :=
  ∃ (i j : Nat) (vs vs' : List Nat), (facets (types r))[i]? = some (c, vs) ∧ (facets (types r'))[j]? = some (c', vs') ∧
    (r, i) ≠ (r', j) ∧ vs.Perm vs'

/-- On all ranks together, at most `m` facets of cells have the same vertices. -/
def AtMost (P : Nat) (types : Nat → List CellList) (m : Nat) : Prop :=
  ∀ vs : List Nat, (((List.range P).flatMap fun r => facets (types r)).countP fun x => decide (x.2.Perm vs)) ≤ m

/-- Number of cell `c` of rank `r` when the cells of all ranks are numbered in order. -/
def globalCell (types : Nat → List CellList) (r c : Nat) : Nat :=
  ((List.range r).map fun q => (allCells (types q)).length).sum + c

/-- Links of node `c` of an adjacency list with given data and offsets. -/
def links (g : List Nat × List Nat) (c : Nat) : List Nat := (g.1.drop (g.2.getD c 0)).take (g.2.getD (c + 1) 0 - g.2.getD c 0)

end Verif.Spec.Dual
