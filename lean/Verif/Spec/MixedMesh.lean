import Verif.Spec.ReferenceCell
import Mathlib.Data.Finset.Lattice.Basic
import Mathlib.Data.Finset.Union
/-! Specification: meshes of cells of several types, given by their vertices. -/
namespace Verif.Spec.Mixed
open Verif.Spec.RefCell
open Verif.Connectivity (CellType)

/-- Type and vertices of a cell. -/
abbrev Cell := CellType × List Nat

/-- The vertices of a cell with local numbers `l`. -/
def part (V : List Nat) (l : List Nat) : Finset Nat := l.toFinset.image fun i => V.getD i 0

/-- All vertices. -/
def vertSet (C : Cell) : Finset Nat := C.2.toFinset

/-- Vertex sets of the facets. -/
def facetSets (C : Cell) : List (Finset Nat) := (facets C.1).map (part C.2)

/-- Vertex sets of the edges. -/
def edgeSets (C : Cell) : Finset (Finset Nat) := ((edges C.1).map (part C.2)).toFinset

/-- The cells form a mesh: vertices of a cell are different, no cell has all vertices of another one, and cells at the same facet agree
about its edges. -/
structure MeshCells (Cs : List Cell) : Prop where
  verts : ∀ C ∈ Cs, C.2.length = nverts C.1 ∧ C.2.Nodup
  apart : Cs.Pairwise fun C C' => ¬ vertSet C ⊆ vertSet C' ∧ ¬ vertSet C' ⊆ vertSet C
  agree : ∀ C ∈ Cs, ∀ C' ∈ Cs, ∀ F ∈ facetSets C, F ∈ facetSets C' → (edgeSets C).filter (· ⊆ F) = (edgeSets C').filter (· ⊆ F)

end Verif.Spec.Mixed
