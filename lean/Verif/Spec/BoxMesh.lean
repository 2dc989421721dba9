import Verif.Spec.MixedMesh
/-!
Specification: a mesh of a box (or rectangle, or interval), by the coordinates of the vertices and the vertices of the cells.
-/
namespace Verif.Spec.Box
open Verif.Spec.RefCell Verif.Spec.Mixed
open Verif.Connectivity (CellType)

variable {K : Type} [Field K] [LinearOrder K]

/-- The map from the reference cell to the cell with vertices `V`. -/
def mapCell (t : CellType) (X : List (K × K × K)) (V : List Nat) (y : K × K × K) : K × K × K :=
  (mapTo t (fun i => (X.getD (V.getD i 0) 0).1) y, mapTo t (fun i => (X.getD (V.getD i 0) 0).2.1) y,
    mapTo t (fun i => (X.getD (V.getD i 0) 0).2.2) y)

/-- The box with corners `lo` and `hi`. -/
def InBox (lo hi q : K × K × K) : Prop :=
  (lo.1 ≤ q.1 ∧ q.1 ≤ hi.1) ∧ (lo.2.1 ≤ q.2.1 ∧ q.2.1 ≤ hi.2.1) ∧ lo.2.2 ≤ q.2.2 ∧ q.2.2 ≤ hi.2.2

/-- Coordinate `a`. -/
def axis {A : Type} : Nat → A × A × A → A
  | 0, q => q.1
  | 1, q => q.2.1
  | _, q => q.2.2

/-- The vertices `s` lie in one side of the box. -/
def OnBoundary (t : CellType) (lo hi : K × K × K) (X : List (K × K × K)) (s : Finset Nat) : Prop :=
  ∃ a < dim t, (∀ v ∈ s, axis a (X.getD v 0) = axis a lo) ∨ (∀ v ∈ s, axis a (X.getD v 0) = axis a hi)

/-- The cells with vertices `cells` are a conforming mesh of the box: they lie in it, cover it, have no common inner points, and are not
degenerate; facets in the sides of the box belong to one cell, other facets to two; all vertices are different and used. -/
structure IsMesh (t : CellType) (lo hi : K × K × K) (X : List (K × K × K)) (cells : List (List Nat)) : Prop where
  verts : ∀ V ∈ cells, V.length = nverts t ∧ V.Nodup ∧ ∀ v ∈ V, v < X.length
  inside : ∀ V ∈ cells, ∀ y, Inside t y → InBox lo hi (mapCell t X V y)
  cover : ∀ q, InBox lo hi q → ∃ V ∈ cells, ∃ y, Inside t y ∧ mapCell t X V y = q
  apart : cells.Pairwise fun V V' => ∀ y y', mapCell t X V y = mapCell t X V' y' → ¬ (Inner t y ∧ Inside t y') ∧ ¬ (Inside t y ∧ Inner t y')
  proper : ∀ V ∈ cells, ∀ y y', Inside t y → Inside t y' → mapCell t X V y = mapCell t X V y' → y = y'
  boundary : ∀ s ∈ cells.flatMap (fun V => facetSets (t, V)), OnBoundary t lo hi X s → (cells.flatMap fun V => facetSets (t, V)).count s = 1
  between : ∀ s ∈ cells.flatMap (fun V => facetSets (t, V)), ¬ OnBoundary t lo hi X s → (cells.flatMap fun V => facetSets (t, V)).count s = 2
  distinct : X.Nodup
  used : ∀ v < X.length, ∃ V ∈ cells, v ∈ V

end Verif.Spec.Box
