import Mathlib.Data.Finset.Card
import Mathlib.Data.Finset.Image
import Mathlib.Data.Finset.Union
/-!
# Conforming refinement

Points of a refined mesh are sets of old vertices: `{a}` is the old vertex, `{a, b}` the middle of an edge.  A cell of the
refined mesh is the set of its points.
-/
namespace Verif.Spec.Conform

variable {V : Type} [DecidableEq V]

/-- Marked edges and the longest edge of each face; edges and faces are sets of vertices. -/
structure Rule (V : Type) where
  mark : Finset V → Bool
  long : Finset V → Finset V

/-- The edge `F` is kept, or cut in two halves. -/
def EdgePart (R : Rule V) (F : Finset V) (S : Finset (Finset V)) : Prop :=
  (R.mark F = false ∧ S = F.image fun v => {v}) ∨ (R.mark F = true ∧ ∃ x ∈ F, S = {F, {x}})

/-- Triangles that the face `F` is cut into: it is kept, or cut from the middle of the longest edge to the opposite vertex
`c`; a half is cut again, to the middle of its marked edge. -/
def FacePart (R : Rule V) (F : Finset V) (S : Finset (Finset V)) : Prop :=
  (R.mark (R.long F) = false ∧ S = F.image fun v => {v}) ∨
  (R.mark (R.long F) = true ∧ ∃ x ∈ R.long F, ∃ c ∈ F \ R.long F,
    (R.mark {x, c} = false ∧ S = {R.long F, {c}, {x}}) ∨
    (R.mark {x, c} = true ∧ (S = {R.long F, {c}, {x, c}} ∨ S = {R.long F, {x, c}, {x}})))

/-- If any edge of a face is marked, then its longest edge is. -/
def Closed (R : Rule V) (F : Finset V) : Prop := ∀ e ⊆ F, e.card = 2 → R.mark e = true → R.mark (R.long F) = true

/-- The longest edge of a face is the largest one in an order of all edges. -/
def Longest {K : Type} [LinearOrder K] (R : Rule V) (key : Finset V → K) (F : Finset V) : Prop :=
  R.long F ⊆ F ∧ (R.long F).card = 2 ∧ ∀ e ⊆ F, e.card = 2 → e ≠ R.long F → key e < key (R.long F)

/-- Vertices of the old mesh between which the points of `S` lie. -/
def carrier (S : Finset (Finset V)) : Finset V := S.biUnion id

end Verif.Spec.Conform
