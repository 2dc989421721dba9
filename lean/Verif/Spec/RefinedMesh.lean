import Verif.Spec.ParentFacet
import Verif.Spec.NewVertices
import Verif.Spec.MarkClosure
/-! Specification: the result of a refinement. -/
namespace Verif.Spec.SimplexMesh
open Verif.World Verif.Refine Verif.Spec Verif.Spec.Subdiv Verif.Spec.Vertices

variable {K : Type} [LinearOrder K] [Zero K]

/-- Vertices (global numbers) of owned cell `c` of rank `r` between which point `i` of the cell lies: one vertex, or the two ends
of an edge. -/
def point (d : Nat) (wv : World) (m : Nat → RankMesh K) (r c i : Nat) : Finset Nat :=
  (ptEnds d i).toFinset.image (gv wv r ((m r).c2v.getD c []))

/-- `s` is a vertex, or the ends of a marked edge. -/
def IsPoint (we wv : World) (ends : Nat → Finset Nat) (M : Nat → Prop) (s : Finset Nat) : Prop :=
  (∃ a < wv.r0 wv.P, s = {a}) ∨ (∃ g < we.r0 we.P, M g ∧ ends g = s)

/-- `out` is a refinement of the mesh `m` at the marked edges `M`.  `name s` is the new number of the point between the vertices
`s`; `T r c` are the new cells of cell `c` of rank `r`, by local point numbers. -/
structure IsRefinement (d : Nat) (we wv : World) (ends : Nat → Finset Nat) (m : Nat → RankMesh K) (M : Nat → Prop)
    (name : Finset Nat → Nat) (N : Nat) (T : Nat → Nat → List (List Nat)) (out : List Refined) : Prop where
  /-- Old vertices and middles of marked edges are numbered by `0, ..., N - 1`. -/
  numbering : Numbering (wv.r0 wv.P) (we.r0 we.P) M (fun a => name {a}) (fun g => name (ends g)) N
  len : out.length = we.P
  /-- The new cells of each rank, cell after cell. -/
  cells : ∀ r o, out[r]? = some o → o.cells = (List.range (m r).c2v.length).flatMap fun c =>
    (T r c).map fun t => t.map fun i => (name (point d wv m r c i) : Int)
  /-- New cells have vertices of the old one and middles of its marked edges. -/
  points : ∀ r < we.P, ∀ c < (m r).c2v.length, ∀ t ∈ T r c, t.length = d + 1 ∧ t.Nodup ∧
    ∀ i ∈ t, i < d + 1 ∨ ∃ g < we.r0 we.P, M g ∧ ends g = point d wv m r c i
  /-- They tile the old cell. -/
  tiles : ∀ r < we.P, ∀ c < (m r).c2v.length, ∀ (F : Type) [Field F] [LinearOrder F] [IsStrictOrderedRing F],
    Tiles F (ptEnds d) (List.range (d + 1)).toFinset ((T r c).map List.toFinset)
  /-- They fit together: a side of a new cell of any rank either lies on an old facet `F` and belongs to as many new cells as there
  are old cells at `F`; or it belongs to two new cells. -/
  fits : ∀ k ∈ out.flatMap (fun o => o.cells), ∀ x ∈ k.toFinset,
    (∃ F : Finset Nat, F.card = d ∧ (∀ y ∈ k.toFinset.erase x, ∃ s ⊆ F, IsPoint we wv ends M s ∧ y = ((name s : Nat) : Int)) ∧
      (out.flatMap fun o => o.cells).countP (fun k' => decide (k.toFinset.erase x ⊆ k'.toFinset)) =
        ((List.range we.P).flatMap fun r => cellSets wv (m r) r).countP fun s => decide (F ⊆ s)) ∨
    (out.flatMap fun o => o.cells).countP (fun k' => decide (k.toFinset.erase x ⊆ k'.toFinset)) = 2

end Verif.Spec.SimplexMesh
