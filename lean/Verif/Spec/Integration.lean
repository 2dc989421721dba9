import Verif.Model.World
import Verif.Spec.GlobalIndex
import Mathlib.Data.List.Forall2
/-!
Specification: a mesh on several processes, with entities of one dimension, by global numbers; and which entities an integral has to visit.
-/
namespace Verif.Spec.Integration
open Verif.World Verif.Spec

/-- Index maps of cells and entities, the entities of each global cell, and what the processes store: cell-to-entity and entity-to-cell
connectivity and the interprocess entities. -/
structure Mesh where
  C : World
  E : World
  G : Nat → List Nat
  c2e : Nat → List (List Nat)
  e2c : Nat → List (List Nat)
  inter : Nat → List Nat

/-- The (global) cells at a (global) entity. -/
def cellsAt (m : Mesh) (f : Nat) : List Nat := (List.range (m.C.r0 m.C.P)).filter fun g => decide (f ∈ m.G g)

/-- The stored data describe the mesh (C38, C39). -/
structure Ok (m : Mesh) : Prop where
  cells : m.C.Valid
  ents : m.E.Valid
  ranks : m.E.P = m.C.P
  nodup : ∀ g < m.C.r0 m.C.P, (m.G g).Nodup
  lenC : ∀ r < m.C.P, (m.c2e r).length = m.C.size r + (m.C.ghosts r).length
  lenE : ∀ r < m.C.P, (m.e2c r).length = m.E.size r + (m.E.ghosts r).length
  c2e : ∀ r < m.C.P, ∀ (c g : Nat) (row : List Nat), globalOf m.C r c = some g → (m.c2e r)[c]? = some row → row.map (globalOf m.E r) = (m.G g).map some
  e2c : ∀ r < m.C.P, ∀ (e : Nat) (cs : List Nat), (m.e2c r)[e]? = some cs → cs.Nodup ∧ ∀ c : Nat, c ∈ cs ↔ ∃ row : List Nat, (m.c2e r)[c]? = some row ∧ e ∈ row
  /-- The owner of an entity owns a cell at it. -/
  own : ∀ r < m.C.P, ∀ e < m.E.size r, ∃ c < m.C.size r, ∃ row : List Nat, (m.c2e r)[c]? = some row ∧ e ∈ row
  sorted : ∀ r < m.C.P, (m.inter r).Pairwise (· < ·)
  /-- Interprocess entities belong to owned cells of two processes. -/
  inter : ∀ r < m.C.P, ∀ (e f : Nat), globalOf m.E r e = some f → (e ∈ m.inter r ↔
    (∃ g ∈ cellsAt m f, m.C.r0 r ≤ g ∧ g < m.C.r0 r + m.C.size r) ∧ ∃ q < m.C.P, q ≠ r ∧ ∃ g ∈ cellsAt m f, m.C.r0 q ≤ g ∧ g < m.C.r0 q + m.C.size q)

/-- `row` is a cell at entity `f` and the local index of `f`, on process `r`. -/
def OneSided (m : Mesh) (r f : Nat) (row : List Nat) : Prop :=
  ∃ c l g, row = [c, l] ∧ globalOf m.C r c = some g ∧ (m.G g)[l]? = some f

/-- `row` holds both cells at facet `f` and the local indices of `f`. -/
def TwoSided (m : Mesh) (r f : Nat) (row : List Nat) : Prop :=
  ∃ c l c' l' g g', row = [c, l, c', l'] ∧ globalOf m.C r c = some g ∧ globalOf m.C r c' = some g' ∧ g ≠ g' ∧
    (m.G g)[l]? = some f ∧ (m.G g')[l']? = some f

/-- The rows of all processes visit exactly the entities with `S`, each once, on the process that owns it. -/
def Visits (m : Mesh) (S : Nat → Prop) [DecidablePred S] (Row : Nat → Nat → List Nat → Prop) (rows : Nat → List (List Nat)) : Prop :=
  ∃ fs : Nat → List Nat, (List.range m.C.P).flatMap fs = (List.range (m.E.r0 m.C.P)).filter (fun f => decide (S f)) ∧
    ∀ r < m.C.P, (∀ f ∈ fs r, m.E.r0 r ≤ f ∧ f < m.E.r0 r + m.E.size r) ∧ List.Forall₂ (Row r) (fs r) (rows r)

/-- The lists `found` hold the entities with `S` (in increasing order), as `MeshTags.find` gives them. -/
def Tagged (m : Mesh) (found : Nat → List Nat) (S : Nat → Prop) : Prop :=
  ∀ r < m.C.P, (found r).Pairwise (· < ·) ∧ ∀ e < m.E.size r, (e ∈ found r ↔ S (m.E.r0 r + e))

end Verif.Spec.Integration
