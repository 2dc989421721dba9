import Verif.Model.RefineSimplex
import Verif.Spec.Conforming
import Verif.Spec.Subdivision
/-!
# Subdivision of the cells of a mesh

The loop over the cells in `compute_refinement`, `cpp/dolfinx/refinement/plaza.h` L341-439.  Here a cell is given by its
vertices `v 0, v 1, ...`, an edge or face by the set of its vertices, and a rule gives marks and longest edges; new points
are named by the set of vertices that they are the middle of.  `Model/Refinement.lean` has the same loop on index arrays.
-/
namespace Verif.Refine
open Verif.Spec.Conform Verif.Spec.Subdiv

/-- New cells, also for a cell without marked edges, plaza.h L367-408. -/
def triCells (m : List Bool) (le : Nat) (u : Bool) : List (List Nat) :=
  if m.any id then getTriangles m le u else [[0, 1, 2]]

variable {V : Type} [DecidableEq V]

/-- Point `i` of the cell with vertices `v`. -/
def tetPt (v : Nat → V) (i : Nat) : Finset V := (tetEnds i).toFinset.image v

/-- Edge `e` of the cell. -/
def tetEdgeSet (v : Nat → V) (e : Nat) : Finset V := tetPt v (4 + e)

/-- Vertices of the cell. -/
def tetVerts (v : Nat → V) : Finset V := (List.range 4).toFinset.image v

/-- Facet `f` of the cell. -/
def tetFacet (v : Nat → V) (f : Nat) : Finset V := ((List.range 4).toFinset.erase f).image v

/-- Flags of the edges, plaza.h L354-365. -/
def tetMarks (R : Rule V) (v : Nat → V) : List Bool := (List.range 6).map fun e => R.mark (tetEdgeSet v e)

/-- Local numbers of the longest edges of the facets, plaza.h L388-403. -/
def tetLong (R : Rule V) (v : Nat → V) : List Nat :=
  (List.range 4).map fun f => ((List.range 6).find? fun e => decide (tetEdgeSet v e = R.long (tetFacet v f))).getD 0

/-- New cells, plaza.h L406-437; for a cell without marks (L367-371) `getTetrahedra` gives the cell itself, see
`C52_unmarked`. -/
def tetKids (R : Rule V) (v : Nat → V) : List (Finset (Finset V)) :=
  (getTetrahedra (tetMarks R v) (tetLong R v)).map fun t => t.toFinset.image (tetPt v)

/-- The vertices are different. -/
def Inj4 (v : Nat → V) : Prop := ∀ i < 4, ∀ j < 4, v i = v j → i = j

/-- Point `i` of the cell with vertices `v`. -/
def triPt (v : Nat → V) (i : Nat) : Finset V := (triEnds i).toFinset.image v

/-- Vertices of the cell. -/
def triVerts (v : Nat → V) : Finset V := (List.range 3).toFinset.image v

/-- Edge `f` of the cell. -/
def triFacet (v : Nat → V) (f : Nat) : Finset V := triPt v (3 + f)

/-- Flags of the edges, plaza.h L354-365. -/
def triMarks (R : Rule V) (v : Nat → V) : List Bool := (List.range 3).map fun e => R.mark (triFacet v e)

/-- Local number of the longest edge, plaza.h L388-403. -/
def triLong (R : Rule V) (v : Nat → V) : Nat :=
  ((List.range 3).find? fun e => decide (triFacet v e = R.long (triVerts v))).getD 0

/-- New cells; `u` is the flag for uniform cuts, plaza.h L405-437. -/
def triKids (R : Rule V) (u : (Nat → V) → Bool) (v : Nat → V) : List (Finset (Finset V)) :=
  (triCells (triMarks R v) (triLong R v) (u v)).map fun t => t.toFinset.image (triPt v)

/-- The vertices are different. -/
def Inj3 (v : Nat → V) : Prop := ∀ i < 3, ∀ j < 3, v i = v j → i = j

/-- The longest edge is an edge of the cell. -/
def TriLong (R : Rule V) (v : Nat → V) : Prop := R.long (triVerts v) ⊆ triVerts v ∧ (R.long (triVerts v)).card = 2

end Verif.Refine
