import Verif.Model.LocatePairs
import Verif.Spec.GlobalIndex
import Mathlib.Algebra.BigOperators.Group.Finset.Basic
/-! Specification: dofs of two spaces that are at the same place of a cell, and points of dofs. -/
namespace Verif.Spec.LocPairs
open Verif.LocPairs (Input2 Space)
open Verif.World

/-- Dof `d` (unrolled) is at position `pos` of a cell with dof blocks `ds`. -/
def At (bs : Nat) (ds : List Nat) (pos d : Nat) : Prop := ∃ b, ds[pos / bs]? = some b ∧ d = bs * b + pos % bs

/-- Dofs `d0` and `d1` of the two spaces are at the same position of cell `c`. -/
def SamePlace (I : Input2) (c pos d0 d1 : Nat) : Prop := At I.bs0 (I.cellDofs0 c) pos d0 ∧ At I.bs1 (I.cellDofs1 c) pos d1

/-- They are on the closure of entity number `i` of cell `c`. -/
def OnCell (I : Input2) (c i d0 d1 : Nat) : Prop := ∃ index ∈ I.closure i, ∃ k < I.ebs, SamePlace I c (I.ebs * index + k) d0 d1

/-- They are on the closure of entity `e`: seen from some cell. -/
def OnEntity (I : Input2) (e d0 d1 : Nat) : Prop := ∃ c i, (I.c2e c)[i]? = some e ∧ OnCell I c i d0 d1

/-- Topology and dof maps fit together, as in C48. -/
structure Ok (I : Input2) (entities : List Nat) : Prop where
  attached : ∀ e ∈ entities, ∃ c l, I.e2c[e]? = some (c :: l) ∧ e ∈ I.c2e c
  lengths : ∀ (c i e : Nat), (I.c2e c)[i]? = some e → I.bs0 * (I.cellDofs0 c).length = I.bs1 * (I.cellDofs1 c).length
  size : ∀ (c i e : Nat), (I.c2e c)[i]? = some e → ∀ index ∈ I.closure i, I.ebs * index + I.ebs ≤ I.bs0 * (I.cellDofs0 c).length
  agree : ∀ (c i c' i' e d0 d1 : Nat), (I.c2e c)[i]? = some e → (I.c2e c')[i']? = some e → (OnCell I c i d0 d1 ↔ OnCell I c' i' d0 d1)
  match0 : ∀ c pos d0 d1 c' pos' d0' d1', SamePlace I c pos d0 d1 → SamePlace I c' pos' d0' d1' → (d0 = d0' ↔ d1 = d1')

/-- `G` is the global number of dof `d` (unrolled) of rank `q`, for an index map with blocks of `B`. -/
def GDof (w : World) (B q d G : Nat) : Prop := ∃ J, Verif.Spec.globalOf w q (d / B) = some J ∧ G = B * J + d % B

/-- The dofs of two spaces correspond over all ranks; `S q d0 d1`: dofs `d0` and `d1` of rank `q` are at the same place. -/
structure Match (w0 w1 : World) (B0 B1 : Nat) (S : Nat → Nat → Nat → Prop) : Prop where
  inMap : ∀ q < w0.P, ∀ d0 d1, S q d0 d1 → ∃ G0 G1, GDof w0 B0 q d0 G0 ∧ GDof w1 B1 q d1 G1
  unique : ∀ q < w0.P, ∀ q' < w0.P, ∀ d0 d1 d0' d1' G0 G1 G0' G1', S q d0 d1 → S q' d0' d1' → GDof w0 B0 q d0 G0 → GDof w1 B1 q d1 G1 → GDof w0 B0 q' d0' G0' →
    GDof w1 B1 q' d1' G1' → (G0 = G0' ↔ G1 = G1')
  present : ∀ p < w0.P, ∀ q < w0.P, ∀ d0 d1 G0 G1, S p d0 d1 → GDof w0 B0 p d0 G0 → GDof w1 B1 p d1 G1 → ((∃ e, GDof w0 B0 q e G0) ↔ ∃ e, GDof w1 B1 q e G1)

/-- Two lists have `d0` and `d1` at the same position. -/
def Paired (r : List Nat × List Nat) (d0 d1 : Nat) : Prop := ∃ i : Nat, r.1[i]? = some d0 ∧ r.2[i]? = some d1

/-- Rank `p` found the dofs with global numbers `G0` and `G1`. -/
def Found (w0 w1 : World) (B0 B1 : Nat) (loc : Nat → List Nat × List Nat) (p G0 G1 : Nat) : Prop :=
  ∃ d0 d1, Paired (loc p) d0 d1 ∧ GDof w0 B0 p d0 G0 ∧ GDof w1 B1 p d1 G1

variable {T : Type} [CommRing T]

/-- `y` is coordinate `k` of the point of local dof `j` on cell `c`. -/
def PointOn (V : Space T) (c j k : Nat) (y : T) : Prop :=
  ∃ (xdofs : List Nat) (X : Nat → T), V.xdofs[c]? = some xdofs ∧ (∀ (i n : Nat), xdofs[i]? = some n → V.xg[3 * n + k]? = some (X i)) ∧
    y = ∑ i ∈ Finset.range xdofs.length, V.phi j i * X i

/-- A space whose sizes fit: each cell has as many dofs as there are points and nodes in the geometry. -/
structure SpaceOk (V : Space T) : Prop where
  gdim : V.gdim ≤ 3
  cells : V.xdofs.length = V.cellDofs.length
  points : ∀ (c : Nat) (ds : List Nat), V.cellDofs[c]? = some ds → ds.length ≤ V.npts
  dofs : ∀ ds ∈ V.cellDofs, ∀ d ∈ ds, d < V.numDofs
  nodes : ∀ xs ∈ V.xdofs, ∀ n ∈ xs, 3 * n + 3 ≤ V.xg.length

/-- Dof `d` is at point `X` (coordinates beyond the dimension are zero), as all cells that have it agree. -/
def DofPoint (V : Space T) (d : Nat) (X : Nat → T) : Prop :=
  (∀ (c j : Nat) (ds : List Nat), V.cellDofs[c]? = some ds → ds[j]? = some d → ∀ k < V.gdim, PointOn V c j k (X k)) ∧ (∃ ds ∈ V.cellDofs, d ∈ ds) ∧ ∀ k, V.gdim ≤ k → X k = 0

end Verif.Spec.LocPairs
