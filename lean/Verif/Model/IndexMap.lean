import Verif.Model.StdAlg
import Verif.Model.Offsets
/-!
# `dolfinx::common::IndexMap` on one rank, and its construction over all ranks

Model of `cpp/dolfinx/common/IndexMap.cpp`.

Simplifications: global indices are natural numbers (queries may be any
integer); the communicator is the number of ranks `P`; `MPI_Iexscan` /
`MPI_Iallreduce` return the mathematical prefix sum / sum.
-/
namespace Verif.IndexMap
open Verif.Std

/-- The local state of an index map: `_local_range`, `_size_global`, `_ghosts`,
`_owners` (`IndexMap.h`, private members). -/
structure Map where
  /-- start of the owned global range -/
  r0 : Nat
  /-- end of the owned global range -/
  r1 : Nat
  /-- global number of indices -/
  sizeGlobal : Nat
  /-- global index of each ghost -/
  ghosts : List Nat
  /-- owning rank of each ghost -/
  owners : List Nat
deriving Repr, DecidableEq

/-- `size_local`, L949-952. -/
def Map.sizeLocal (m : Map) : Nat := m.r1 - m.r0

/-- Constructors L865-888 and L899-933: every rank contributes its `local_size`; the
offset is the exclusive scan and the global size the sum over all `P` ranks. -/
def build (P : Nat) (localSize : Nat → Nat) (ghosts owners : Nat → List Nat) (rank : Nat) : Map :=
  let offset := Offsets.excl localSize rank
  { r0 := offset, r1 := offset + localSize rank,
    sizeGlobal := ((List.range P).map localSize).sum,
    ghosts := ghosts rank, owners := owners rank }

/-- `local_to_global` for one index, L957-974.  `none` = the C++ assert fails (read
past the end of the ghost array). -/
def Map.localToGlobal (m : Map) (i : Nat) : Option Nat :=
  if i < m.sizeLocal then some (m.r0 + i) else m.ghosts[i - m.sizeLocal]?

/-- The sorted (ghost, local index) pairs built at the start of `global_to_local`
(L979-988); `std::sort` on pairs is lexicographic. -/
def Map.ghostPairs (m : Map) : List (Nat × Nat) :=
  sort (fun a b => decide (a.1 < b.1 ∨ (a.1 = b.1 ∧ a.2 ≤ b.2)))
    (m.ghosts.zipIdx.map (fun p => (p.1, p.2 + m.sizeLocal)))

/-- `global_to_local` for one index, L976-1006. -/
def Map.globalToLocal (m : Map) (g : Int) : Int :=
  if (m.r0 : Int) ≤ g ∧ g < m.r1 then g - m.r0
  else
    match m.ghostPairs[lowerBound (fun e => decide ((e.1 : Int) < g)) m.ghostPairs]? with
    | some e => if (e.1 : Int) = g then (e.2 : Int) else -1
    | none => -1

/-- `global_indices`, L1008-1018. -/
def Map.globalIndices (m : Map) : List Nat :=
  (List.range m.sizeLocal).map (fun i => m.r0 + i) ++ m.ghosts

end Verif.IndexMap
