import Verif.Model.SharedIndices
/-!
# Marking of edges for refinement

`cpp/dolfinx/refinement/plaza.h` L484-535, `plaza.cpp` L186-249 and `utils.cpp` L47-100, on all ranks.

Simplifications: the vector of vectors `marked_for_update` is one list of pairs (neighbour, edge) in the order of the
insertions; `marked_for_update[i]` is the sublist with first component `i`.  A failed assertion is `none`.  The sum over all
ranks in `MPI_Allreduce` is the mathematical one.
-/
namespace Verif.RefMark
open Verif.Std Verif.Exchange Verif.World Verif.Shared

/-- `AdjacencyList::links`. -/
def links (data offs : List Nat) (i : Nat) : List Nat :=
  (data.drop (offs.getD i 0)).take (offs.getD (i + 1) 0 - offs.getD i 0)

/-- `map_e->index_to_dest_ranks()`, plaza.h L485 (it does not fail, C31). -/
def destRanks (w : World) (r : Nat) : List Nat × List Nat := (indexToDestRanks w r).getD ([], [])

/-- `ranks`, plaza.h L490-493. -/
def ranks (w : World) (r : Nat) : List Nat := unique (sortNat (destRanks w r).1)

/-- Position of a rank among the neighbours, plaza.h L499-501. -/
def pos (w : World) (r q : Nat) : Nat := lowerBound (fun x => decide (x < q)) (ranks w r)

/-- `edge_ranks.links(e)` as positions of neighbours, plaza.h L496-502. -/
def edgeRanks (w : World) (r e : Nat) : List Nat := links ((destRanks w r).1.map (pos w r)) (destRanks w r).2 e

/-- `marked_edges` and `marked_for_update` on a rank. -/
structure St where
  marks : List Bool
  upd : List (Nat × Nat)

/-- Mark an edge and note the neighbours to be told, plaza.h L513-520 and plaza.cpp L233-240. -/
def setMark (w : World) (r : Nat) (s : St) (e : Nat) : St :=
  if s.marks.getD e false then s else ⟨s.marks.set e true, s.upd ++ (edgeRanks w r e).map fun i => (i, e)⟩

/-- Number of owned and ghost edges. -/
def numEdges (w : World) (r : Nat) : Nat := w.size r + (w.ghosts r).length

/-- Marks given by the caller, plaza.h L505-522; `none`: all edges. -/
def start (w : World) (edges : Nat → Option (List Nat)) (r : Nat) : St :=
  match edges r with
  | none => ⟨List.replicate (numEdges w r) true, []⟩
  | some l => l.foldl (setMark w r) ⟨List.replicate (numEdges w r) false, []⟩

/-- Blocks to be sent, utils.cpp L54-60. -/
def pack (w : World) (r : Nat) (upd : List (Nat × Nat)) : Option (List (List Nat)) :=
  (List.range (ranks w r).length).mapM fun i => ((upd.filter fun p => p.1 = i).map Prod.snd).mapM (w.map r).localToGlobal

/-- `global_to_local` with the assertion, utils.cpp L93-97. -/
def localOf (w : World) (r g : Nat) : Option Nat :=
  if (w.map r).globalToLocal (g : Int) < 0 then none else some ((w.map r).globalToLocal (g : Int)).toNat

/-- Marks set for received edges, utils.cpp L93-99. -/
def receive (w : World) (r : Nat) (marks : List Bool) (recv : List Nat) : Option (List Bool) :=
  recv.foldlM (fun m g => (localOf w r g).map fun i => m.set i true) marks

/-- `update_logical_edgefunction` on all ranks, utils.cpp L47-100; the lists are empty afterwards (plaza.cpp L218-219). -/
def updateAll (w : World) (s : Nat → St) : Option (Nat → St) := do
  let packs ← (List.range w.P).mapM fun r => pack w r (s r).upd
  let ms ← (List.range w.P).mapM fun r =>
    receive w r (s r).marks (neighborAlltoallv (ranks w) (ranks w) (fun q => packs.getD q []) r)
  return fun r => ⟨ms.getD r [], []⟩

/-- One face: its edges and the longest one, plaza.cpp L221-243. -/
def faceStep (w : World) (r : Nat) (p : St × Nat) (face : List Nat × Nat) : St × Nat :=
  if p.1.marks.getD face.2 false then p
  else if face.1.any fun e => p.1.marks.getD e false then (setMark w r p.1 face.2, p.2 + 1) else p

/-- All faces of a rank, plaza.cpp L221-243. -/
def facePass (w : World) (faces : Nat → List (List Nat × Nat)) (r : Nat) (s : St) : St × Nat := (faces r).foldl (faceStep w r) (s, 0)

/-- The loop of `enforce_rules`, plaza.cpp L213-248. -/
def loop (w : World) (faces : Nat → List (List Nat × Nat)) : Nat → (Nat → St) → Option (Nat → St)
  | 0, _ => none
  | n + 1, s => do
    let s1 ← updateAll w s
    let count := ((List.range w.P).map fun r => (facePass w faces r (s1 r)).2).sum
    if 0 < count then loop w faces n fun r => (facePass w faces r (s1 r)).1
    else return fun r => (facePass w faces r (s1 r)).1

/-- `marked_edges` on all ranks when `compute_refinement` starts, plaza.h L505-535. -/
def markEdges (w : World) (faces : Nat → List (List Nat × Nat)) (edges : Nat → Option (List Nat)) (fuel : Nat) : Option (Nat → List Bool) := do
  let s ← updateAll w (start w edges)
  let t ← loop w faces fuel s
  return fun r => (t r).marks

end Verif.RefMark
