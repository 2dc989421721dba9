import Verif.Model.Group
import Verif.Model.Offsets
/-!
# Distribution of graph nodes to their destination ranks

Model of the two overloads of `graph::build::distribute` (`cpp/dolfinx/graph/partition.cpp`
L38-233 and L235-403).  A row of the send buffer (`buffer_shape1` numbers, one item of the
compound MPI type) is one element of the exchange.  The radix sort is a stable sort (C03); the
sorted NBX result is the sorted list of in-edges (C07).
-/
namespace Verif.GraphDist
open Verif.Std Verif.Exchange Verif.Group Verif.Offsets

/-- `dest_to_index`, L69-79 / L258-267: (destination, node, first destination). -/
def items (dests : List (List Nat)) : List (Nat × Nat × Nat) :=
  dests.zipIdx.flatMap fun p => p.1.map fun d => (d, p.2, p.1.headD 0)

/-- After the sort, L85 / L273. -/
def sorted (dests : List (List Nat)) : List (Nat × Nat × Nat) := sortBy Prod.fst (items dests)

/-- `dest`, L87-106 / L275-294. -/
def destRanks (dests : List (List Nat)) : List Nat := (runs Prod.fst (sorted dests)).map Prod.fst

/-- `num_items_per_dest`. -/
def numItems (dests : List (List Nat)) : List Nat := (runs Prod.fst (sorted dests)).map fun p => p.2.length

/-- `src`, L108-111 / L296-299. -/
def srcRanks (P : Nat) (dests : Nat → List (List Nat)) (r : Nat) : List Nat :=
  (List.range P).filter fun q => decide (r ∈ destRanks (dests q))

/-- Rows received by rank `r` with their source ranks: the exchange (L119-170 / L307-350) and the
double loop header of the unpacking (L189-194 / L361-366).  `payload q e` is the send buffer row of
record `e` on rank `q`. -/
def received {β : Type} (P : Nat) (dests : Nat → List (List Nat)) (payload : Nat → Nat × Nat × Nat → β) (r : Nat) :
    List (Nat × β) :=
  let outs := fun q => destRanks (dests q)
  let ins := srcRanks P dests
  let num := neighborAlltoall outs ins (fun q => numItems (dests q)) r
  let buf := neighborAlltoallv outs ins
    (fun q => chunks (numItems (dests q)) ((sorted (dests q)).map (payload q))) r
  ((ins r).zip (chunks num buf)).flatMap fun p => p.2.map fun row => (p.1, row)

/-- `offset_global`, L49-54 / L249-252. -/
def offsetGlobal (num : Nat → Nat) (q : Nat) : Nat := excl num q

/-! ## Variable degree -/

/-- `shape1`, L57-62: largest degree **of the first node** over all ranks. -/
def shape1 (P : Nat) (list : Nat → List (List Int)) : Nat :=
  ((List.range P).map fun q => ((list q).headD []).length).foldl max 0

/-- Packed row, L139-149: a fresh row of `-1`, the links copied to its front, then the last three
entries overwritten.  `none`: the links do not fit and memory after the row is overwritten. -/
def packRow (W : Nat) (row : List Int) (owner g : Nat) : Option (List Int) :=
  if row.length > W then none
  else some ((row ++ List.replicate (W - row.length) (-1)).take (W - 3) ++ [(row.length : Int), (owner : Int), (g : Int)])

/-- Reading a row, L196-201: (links, owner, global index).  `none`: read outside the row. -/
def unpackRow (W : Nat) (row : List Int) : Option (List Int × Int × Int) :=
  match row.drop (W - 3) with
  | [ne, owner, g] => if ne < 0 ∨ (W : Int) < ne then none else some (row.take ne.toNat, owner, g)
  | _ => none

/-- Unpacking state: owned part and ghost part (`data`, `offsets`, `src_ranks`, `global_indices` and
the same with suffix 1, and `ghost_index_owner`). -/
structure Part where
  data : List Int
  offsets : List Nat
  src : List Nat
  index : List Int
deriving DecidableEq, Repr

def Part.push (p : Part) (links : List Int) (src : Nat) (g : Int) : Part :=
  { data := p.data ++ links, offsets := p.offsets ++ [p.offsets.getLast?.getD 0 + links.length],
    src := p.src ++ [src], index := p.index ++ [g] }

structure State where
  own : Part
  ghost : Part
  owners : List Int

def State.empty : State := ⟨⟨[], [0], [], []⟩, ⟨[], [0], [], []⟩, []⟩

/-- Body of the unpack loop, L196-217. -/
def State.step (r : Nat) (s : State) (src : Nat) (row : List Int × Int × Int) : State :=
  if row.2.1 = (r : Int) then { s with own := s.own.push row.1 src row.2.2 }
  else { s with ghost := s.ghost.push row.1 src row.2.2, owners := s.owners ++ [row.2.1] }

/-- Returned tuple. -/
structure Result where
  data : List Int
  offsets : List Nat
  src : List Nat
  index : List Int
  owners : List Int
deriving DecidableEq, Repr

/-- L221-229. -/
def State.finish (s : State) : Result :=
  let off := s.own.offsets.getLast?.getD 0
  { data := s.own.data ++ s.ghost.data,
    offsets := s.own.offsets ++ ((s.ghost.offsets.map (· + off)).drop 1),
    src := s.own.src ++ s.ghost.src, index := s.own.index ++ s.ghost.index, owners := s.owners }

/-- The unpack loop on rows that may be corrupted. -/
def unpack (W r : Nat) : List (Nat × Option (List Int)) → State → Option State
  | [], s => some s
  | (src, row) :: l, s => row.bind fun b => (unpackRow W b).bind fun x => unpack W r l (s.step r src x)

/-- `distribute`, first overload. -/
def distribute (P : Nat) (list : Nat → List (List Int)) (dests : Nat → List (List Nat)) (r : Nat) : Option Result :=
  let W := shape1 P list + 3
  (unpack W r (received P dests (fun q e =>
      packRow W ((list q).getD e.2.1 []) e.2.2 (e.2.1 + offsetGlobal (fun q => (list q).length) q)) r)
    State.empty).map State.finish

/-! ## Fixed degree -/

/-- Packed row, L324-334: row `pos` of the flat list, owner, global index. -/
def packFixed (n : Nat) (flat : List Int) (pos owner g : Nat) : List Int :=
  ((flat.drop (pos * n)).take n) ++ [(owner : Int), (g : Int)]

/-- State and result of the second overload. -/
structure FState where
  data : List Int
  index : List Int
  src : List Nat
  data1 : List Int
  index1 : List Int
  src1 : List Nat
  owners : List Int

/-- Body of the loop, L368-386. -/
def FState.step (n r : Nat) (s : FState) (p : Nat × List Int) : FState :=
  let edges := p.2.take n
  let owner := p.2.getD n 0
  let g := p.2.getD (n + 1) 0
  if owner = (r : Int) then
    { s with data := s.data ++ edges, index := s.index ++ [g], src := s.src ++ [p.1] }
  else
    { s with data1 := s.data1 ++ edges, index1 := s.index1 ++ [g], src1 := s.src1 ++ [p.1],
             owners := s.owners ++ [owner] }

structure FResult where
  data : List Int
  src : List Nat
  index : List Int
  owners : List Int
deriving DecidableEq, Repr

/-- `distribute`, second overload; `n = shape[1]` is the same on all ranks. -/
def distributeFixed (P n : Nat) (flat : Nat → List Int) (dests : Nat → List (List Nat)) (r : Nat) : FResult :=
  let s := (received P dests (fun q e =>
      packFixed n (flat q) e.2.1 e.2.2 (e.2.1 + offsetGlobal (fun q => (dests q).length) q)) r).foldl (FState.step n r)
    ⟨[], [], [], [], [], [], []⟩
  { data := s.data ++ s.data1, src := s.src ++ s.src1, index := s.index ++ s.index1, owners := s.owners }

end Verif.GraphDist
