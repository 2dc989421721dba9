import Verif.Model.StdAlg
/-!
# `graph::build::compute_local_to_global` and `compute_local_to_local`

Model of `cpp/dolfinx/graph/partition.cpp` L577-645.  Local indices are naturals,
global indices are integers (the code uses `-1` as "unset").
-/
namespace Verif.LocalMaps
open Verif.Std

/-- Loop L590-594: write the first global index met for each local index. -/
def l2gStep (m : List Int) (p : Nat × Int) : List Int :=
  match m[p.1]? with
  | some v => if v = -1 then m.set p.1 p.2 else m
  | none => m

/-- `compute_local_to_global`, L577-598; `none` = "Data size mismatch." -/
def localToGlobal (global : List Int) (loc : List Nat) : Option (List Int) :=
  if global = [] ∧ loc = [] then some []
  else if global.length ≠ loc.length then none
  else
    let maxIdx := loc.foldl max 0
    some ((loc.zip global).foldl l2gStep (List.replicate (maxIdx + 1) (-1)))

/-- Sorted pairs (global, position), L608-613. -/
def sortedPairs (l1 : List Int) : List (Int × Nat) :=
  sort (fun a b => decide (a.1 < b.1 ∨ (a.1 = b.1 ∧ a.2 ≤ b.2))) l1.zipIdx

/-- `is_identity`, L622-625. -/
def isIdentity (s : List (Int × Nat)) : Bool :=
  match s.head?, s.getLast? with
  | some a, some b => decide (a.1 = 0 ∧ b.1 = (s.length : Int) - 1)
  | _, _ => false

/-- One lookup, L632-642; `none` = the assertion fails (value absent). -/
def lookup (s : List (Int × Nat)) (g : Int) : Option Nat :=
  if isIdentity s ∧ 0 ≤ g ∧ g < s.length then (s[g.toNat]?).map (·.2)
  else
    match s[lowerBound (fun e => decide (e.1 < g)) s]? with
    | some e => if e.1 = g then some e.2 else none
    | none => none

/-- `compute_local_to_local`, L600-645. -/
def localToLocal (l0 l1 : List Int) : Option (List Nat) :=
  l0.mapM (lookup (sortedPairs l1))

end Verif.LocalMaps
