import Verif.Model.StdAlg
/-!
# Reverse Cuthill-McKee ordering

Model of `cpp/dolfinx/graph/ordering.cpp`.  A graph is the list of its link lists.  Loops
without a static bound carry fuel; `none` means that the fuel ran out or that an array was read
outside its bounds, and the theorems show that this does not happen.  `std::ranges::sort` is not
stable, so the sort of the discovered neighbours is a parameter `srt`.
-/
namespace Verif.Rcm
open Verif.Std

abbrev Graph := List (List Nat)

/-- `graph.links(i)` -/
def links (g : Graph) (i : Nat) : List Nat := g.getD i []

/-- `graph.num_links(i)` -/
def degree (g : Graph) (i : Nat) : Nat := (links g i).length

/-- One neighbour: skip if labelled, else append and label it (L47-53, L122-129). -/
def visit (st : (Nat → Bool) × List Nat) (w : Nat) : (Nat → Bool) × List Nat :=
  if st.1 w then st else (fun x => if x = w then true else st.1 x, st.2 ++ [w])

/-- Neighbours of one node. -/
def scan (g : Graph) (st : (Nat → Bool) × List Nat) (node : Nat) : (Nat → Bool) × List Nat :=
  (links g node).foldl visit st

/-- The `while` loop of `create_level_structure`, L40-57. -/
def levelLoop (g : Graph) : Nat → (Nat → Bool) × List Nat → List Nat → Option (List Nat × List Nat)
  | 0, _, _ => none
  | fuel + 1, st, offsets =>
    match offsets.getLast? with
    | none => none
    | some last =>
      if st.2.length > last then
        levelLoop g fuel (((st.2.drop last).take (st.2.length - last)).foldl (scan g) st)
          (offsets ++ [st.2.length])
      else some (st.2, offsets)

/-- `create_level_structure`, L22-61: level array and offsets. -/
def levelStructure (g : Graph) (s : Nat) : Option (List Nat × List Nat) :=
  levelLoop g (g.length + 1) (fun x => decide (x = s), [s]) [0]

/-- `lv.num_nodes()` -/
def numLevels (lv : List Nat × List Nat) : Nat := lv.2.length - 1

/-- `lv.links(i)` -/
def level (lv : List Nat × List Nat) (i : Nat) : List Nat :=
  (lv.1.drop (lv.2.getD i 0)).take (lv.2.getD (i + 1) 0 - lv.2.getD i 0)

/-- `std::ranges::min_element` with the degree order: first of the smallest. -/
def minDegree (g : Graph) : List Nat → Option Nat
  | [] => none
  | a :: l => some (l.foldl (fun m x => if degree g x < degree g m then x else m) a)

/-- `d < dmin`, with `none` for the initial INT_MAX. -/
def below (d : Nat) : Option Nat → Bool
  | none => true
  | some m => decide (d < m)

/-- Unlabelled node of smallest degree, L80-91 (`dmin` starts at INT_MAX: `none`). -/
def pickNode (g : Graph) (r : List Int) : Nat :=
  ((List.range g.length).foldl (fun (s : Nat × Option Nat) i =>
    if r.getD i 0 = -1 ∧ below (degree g i) s.2 = true
    then (i, some (degree g i)) else s) (0, none)).1

/-- Search for a pseudo-peripheral root, L93-110. -/
def rootLoop (g : Graph) : Nat → Nat → List Nat × List Nat → Option Nat
  | 0, _, _ => none
  | fuel + 1, v, lv =>
    match minDegree g (level lv (numLevels lv - 1)) with
    | none => none
    | some s =>
      match levelStructure g s with
      | none => none
      | some lstmp => if numLevels lstmp > numLevels lv then rootLoop g fuel s lstmp else some v

/-- Breadth-first numbering, L112-133. -/
def bfs (g : Graph) (srt : List Nat → List Nat) : Nat → (Nat → Bool) → List Nat → Nat → Option (List Nat)
  | 0, _, _, _ => none
  | fuel + 1, labelled, rv, current =>
    match rv[current]? with
    | none => some rv
    | some node =>
      let st := scan g (labelled, []) node
      bfs g srt fuel st.1 (rv ++ srt st.2) (current + 1)

/-- `rcm_reorder_unlabelled`, L66-143. -/
def rcmUnlabelled (g : Graph) (srt : List Nat → List Nat) (r : List Int) : Option (List Nat) := do
  let v := pickNode g r
  let lv ← levelStructure g v
  let v ← rootLoop g (g.length + 1) v lv
  let rv ← bfs g srt (g.length + 1) (fun x => decide (x = v)) [v] 0
  return rv.reverse

/-- The labelling of one part, L164-165. -/
def label (s : List Int × Nat) (q : Nat) : List Int × Nat := (s.1.set q s.2, s.2 + 1)

/-- The `while` loop of `reorder_rcm`, L156-166. -/
def rcmLoop (g : Graph) (srt : List Nat → List Nat) : Nat → List Int × Nat → Option (List Int)
  | 0, _ => none
  | fuel + 1, s =>
    if s.2 < g.length then
      match rcmUnlabelled g srt s.1 with
      | none => none
      | some rv => rcmLoop g srt fuel (rv.foldl label s)
    else some s.1

/-- `reorder_rcm`, L148-170. -/
def reorderRcm (g : Graph) (srt : List Nat → List Nat) : Option (List Int) :=
  rcmLoop g srt (g.length + 1) (List.replicate g.length (-1), 0)

end Verif.Rcm
