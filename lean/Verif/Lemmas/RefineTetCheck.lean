import Verif.Model.RefineSimplex
import Verif.Lemmas.Bisect
import Mathlib.Tactic.IntervalCases
import Mathlib.Data.List.Perm.Basic
/-!
All cases of `get_tetrahedra`: the result depends on six flags and on the longest edge of four facets, so the cases below
are all inputs, not samples.
-/
namespace Verif.Refine
open Verif.Spec.Subdiv

/-- Edges of facet `f`. -/
def facetEdges (f : Nat) : List Nat := [[0, 1, 2], [0, 3, 4], [1, 3, 5], [2, 4, 5]].getD f []

/-- Edge between two vertices. -/
def eIdx (i j : Nat) : Nat := [[0, 5, 4, 3], [5, 0, 2, 1], [4, 2, 0, 0], [3, 1, 0, 0]].getD i [] |>.getD j 0

/-- Longest edges of facets do not beat each other in a circle. -/
def noCycle (le : List Nat) : Bool :=
  (List.range 4).all fun f => (List.range 4).all fun g => (List.range 4).all fun h =>
    let a := le.getD f 0
    let b := le.getD g 0
    let c := le.getD h 0
    !(a != b && b != c && c != a && (facetEdges f).contains b && (facetEdges g).contains c && (facetEdges h).contains a)
      && (List.range 4).all fun k =>
        let d := le.getD k 0
        !(a != b && b != c && c != d && d != a && (facetEdges f).contains b && (facetEdges g).contains c &&
          (facetEdges h).contains d && (facetEdges k).contains a)

/-- A facet with a marked edge has its longest edge marked. -/
def closedL (m : List Bool) (le : List Nat) : Bool :=
  (List.range 4).all fun f => !(facetEdges f).any (fun e => m.getD e false) || m.getD (le.getD f 0) false

def ins (a : Nat) : List Nat → List Nat
  | [] => [a]
  | b :: l => if a ≤ b then a :: b :: l else b :: ins a l

def srt (l : List Nat) : List Nat := l.foldr ins []

/-- Next edge to cut. -/
def pick (m : List Bool) (le : List Nat) (t : List Nat) : Option Nat :=
  let cand := (List.range 6).filter fun e =>
    m.getD e false && t.contains (tetEdge e).1 && t.contains (tetEdge e).2 && !t.contains (e + 4)
  cand.find? fun e => cand.all fun e2 => e2 == e || (List.range 4).all fun f => !(le.getD f 0 == e2 && (facetEdges f).contains e)

/-- Cells by repeated bisection. -/
def bis (m : List Bool) (le : List Nat) : Nat → List Nat → List (List Nat)
  | 0, t => [t]
  | n + 1, t => match pick m le t with
    | none => [t]
    | some e => bis m le n (t.map fun x => if x = (tetEdge e).1 then e + 4 else x) ++
        bis m le n (t.map fun x => if x = (tetEdge e).2 then e + 4 else x)

/-- Half of a cut facet. -/
def pattHalf (m : List Bool) (e c x : Nat) : List (List Nat) :=
  if m.getD (eIdx x c) false then [[4 + e, c, 4 + eIdx x c], [4 + e, 4 + eIdx x c, x]] else [[4 + e, c, x]]

/-- New facets on facet `f` with longest edge `e`. -/
def pattIdx (m : List Bool) (f e : Nat) : List (List Nat) :=
  let a := (tetEdge e).1
  let b := (tetEdge e).2
  let c := 6 - f - a - b
  if m.getD e false then pattHalf m e c a ++ pattHalf m e c b else [[a, b, c]]

def sub (s t : List Nat) : Bool := s.all t.contains

/-- Vertices of the parent cell that the points of `s` lie between are all vertices. -/
def carrierAll (s : List Nat) : Bool :=
  (List.range 4).all fun v => s.any fun i => (tetEnds i).contains v

/-- The points are old vertices and midpoints of marked edges, in ascending order. -/
def okCell (m : List Bool) (t : List Nat) : Bool :=
  t.length == 4 && t.Nodup && t.all fun i => decide (i < 4) || (decide (i < 10) && m.getD (i - 4) false)

def good (m : List Bool) (le : List Nat) : Bool :=
  let T := getTetrahedra m le
  T.isPerm ((bis m le 6 [0, 1, 2, 3]).map srt) && decide (T.length ≤ 8) && T.all (okCell m) &&
  ((List.range 4).all fun f => (pattIdx m f (le.getD f 0)).all fun s => T.countP (sub s) == 1) &&
  (T.all fun t => t.all fun p =>
    let s := t.erase p
    ((List.range 4).any fun f => (pattIdx m f (le.getD f 0)).any fun s' => sub s s' && sub s' s) ||
      (carrierAll s && T.countP (sub s) == 2))

def boolLists : Nat → List (List Bool)
  | 0 => [[]]
  | n + 1 => (boolLists n).map (List.cons false) ++ (boolLists n).map (List.cons true)

theorem mem_boolLists (l : List Bool) : l ∈ boolLists l.length := by
  induction l with
  | nil => simp [boolLists]
  | cons b l ih => cases b <;> simp [boolLists, ih]

def les : List (List Nat) := (facetEdges 0).flatMap fun a => (facetEdges 1).flatMap fun b => (facetEdges 2).flatMap fun c =>
  (facetEdges 3).map fun d => [a, b, c, d]

/-- One ninth of the cases, to keep the memory of the kernel low. -/
def goodPart (a b : Nat) : Bool :=
  (facetEdges 2).all fun c => (facetEdges 3).all fun d =>
    let le := [(facetEdges 0).getD a 0, (facetEdges 1).getD b 0, c, d]
    !noCycle le || (boolLists 6).all fun m => !closedL m le || good m le

set_option maxRecDepth 100000 in
theorem good_00 : goodPart 0 0 = true := by decide +kernel

set_option maxRecDepth 100000 in
theorem good_01 : goodPart 0 1 = true := by decide +kernel

set_option maxRecDepth 100000 in
theorem good_02 : goodPart 0 2 = true := by decide +kernel

set_option maxRecDepth 100000 in
theorem good_10 : goodPart 1 0 = true := by decide +kernel

set_option maxRecDepth 100000 in
theorem good_11 : goodPart 1 1 = true := by decide +kernel

set_option maxRecDepth 100000 in
theorem good_12 : goodPart 1 2 = true := by decide +kernel

set_option maxRecDepth 100000 in
theorem good_20 : goodPart 2 0 = true := by decide +kernel

set_option maxRecDepth 100000 in
theorem good_21 : goodPart 2 1 = true := by decide +kernel

set_option maxRecDepth 100000 in
theorem good_22 : goodPart 2 2 = true := by decide +kernel

theorem all_good : (les.all fun le => !noCycle le || (boolLists 6).all fun m => !closedL m le || good m le) = true := by
  have h : ∀ a < 3, ∀ b < 3, goodPart a b = true := by
    intro a ha b hb
    interval_cases a <;> interval_cases b
    exacts [good_00, good_01, good_02, good_10, good_11, good_12, good_20, good_21, good_22]
  rw [List.all_eq_true]
  intro le hle
  unfold les at hle
  simp only [List.mem_flatMap, List.mem_map] at hle
  obtain ⟨x, hx, y, hy, c, hc, d, hd, rfl⟩ := hle
  obtain ⟨a, ha, rfl⟩ := List.mem_iff_getElem.mp hx
  obtain ⟨b, hb, rfl⟩ := List.mem_iff_getElem.mp hy
  have ha : a < 3 := ha
  have hb : b < 3 := hb
  have := h a ha b hb
  unfold goodPart at this
  rw [List.all_eq_true] at this
  have := this c hc
  rw [List.all_eq_true] at this
  have := this d hd
  rw [List.getD_eq_getElem?_getD, List.getElem?_eq_getElem (show a < (facetEdges 0).length from ha), List.getD_eq_getElem?_getD,
    List.getElem?_eq_getElem (show b < (facetEdges 1).length from hb)] at this
  exact this

end Verif.Refine
