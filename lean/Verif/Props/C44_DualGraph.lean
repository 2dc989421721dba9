import Verif.Lemmas.DualGraphResult
/-! # C44: the dual graph of a distributed mesh -/
namespace Verif.Props
open Verif.DualGraph Verif.Spec
open Verif.Spec.Dual (allCells Adjacent AtMost globalCell)

/-- The number of cells that a facet may have is respected; `-1`, here `none`, stands for no limit. -/
def LimitHolds (I : DualGraph.Input) : Prop := ∀ m, I.limit = some m → AtMost I.P I.types m

/-- The graph on a rank has one node for each cell, and a cell is linked exactly to the cells, of any rank, with which it has a
facet in common. -/
theorem C44_dual_graph (I : DualGraph.Input) (h : Ok I) (hl : LimitHolds I) (r : Nat) (hr : r < I.P) :
    (dualGraph I r).2.length = (allCells (I.types r)).length + 1 ∧
    ∀ c, c < (allCells (I.types r)).length →
      (∀ r' c', r' < I.P → c' < (allCells (I.types r')).length →
        (globalCell I.types r' c' ∈ Dual.links (dualGraph I r) c ↔ Adjacent I.types r c r' c')) ∧
      (∀ g ∈ Dual.links (dualGraph I r) c, ∃ r' c', r' < I.P ∧ c' < (allCells (I.types r')).length ∧ g = globalCell I.types r' c') := by
  refine ⟨by rw [dualGraph_nodes h hr, numCells_eq], ?_⟩
  intro c hc
  rw [← numCells_eq] at hc
  have key : ∀ g, g ∈ Dual.links (dualGraph I r) c ↔
      ∃ r' c', r' < I.P ∧ g = globalCell I.types r' c' ∧ Adjacent I.types r c r' c' := by
    intro g
    by_cases hP : I.P = 1
    · rw [dualGraph_row_serial hP hc]
      obtain rfl : r = 0 := by omega
      have h0 : ∀ x, globalCell I.types 0 x = x := by intro x; simp [globalCell]
      constructor
      · intro hg
        exact ⟨0, g, hr, (h0 g).symm, (localRow_adj h hr hc g).mp hg⟩
      · rintro ⟨r', c', h1, rfl, h3⟩
        obtain rfl : r' = 0 := by omega
        rw [h0]
        exact (localRow_adj h hr hc c').mpr h3
    · rw [dualGraph_row h hP hr hc, Std.mem_unique_sortNat]
      exact rawRow_adj h hl hr hc g
  refine ⟨?_, ?_⟩
  · intro r' c' hr' hc'
    rw [key]
    constructor
    · rintro ⟨r2, c2, h1, h2, h3⟩
      have hc2 := (adj_lt h3).2
      rw [globalCell_eq, globalCell_eq] at h2
      rw [← numCells_eq] at hc' hc2
      obtain ⟨e1, e2⟩ := Offsets.excl_inj (numCells I) hc' hc2 h2
      subst e1; subst e2
      exact h3
    · intro ha
      exact ⟨r', c', hr', rfl, ha⟩
  · intro g hg
    obtain ⟨r', c', h1, h2, h3⟩ := (key g).mp hg
    exact ⟨r', c', h1, (adj_lt h3).2, h2⟩

/-- The graph is symmetric. -/
theorem C44_symmetric (I : DualGraph.Input) (h : Ok I) (hl : LimitHolds I) (r r' c c' : Nat) (hr : r < I.P) (hr' : r' < I.P)
    (hc : c < (allCells (I.types r)).length) (hc' : c' < (allCells (I.types r')).length)
    (hm : globalCell I.types r' c' ∈ Dual.links (dualGraph I r) c) : globalCell I.types r c ∈ Dual.links (dualGraph I r') c' := by
  have h1 := ((((C44_dual_graph I h hl r hr).2 c hc).1 r' c' hr' hc')).mp hm
  obtain ⟨i, j, vs, vs', a1, a2, a3, a4⟩ := h1
  exact ((((C44_dual_graph I h hl r' hr').2 c' hc').1 r c hr hc)).mpr ⟨j, i, vs', vs, a2, a1, Ne.symm a3, a4.symm⟩

/-- With more than one rank, no link is listed twice. -/
theorem C44_no_duplicates (I : DualGraph.Input) (h : Ok I) (hP : I.P ≠ 1) (r : Nat) (hr : r < I.P) (c : Nat)
    (hc : c < (allCells (I.types r)).length) : (Dual.links (dualGraph I r) c).Pairwise (· < ·) := by
  rw [← numCells_eq] at hc
  rw [dualGraph_row h hP hr hc]
  exact Std.unique_sortNat_sorted _

/-! ## A mesh on two ranks: a quadrilateral beside two triangles, one of them on another rank -/

def dualExTri : List (List Nat) := [[1, 2], [0, 2], [0, 1]]
def dualExQuad : List (List Nat) := [[0, 1], [0, 2], [1, 3], [2, 3]]

def dualExTypes : Nat → List CellList
  | 0 => [⟨[[1, 4, 2]], dualExTri⟩, ⟨[[0, 1, 3, 2]], dualExQuad⟩]
  | 1 => [⟨[[4, 1, 5], [6, 5, 1]], dualExTri⟩, ⟨[], dualExQuad⟩]
  | _ => []

def dualEx (lim : Option Nat) : DualGraph.Input where
  P := 2
  types := dualExTypes
  limit := lim
  threads := fun _ => 2
  sched := fun _ ws => ws.reverse
  order := fun r => if r = 0 then [3, 4, 1, 5, 2, 6, 0] else [2, 0, 3, 4, 1, 5]
  orderPO := fun r => if r = 0 then [0, 1, 2, 5, 6, 3, 4] else [0, 1]

/-- Only facets that occur need to be counted. -/
theorem atMost_of {P : Nat} {types : Nat → List CellList} {m : Nat}
    (h : ∀ y ∈ (List.range P).flatMap fun r => Dual.facets (types r),
      (((List.range P).flatMap fun r => Dual.facets (types r)).countP fun x => decide (x.2.Perm y.2)) ≤ m) : AtMost P types m := by
  intro vs
  by_cases h0 : (((List.range P).flatMap fun r => Dual.facets (types r)).countP fun x => decide (x.2.Perm vs)) = 0
  · omega
  · obtain ⟨y, hy, hp⟩ := List.countP_pos_iff.mp (Nat.pos_of_ne_zero h0)
    have hp' : y.2.Perm vs := by simpa using hp
    refine Nat.le_trans (Nat.le_of_eq ?_) (h y hy)
    apply List.countP_congr
    intro x _
    simp only [decide_eq_true_eq]
    exact ⟨fun hx => hx.trans hp'.symm, fun hx => hx.trans hp'⟩

instance lexLeDec : ∀ a b : List Int, Decidable (LexLe a b)
  | [], [] => isTrue trivial
  | [], _ :: _ => isTrue trivial
  | _ :: _, [] => isFalse (by simp [LexLe])
  | a :: as, b :: bs => by
    haveI := lexLeDec as bs
    unfold LexLe
    infer_instance

theorem dualEx_ok : Ok (dualEx (some 2)) where
  threads := by decide
  sched := fun _ _ ws => List.reverse_perm ws
  facets := by decide
  order := by decide +kernel
  order_sorted := by decide +kernel
  orderPO := by decide +kernel
  orderPO_sorted := by decide +kernel

theorem dualEx_limit : LimitHolds (dualEx (some 2)) := by
  intro m hm
  obtain rfl : 2 = m := Option.some.inj hm
  exact atMost_of (by decide +kernel)

example : dualGraph (dualEx (some 2)) 0 = ([1, 2, 0], [0, 2, 3]) := by decide +kernel
example : dualGraph (dualEx (some 2)) 1 = ([0, 3, 2], [0, 2, 3]) := by decide +kernel

/-- The triangle of rank 0 and the first triangle of rank 1 have a common edge. -/
example : Adjacent (dualEx (some 2)).types 0 0 1 0 :=
  (((C44_dual_graph _ dualEx_ok dualEx_limit 0 (by decide)).2 0 (by decide +kernel)).1 1 0 (by decide) (by decide +kernel)).mp
    (by decide +kernel)

/-- Three triangles with a common edge, two of them on rank 0. -/
def dualExThree (lim : Option Nat) : DualGraph.Input where
  P := 2
  types := fun r => if r = 0 then [⟨[[0, 1, 2], [1, 0, 3]], dualExTri⟩] else [⟨[[0, 1, 4]], dualExTri⟩]
  limit := lim
  threads := fun _ => 1
  sched := fun _ ws => ws
  order := fun r => if r = 0 then [2, 5, 1, 3, 0, 4] else [2, 1, 0]
  orderPO := fun r => if r = 0 then [2, 0, 1, 3] else [0, 1, 2]

theorem dualExThree_ok : Ok (dualExThree (some 2)) where
  threads := by decide
  sched := fun _ _ _ => List.Perm.refl _
  facets := by decide
  order := by decide +kernel
  order_sorted := by decide +kernel
  orderPO := by decide +kernel
  orderPO_sorted := by decide +kernel

/-- Without the bound on the number of cells of a facet, links between ranks can be missing: the edge is in three cells, and
rank 0, which has two of them, does not send it. -/
theorem C44_refuted_limit : ∃ I : DualGraph.Input, Ok I ∧ I.limit = some 2 ∧ Adjacent I.types 1 0 0 0 ∧
    globalCell I.types 0 0 ∉ Dual.links (dualGraph I 1) 0 :=
  ⟨dualExThree (some 2), dualExThree_ok, rfl, ⟨2, 2, [0, 1], [0, 1], by decide +kernel, by decide +kernel, by decide,
    List.Perm.refl _⟩, by decide +kernel⟩

end Verif.Props
