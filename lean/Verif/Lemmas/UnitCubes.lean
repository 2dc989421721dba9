import Verif.Lemmas.LatticeTiles
/-!
# The patterns of `create_interval`, `create_rectangle` and `create_box` divide the unit cube

(Written by a script.)
-/
namespace Verif.Lattice
open Verif.Spec.RefCell Verif.Spec.Mixed Verif.Spec.Box
open Verif.Connectivity (CellType)

variable (K : Type) [Field K] [LinearOrder K] [IsStrictOrderedRing K]

/-- Pattern. -/
def unitInterval : List (List Off) := [[(0, 0, 0), (2, 0, 0)]]

omit [LinearOrder K] [IsStrictOrderedRing K] in
theorem unitInterval_map0 [CharZero K] (x y z : K) : umap .interval [(0, 0, 0), (2, 0, 0)] (x, y, z) = (x, 0, 0) := by
  simp only [umap, mapTo, List.getD_cons_zero, List.getD_cons_succ, Nat.cast_zero, Nat.cast_ofNat, zero_div, Prod.mk.injEq]
  refine ⟨?_, ?_, ?_⟩ <;> ring

theorem unitInterval_tiles : UnitTiles K .interval unitInterval := by
  refine ⟨by decide, ?_, ?_, ?_, ?_, ?_⟩
  · rintro l hl ⟨x, y, z⟩ hy
    rw [unitInterval] at hl; simp only [List.mem_cons, List.not_mem_nil, or_false] at hl
    simp only [Inside] at hy
    rcases hl with rfl <;> intro a ha <;> interval_cases a <;> simp only [unitInterval_map0, dim, axis] <;> norm_num <;>
      first | linarith | (constructor <;> linarith)
  · rintro l hl ⟨x, y, z⟩ hy
    rw [unitInterval] at hl; simp only [List.mem_cons, List.not_mem_nil, or_false] at hl
    simp only [Inner] at hy
    rcases hl with rfl <;> intro a ha <;> simp only [dim] at ha <;> interval_cases a <;> simp only [unitInterval_map0, axis] <;> constructor <;> linarith
  · rintro ⟨u, v, w⟩ hu
    have h0 := hu 0 (by omega)
    have h1 := hu 1 (by omega)
    have h2 := hu 2 (by omega)
    simp only [dim, axis] at h0 h1 h2
    norm_num at h0 h1 h2
    first
    | (refine ⟨[(0, 0, 0), (2, 0, 0)], by simp [unitInterval], (u, 0, 0), ?_, ?_⟩
       · simp only [Inside]; refine ⟨?_, ?_, ?_, ?_⟩ <;> (try refine ⟨?_, ?_⟩) <;> (try refine ⟨?_, ?_⟩) <;> first | exact trivial | linarith
       · refine (unitInterval_map0 K _ _ _).trans (Prod.ext ?_ (Prod.ext ?_ ?_)) <;> simp only <;> linarith)
  · rw [unitInterval]; exact List.pairwise_singleton _ _
  · rintro l hl ⟨x, y, z⟩ ⟨x', y', z'⟩ hy hy' he
    rw [unitInterval] at hl; simp only [List.mem_cons, List.not_mem_nil, or_false] at hl
    simp only [Inside] at hy hy'
    rcases hl with rfl <;> simp only [unitInterval_map0, Prod.mk.injEq] at he <;> refine Prod.ext ?_ (Prod.ext ?_ ?_) <;> simp only <;> linarith

/-- Pattern. -/
def unitQuad : List (List Off) := [[(0, 0, 0), (0, 2, 0), (2, 0, 0), (2, 2, 0)]]

omit [LinearOrder K] [IsStrictOrderedRing K] in
theorem unitQuad_map0 [CharZero K] (x y z : K) : umap .quadrilateral [(0, 0, 0), (0, 2, 0), (2, 0, 0), (2, 2, 0)] (x, y, z) = (y, x, 0) := by
  simp only [umap, mapTo, List.getD_cons_zero, List.getD_cons_succ, Nat.cast_zero, Nat.cast_ofNat, zero_div, Prod.mk.injEq]
  refine ⟨?_, ?_, ?_⟩ <;> ring

theorem unitQuad_tiles : UnitTiles K .quadrilateral unitQuad := by
  refine ⟨by decide, ?_, ?_, ?_, ?_, ?_⟩
  · rintro l hl ⟨x, y, z⟩ hy
    rw [unitQuad] at hl; simp only [List.mem_cons, List.not_mem_nil, or_false] at hl
    simp only [Inside] at hy
    rcases hl with rfl <;> intro a ha <;> interval_cases a <;> simp only [unitQuad_map0, dim, axis] <;> norm_num <;>
      first | linarith | (constructor <;> linarith)
  · rintro l hl ⟨x, y, z⟩ hy
    rw [unitQuad] at hl; simp only [List.mem_cons, List.not_mem_nil, or_false] at hl
    simp only [Inner] at hy
    rcases hl with rfl <;> intro a ha <;> simp only [dim] at ha <;> interval_cases a <;> simp only [unitQuad_map0, axis] <;> constructor <;> linarith
  · rintro ⟨u, v, w⟩ hu
    have h0 := hu 0 (by omega)
    have h1 := hu 1 (by omega)
    have h2 := hu 2 (by omega)
    simp only [dim, axis] at h0 h1 h2
    norm_num at h0 h1 h2
    first
    | (refine ⟨[(0, 0, 0), (0, 2, 0), (2, 0, 0), (2, 2, 0)], by simp [unitQuad], (v, u, 0), ?_, ?_⟩
       · simp only [Inside]; refine ⟨?_, ?_, ?_, ?_⟩ <;> (try refine ⟨?_, ?_⟩) <;> (try refine ⟨?_, ?_⟩) <;> first | exact trivial | linarith
       · refine (unitQuad_map0 K _ _ _).trans (Prod.ext ?_ (Prod.ext ?_ ?_)) <;> simp only <;> linarith)
  · rw [unitQuad]; exact List.pairwise_singleton _ _
  · rintro l hl ⟨x, y, z⟩ ⟨x', y', z'⟩ hy hy' he
    rw [unitQuad] at hl; simp only [List.mem_cons, List.not_mem_nil, or_false] at hl
    simp only [Inside] at hy hy'
    rcases hl with rfl <;> simp only [unitQuad_map0, Prod.mk.injEq] at he <;> refine Prod.ext ?_ (Prod.ext ?_ ?_) <;> simp only <;> linarith

/-- Pattern. -/
def unitLeft : List (List Off) := [[(0, 0, 0), (2, 0, 0), (0, 2, 0)], [(2, 0, 0), (0, 2, 0), (2, 2, 0)]]

omit [LinearOrder K] [IsStrictOrderedRing K] in
theorem unitLeft_map0 [CharZero K] (x y z : K) : umap .triangle [(0, 0, 0), (2, 0, 0), (0, 2, 0)] (x, y, z) = (x, y, 0) := by
  simp only [umap, mapTo, List.getD_cons_zero, List.getD_cons_succ, Nat.cast_zero, Nat.cast_ofNat, zero_div, Prod.mk.injEq]
  refine ⟨?_, ?_, ?_⟩ <;> ring

omit [LinearOrder K] [IsStrictOrderedRing K] in
theorem unitLeft_map1 [CharZero K] (x y z : K) : umap .triangle [(2, 0, 0), (0, 2, 0), (2, 2, 0)] (x, y, z) = (1 - x, x + y, 0) := by
  simp only [umap, mapTo, List.getD_cons_zero, List.getD_cons_succ, Nat.cast_zero, Nat.cast_ofNat, zero_div, Prod.mk.injEq]
  refine ⟨?_, ?_, ?_⟩ <;> ring

theorem unitLeft_tiles : UnitTiles K .triangle unitLeft := by
  refine ⟨by decide, ?_, ?_, ?_, ?_, ?_⟩
  · rintro l hl ⟨x, y, z⟩ hy
    rw [unitLeft] at hl; simp only [List.mem_cons, List.not_mem_nil, or_false] at hl
    simp only [Inside] at hy
    rcases hl with rfl | rfl <;> intro a ha <;> interval_cases a <;> simp only [unitLeft_map0, unitLeft_map1, dim, axis] <;> norm_num <;>
      first | linarith | (constructor <;> linarith)
  · rintro l hl ⟨x, y, z⟩ hy
    rw [unitLeft] at hl; simp only [List.mem_cons, List.not_mem_nil, or_false] at hl
    simp only [Inner] at hy
    rcases hl with rfl | rfl <;> intro a ha <;> simp only [dim] at ha <;> interval_cases a <;> simp only [unitLeft_map0, unitLeft_map1, axis] <;> constructor <;> linarith
  · rintro ⟨u, v, w⟩ hu
    have h0 := hu 0 (by omega)
    have h1 := hu 1 (by omega)
    have h2 := hu 2 (by omega)
    simp only [dim, axis] at h0 h1 h2
    norm_num at h0 h1 h2
    rcases le_total (u + v) 1 with s0 | s0 <;> first
    | (refine ⟨[(0, 0, 0), (2, 0, 0), (0, 2, 0)], by simp [unitLeft], (u, v, 0), ?_, ?_⟩
       · simp only [Inside]; refine ⟨?_, ?_, ?_, ?_⟩ <;> (try refine ⟨?_, ?_⟩) <;> (try refine ⟨?_, ?_⟩) <;> first | exact trivial | linarith
       · refine (unitLeft_map0 K _ _ _).trans (Prod.ext ?_ (Prod.ext ?_ ?_)) <;> simp only <;> linarith)
    | (refine ⟨[(2, 0, 0), (0, 2, 0), (2, 2, 0)], by simp [unitLeft], (1 - u, u + v - 1, 0), ?_, ?_⟩
       · simp only [Inside]; refine ⟨?_, ?_, ?_, ?_⟩ <;> (try refine ⟨?_, ?_⟩) <;> (try refine ⟨?_, ?_⟩) <;> first | exact trivial | linarith
       · refine (unitLeft_map1 K _ _ _).trans (Prod.ext ?_ (Prod.ext ?_ ?_)) <;> simp only <;> linarith)
  · simp only [unitLeft, List.pairwise_cons, List.mem_cons, List.not_mem_nil, or_false, forall_eq, false_imp_iff, implies_true, and_true, List.Pairwise.nil]
    repeat' apply And.intro
    all_goals
      rintro ⟨x, y, z⟩ ⟨x', y', z'⟩ he
      simp only [unitLeft_map0, unitLeft_map1, Prod.mk.injEq] at he
      obtain ⟨e1, e2, e3⟩ := he
      simp only [Inner, Inside]
      constructor <;> (rintro ⟨hy, hy'⟩; linarith)
  · rintro l hl ⟨x, y, z⟩ ⟨x', y', z'⟩ hy hy' he
    rw [unitLeft] at hl; simp only [List.mem_cons, List.not_mem_nil, or_false] at hl
    simp only [Inside] at hy hy'
    rcases hl with rfl | rfl <;> simp only [unitLeft_map0, unitLeft_map1, Prod.mk.injEq] at he <;> refine Prod.ext ?_ (Prod.ext ?_ ?_) <;> simp only <;> linarith

/-- Pattern. -/
def unitRight : List (List Off) := [[(0, 0, 0), (2, 0, 0), (2, 2, 0)], [(0, 0, 0), (0, 2, 0), (2, 2, 0)]]

omit [LinearOrder K] [IsStrictOrderedRing K] in
theorem unitRight_map0 [CharZero K] (x y z : K) : umap .triangle [(0, 0, 0), (2, 0, 0), (2, 2, 0)] (x, y, z) = (x + y, y, 0) := by
  simp only [umap, mapTo, List.getD_cons_zero, List.getD_cons_succ, Nat.cast_zero, Nat.cast_ofNat, zero_div, Prod.mk.injEq]
  refine ⟨?_, ?_, ?_⟩ <;> ring

omit [LinearOrder K] [IsStrictOrderedRing K] in
theorem unitRight_map1 [CharZero K] (x y z : K) : umap .triangle [(0, 0, 0), (0, 2, 0), (2, 2, 0)] (x, y, z) = (y, x + y, 0) := by
  simp only [umap, mapTo, List.getD_cons_zero, List.getD_cons_succ, Nat.cast_zero, Nat.cast_ofNat, zero_div, Prod.mk.injEq]
  refine ⟨?_, ?_, ?_⟩ <;> ring

theorem unitRight_tiles : UnitTiles K .triangle unitRight := by
  refine ⟨by decide, ?_, ?_, ?_, ?_, ?_⟩
  · rintro l hl ⟨x, y, z⟩ hy
    rw [unitRight] at hl; simp only [List.mem_cons, List.not_mem_nil, or_false] at hl
    simp only [Inside] at hy
    rcases hl with rfl | rfl <;> intro a ha <;> interval_cases a <;> simp only [unitRight_map0, unitRight_map1, dim, axis] <;> norm_num <;>
      first | linarith | (constructor <;> linarith)
  · rintro l hl ⟨x, y, z⟩ hy
    rw [unitRight] at hl; simp only [List.mem_cons, List.not_mem_nil, or_false] at hl
    simp only [Inner] at hy
    rcases hl with rfl | rfl <;> intro a ha <;> simp only [dim] at ha <;> interval_cases a <;> simp only [unitRight_map0, unitRight_map1, axis] <;> constructor <;> linarith
  · rintro ⟨u, v, w⟩ hu
    have h0 := hu 0 (by omega)
    have h1 := hu 1 (by omega)
    have h2 := hu 2 (by omega)
    simp only [dim, axis] at h0 h1 h2
    norm_num at h0 h1 h2
    rcases le_total u v with s0 | s0 <;> first
    | (refine ⟨[(0, 0, 0), (2, 0, 0), (2, 2, 0)], by simp [unitRight], (u - v, v, 0), ?_, ?_⟩
       · simp only [Inside]; refine ⟨?_, ?_, ?_, ?_⟩ <;> (try refine ⟨?_, ?_⟩) <;> (try refine ⟨?_, ?_⟩) <;> first | exact trivial | linarith
       · refine (unitRight_map0 K _ _ _).trans (Prod.ext ?_ (Prod.ext ?_ ?_)) <;> simp only <;> linarith)
    | (refine ⟨[(0, 0, 0), (0, 2, 0), (2, 2, 0)], by simp [unitRight], (v - u, u, 0), ?_, ?_⟩
       · simp only [Inside]; refine ⟨?_, ?_, ?_, ?_⟩ <;> (try refine ⟨?_, ?_⟩) <;> (try refine ⟨?_, ?_⟩) <;> first | exact trivial | linarith
       · refine (unitRight_map1 K _ _ _).trans (Prod.ext ?_ (Prod.ext ?_ ?_)) <;> simp only <;> linarith)
  · simp only [unitRight, List.pairwise_cons, List.mem_cons, List.not_mem_nil, or_false, forall_eq, false_imp_iff, implies_true, and_true, List.Pairwise.nil]
    repeat' apply And.intro
    all_goals
      rintro ⟨x, y, z⟩ ⟨x', y', z'⟩ he
      simp only [unitRight_map0, unitRight_map1, Prod.mk.injEq] at he
      obtain ⟨e1, e2, e3⟩ := he
      simp only [Inner, Inside]
      constructor <;> (rintro ⟨hy, hy'⟩; linarith)
  · rintro l hl ⟨x, y, z⟩ ⟨x', y', z'⟩ hy hy' he
    rw [unitRight] at hl; simp only [List.mem_cons, List.not_mem_nil, or_false] at hl
    simp only [Inside] at hy hy'
    rcases hl with rfl | rfl <;> simp only [unitRight_map0, unitRight_map1, Prod.mk.injEq] at he <;> refine Prod.ext ?_ (Prod.ext ?_ ?_) <;> simp only <;> linarith

/-- Pattern. -/
def unitCrossed : List (List Off) := [[(0, 0, 0), (2, 0, 0), (1, 1, 0)], [(0, 0, 0), (0, 2, 0), (1, 1, 0)], [(2, 0, 0), (2, 2, 0), (1, 1, 0)], [(0, 2, 0), (2, 2, 0), (1, 1, 0)]]

omit [LinearOrder K] [IsStrictOrderedRing K] in
theorem unitCrossed_map0 [CharZero K] (x y z : K) : umap .triangle [(0, 0, 0), (2, 0, 0), (1, 1, 0)] (x, y, z) = (x + 1 / 2 * y, 1 / 2 * y, 0) := by
  simp only [umap, mapTo, List.getD_cons_zero, List.getD_cons_succ, Nat.cast_zero, Nat.cast_one, Nat.cast_ofNat, zero_div, Prod.mk.injEq]
  refine ⟨?_, ?_, ?_⟩ <;> ring

omit [LinearOrder K] [IsStrictOrderedRing K] in
theorem unitCrossed_map1 [CharZero K] (x y z : K) : umap .triangle [(0, 0, 0), (0, 2, 0), (1, 1, 0)] (x, y, z) = (1 / 2 * y, x + 1 / 2 * y, 0) := by
  simp only [umap, mapTo, List.getD_cons_zero, List.getD_cons_succ, Nat.cast_zero, Nat.cast_one, Nat.cast_ofNat, zero_div, Prod.mk.injEq]
  refine ⟨?_, ?_, ?_⟩ <;> ring

omit [LinearOrder K] [IsStrictOrderedRing K] in
theorem unitCrossed_map2 [CharZero K] (x y z : K) : umap .triangle [(2, 0, 0), (2, 2, 0), (1, 1, 0)] (x, y, z) = (1 - 1 / 2 * y, x + 1 / 2 * y, 0) := by
  simp only [umap, mapTo, List.getD_cons_zero, List.getD_cons_succ, Nat.cast_zero, Nat.cast_one, Nat.cast_ofNat, zero_div, Prod.mk.injEq]
  refine ⟨?_, ?_, ?_⟩ <;> ring

omit [LinearOrder K] [IsStrictOrderedRing K] in
theorem unitCrossed_map3 [CharZero K] (x y z : K) : umap .triangle [(0, 2, 0), (2, 2, 0), (1, 1, 0)] (x, y, z) = (x + 1 / 2 * y, 1 - 1 / 2 * y, 0) := by
  simp only [umap, mapTo, List.getD_cons_zero, List.getD_cons_succ, Nat.cast_zero, Nat.cast_one, Nat.cast_ofNat, zero_div, Prod.mk.injEq]
  refine ⟨?_, ?_, ?_⟩ <;> ring

theorem unitCrossed_tiles : UnitTiles K .triangle unitCrossed := by
  refine ⟨by decide, ?_, ?_, ?_, ?_, ?_⟩
  · rintro l hl ⟨x, y, z⟩ hy
    rw [unitCrossed] at hl; simp only [List.mem_cons, List.not_mem_nil, or_false] at hl
    simp only [Inside] at hy
    rcases hl with rfl | rfl | rfl | rfl <;> intro a ha <;> interval_cases a <;> simp only [unitCrossed_map0, unitCrossed_map1, unitCrossed_map2, unitCrossed_map3, dim, axis] <;> norm_num <;>
      first | linarith | (constructor <;> linarith)
  · rintro l hl ⟨x, y, z⟩ hy
    rw [unitCrossed] at hl; simp only [List.mem_cons, List.not_mem_nil, or_false] at hl
    simp only [Inner] at hy
    rcases hl with rfl | rfl | rfl | rfl <;> intro a ha <;> simp only [dim] at ha <;> interval_cases a <;> simp only [unitCrossed_map0, unitCrossed_map1, unitCrossed_map2, unitCrossed_map3, axis] <;> constructor <;> linarith
  · rintro ⟨u, v, w⟩ hu
    have h0 := hu 0 (by omega)
    have h1 := hu 1 (by omega)
    have h2 := hu 2 (by omega)
    simp only [dim, axis] at h0 h1 h2
    norm_num at h0 h1 h2
    rcases le_total u v with s0 | s0 <;> rcases le_total (u + v) 1 with s1 | s1 <;> first
    | (refine ⟨[(0, 0, 0), (2, 0, 0), (1, 1, 0)], by simp [unitCrossed], (u - v, 2 * v, 0), ?_, ?_⟩
       · simp only [Inside]; refine ⟨?_, ?_, ?_, ?_⟩ <;> (try refine ⟨?_, ?_⟩) <;> (try refine ⟨?_, ?_⟩) <;> first | exact trivial | linarith
       · refine (unitCrossed_map0 K _ _ _).trans (Prod.ext ?_ (Prod.ext ?_ ?_)) <;> simp only <;> linarith)
    | (refine ⟨[(0, 0, 0), (0, 2, 0), (1, 1, 0)], by simp [unitCrossed], (v - u, 2 * u, 0), ?_, ?_⟩
       · simp only [Inside]; refine ⟨?_, ?_, ?_, ?_⟩ <;> (try refine ⟨?_, ?_⟩) <;> (try refine ⟨?_, ?_⟩) <;> first | exact trivial | linarith
       · refine (unitCrossed_map1 K _ _ _).trans (Prod.ext ?_ (Prod.ext ?_ ?_)) <;> simp only <;> linarith)
    | (refine ⟨[(2, 0, 0), (2, 2, 0), (1, 1, 0)], by simp [unitCrossed], (u + v - 1, 2 - 2 * u, 0), ?_, ?_⟩
       · simp only [Inside]; refine ⟨?_, ?_, ?_, ?_⟩ <;> (try refine ⟨?_, ?_⟩) <;> (try refine ⟨?_, ?_⟩) <;> first | exact trivial | linarith
       · refine (unitCrossed_map2 K _ _ _).trans (Prod.ext ?_ (Prod.ext ?_ ?_)) <;> simp only <;> linarith)
    | (refine ⟨[(0, 2, 0), (2, 2, 0), (1, 1, 0)], by simp [unitCrossed], (u + v - 1, 2 - 2 * v, 0), ?_, ?_⟩
       · simp only [Inside]; refine ⟨?_, ?_, ?_, ?_⟩ <;> (try refine ⟨?_, ?_⟩) <;> (try refine ⟨?_, ?_⟩) <;> first | exact trivial | linarith
       · refine (unitCrossed_map3 K _ _ _).trans (Prod.ext ?_ (Prod.ext ?_ ?_)) <;> simp only <;> linarith)
  · simp only [unitCrossed, List.pairwise_cons, List.mem_cons, List.not_mem_nil, or_false, forall_eq_or_imp, forall_eq, false_imp_iff, implies_true, and_true, List.Pairwise.nil]
    repeat' apply And.intro
    all_goals
      rintro ⟨x, y, z⟩ ⟨x', y', z'⟩ he
      simp only [unitCrossed_map0, unitCrossed_map1, unitCrossed_map2, unitCrossed_map3, Prod.mk.injEq] at he
      obtain ⟨e1, e2, e3⟩ := he
      simp only [Inner, Inside]
      constructor <;> (rintro ⟨hy, hy'⟩; linarith)
  · rintro l hl ⟨x, y, z⟩ ⟨x', y', z'⟩ hy hy' he
    rw [unitCrossed] at hl; simp only [List.mem_cons, List.not_mem_nil, or_false] at hl
    simp only [Inside] at hy hy'
    rcases hl with rfl | rfl | rfl | rfl <;> simp only [unitCrossed_map0, unitCrossed_map1, unitCrossed_map2, unitCrossed_map3, Prod.mk.injEq] at he <;> refine Prod.ext ?_ (Prod.ext ?_ ?_) <;> simp only <;> linarith

/-- Pattern. -/
def unitTets : List (List Off) := [[(0, 0, 0), (2, 0, 0), (2, 2, 0), (2, 2, 2)], [(0, 0, 0), (2, 0, 0), (2, 2, 2), (2, 0, 2)], [(0, 0, 0), (2, 0, 2), (2, 2, 2), (0, 0, 2)], [(0, 0, 0), (2, 2, 0), (0, 2, 0), (2, 2, 2)], [(0, 0, 0), (0, 2, 2), (0, 0, 2), (2, 2, 2)], [(0, 0, 0), (0, 2, 0), (0, 2, 2), (2, 2, 2)]]

omit [LinearOrder K] [IsStrictOrderedRing K] in
theorem unitTets_map0 [CharZero K] (x y z : K) : umap .tetrahedron [(0, 0, 0), (2, 0, 0), (2, 2, 0), (2, 2, 2)] (x, y, z) = (x + y + z, y + z, z) := by
  simp only [umap, mapTo, List.getD_cons_zero, List.getD_cons_succ, Nat.cast_zero, Nat.cast_ofNat, zero_div, Prod.mk.injEq]
  refine ⟨?_, ?_, ?_⟩ <;> ring

omit [LinearOrder K] [IsStrictOrderedRing K] in
theorem unitTets_map1 [CharZero K] (x y z : K) : umap .tetrahedron [(0, 0, 0), (2, 0, 0), (2, 2, 2), (2, 0, 2)] (x, y, z) = (x + y + z, y, y + z) := by
  simp only [umap, mapTo, List.getD_cons_zero, List.getD_cons_succ, Nat.cast_zero, Nat.cast_ofNat, zero_div, Prod.mk.injEq]
  refine ⟨?_, ?_, ?_⟩ <;> ring

omit [LinearOrder K] [IsStrictOrderedRing K] in
theorem unitTets_map2 [CharZero K] (x y z : K) : umap .tetrahedron [(0, 0, 0), (2, 0, 2), (2, 2, 2), (0, 0, 2)] (x, y, z) = (x + y, y, x + y + z) := by
  simp only [umap, mapTo, List.getD_cons_zero, List.getD_cons_succ, Nat.cast_zero, Nat.cast_ofNat, zero_div, Prod.mk.injEq]
  refine ⟨?_, ?_, ?_⟩ <;> ring

omit [LinearOrder K] [IsStrictOrderedRing K] in
theorem unitTets_map3 [CharZero K] (x y z : K) : umap .tetrahedron [(0, 0, 0), (2, 2, 0), (0, 2, 0), (2, 2, 2)] (x, y, z) = (x + z, x + y + z, z) := by
  simp only [umap, mapTo, List.getD_cons_zero, List.getD_cons_succ, Nat.cast_zero, Nat.cast_ofNat, zero_div, Prod.mk.injEq]
  refine ⟨?_, ?_, ?_⟩ <;> ring

omit [LinearOrder K] [IsStrictOrderedRing K] in
theorem unitTets_map4 [CharZero K] (x y z : K) : umap .tetrahedron [(0, 0, 0), (0, 2, 2), (0, 0, 2), (2, 2, 2)] (x, y, z) = (z, x + z, x + y + z) := by
  simp only [umap, mapTo, List.getD_cons_zero, List.getD_cons_succ, Nat.cast_zero, Nat.cast_ofNat, zero_div, Prod.mk.injEq]
  refine ⟨?_, ?_, ?_⟩ <;> ring

omit [LinearOrder K] [IsStrictOrderedRing K] in
theorem unitTets_map5 [CharZero K] (x y z : K) : umap .tetrahedron [(0, 0, 0), (0, 2, 0), (0, 2, 2), (2, 2, 2)] (x, y, z) = (z, x + y + z, y + z) := by
  simp only [umap, mapTo, List.getD_cons_zero, List.getD_cons_succ, Nat.cast_zero, Nat.cast_ofNat, zero_div, Prod.mk.injEq]
  refine ⟨?_, ?_, ?_⟩ <;> ring

theorem unitTets_tiles : UnitTiles K .tetrahedron unitTets := by
  refine ⟨by decide, ?_, ?_, ?_, ?_, ?_⟩
  · rintro l hl ⟨x, y, z⟩ hy
    rw [unitTets] at hl; simp only [List.mem_cons, List.not_mem_nil, or_false] at hl
    simp only [Inside] at hy
    rcases hl with rfl | rfl | rfl | rfl | rfl | rfl <;> intro a ha <;> interval_cases a <;> simp only [unitTets_map0, unitTets_map1, unitTets_map2, unitTets_map3, unitTets_map4, unitTets_map5, dim, axis] <;> norm_num <;>
      first | linarith | (constructor <;> linarith)
  · rintro l hl ⟨x, y, z⟩ hy
    rw [unitTets] at hl; simp only [List.mem_cons, List.not_mem_nil, or_false] at hl
    simp only [Inner] at hy
    rcases hl with rfl | rfl | rfl | rfl | rfl | rfl <;> intro a ha <;> simp only [dim] at ha <;> interval_cases a <;> simp only [unitTets_map0, unitTets_map1, unitTets_map2, unitTets_map3, unitTets_map4, unitTets_map5, axis] <;> constructor <;> linarith
  · rintro ⟨u, v, w⟩ hu
    have h0 := hu 0 (by omega)
    have h1 := hu 1 (by omega)
    have h2 := hu 2 (by omega)
    simp only [dim, axis] at h0 h1 h2
    norm_num at h0 h1 h2
    rcases le_total u v with s0 | s0 <;> rcases le_total u w with s1 | s1 <;> rcases le_total v w with s2 | s2 <;> first
    | (refine ⟨[(0, 0, 0), (2, 0, 0), (2, 2, 0), (2, 2, 2)], by simp [unitTets], (u - v, v - w, w), ?_, ?_⟩
       · simp only [Inside]; refine ⟨?_, ?_, ?_, ?_⟩ <;> (try refine ⟨?_, ?_⟩) <;> (try refine ⟨?_, ?_⟩) <;> first | exact trivial | linarith
       · refine (unitTets_map0 K _ _ _).trans (Prod.ext ?_ (Prod.ext ?_ ?_)) <;> simp only <;> linarith)
    | (refine ⟨[(0, 0, 0), (2, 0, 0), (2, 2, 2), (2, 0, 2)], by simp [unitTets], (u - w, v, w - v), ?_, ?_⟩
       · simp only [Inside]; refine ⟨?_, ?_, ?_, ?_⟩ <;> (try refine ⟨?_, ?_⟩) <;> (try refine ⟨?_, ?_⟩) <;> first | exact trivial | linarith
       · refine (unitTets_map1 K _ _ _).trans (Prod.ext ?_ (Prod.ext ?_ ?_)) <;> simp only <;> linarith)
    | (refine ⟨[(0, 0, 0), (2, 0, 2), (2, 2, 2), (0, 0, 2)], by simp [unitTets], (u - v, v, w - u), ?_, ?_⟩
       · simp only [Inside]; refine ⟨?_, ?_, ?_, ?_⟩ <;> (try refine ⟨?_, ?_⟩) <;> (try refine ⟨?_, ?_⟩) <;> first | exact trivial | linarith
       · refine (unitTets_map2 K _ _ _).trans (Prod.ext ?_ (Prod.ext ?_ ?_)) <;> simp only <;> linarith)
    | (refine ⟨[(0, 0, 0), (2, 2, 0), (0, 2, 0), (2, 2, 2)], by simp [unitTets], (u - w, v - u, w), ?_, ?_⟩
       · simp only [Inside]; refine ⟨?_, ?_, ?_, ?_⟩ <;> (try refine ⟨?_, ?_⟩) <;> (try refine ⟨?_, ?_⟩) <;> first | exact trivial | linarith
       · refine (unitTets_map3 K _ _ _).trans (Prod.ext ?_ (Prod.ext ?_ ?_)) <;> simp only <;> linarith)
    | (refine ⟨[(0, 0, 0), (0, 2, 2), (0, 0, 2), (2, 2, 2)], by simp [unitTets], (v - u, w - v, u), ?_, ?_⟩
       · simp only [Inside]; refine ⟨?_, ?_, ?_, ?_⟩ <;> (try refine ⟨?_, ?_⟩) <;> (try refine ⟨?_, ?_⟩) <;> first | exact trivial | linarith
       · refine (unitTets_map4 K _ _ _).trans (Prod.ext ?_ (Prod.ext ?_ ?_)) <;> simp only <;> linarith)
    | (refine ⟨[(0, 0, 0), (0, 2, 0), (0, 2, 2), (2, 2, 2)], by simp [unitTets], (v - w, w - u, u), ?_, ?_⟩
       · simp only [Inside]; refine ⟨?_, ?_, ?_, ?_⟩ <;> (try refine ⟨?_, ?_⟩) <;> (try refine ⟨?_, ?_⟩) <;> first | exact trivial | linarith
       · refine (unitTets_map5 K _ _ _).trans (Prod.ext ?_ (Prod.ext ?_ ?_)) <;> simp only <;> linarith)
  · simp only [unitTets, List.pairwise_cons, List.mem_cons, List.not_mem_nil, or_false, forall_eq_or_imp, forall_eq, false_imp_iff, implies_true, and_true, List.Pairwise.nil]
    repeat' apply And.intro
    all_goals
      rintro ⟨x, y, z⟩ ⟨x', y', z'⟩ he
      simp only [unitTets_map0, unitTets_map1, unitTets_map2, unitTets_map3, unitTets_map4, unitTets_map5, Prod.mk.injEq] at he
      obtain ⟨e1, e2, e3⟩ := he
      simp only [Inner, Inside]
      constructor <;> (rintro ⟨hy, hy'⟩; linarith)
  · rintro l hl ⟨x, y, z⟩ ⟨x', y', z'⟩ hy hy' he
    rw [unitTets] at hl; simp only [List.mem_cons, List.not_mem_nil, or_false] at hl
    simp only [Inside] at hy hy'
    rcases hl with rfl | rfl | rfl | rfl | rfl | rfl <;> simp only [unitTets_map0, unitTets_map1, unitTets_map2, unitTets_map3, unitTets_map4, unitTets_map5, Prod.mk.injEq] at he <;> refine Prod.ext ?_ (Prod.ext ?_ ?_) <;> simp only <;> linarith

/-- Pattern. -/
def unitHex : List (List Off) := [[(0, 0, 0), (2, 0, 0), (0, 2, 0), (2, 2, 0), (0, 0, 2), (2, 0, 2), (0, 2, 2), (2, 2, 2)]]

omit [LinearOrder K] [IsStrictOrderedRing K] in
theorem unitHex_map0 [CharZero K] (x y z : K) : umap .hexahedron [(0, 0, 0), (2, 0, 0), (0, 2, 0), (2, 2, 0), (0, 0, 2), (2, 0, 2), (0, 2, 2), (2, 2, 2)] (x, y, z) = (x, y, z) := by
  simp only [umap, mapTo, List.getD_cons_zero, List.getD_cons_succ, Nat.cast_zero, Nat.cast_ofNat, zero_div, Prod.mk.injEq]
  refine ⟨?_, ?_, ?_⟩ <;> ring

theorem unitHex_tiles : UnitTiles K .hexahedron unitHex := by
  refine ⟨by decide, ?_, ?_, ?_, ?_, ?_⟩
  · rintro l hl ⟨x, y, z⟩ hy
    rw [unitHex] at hl; simp only [List.mem_cons, List.not_mem_nil, or_false] at hl
    simp only [Inside] at hy
    rcases hl with rfl <;> intro a ha <;> interval_cases a <;> simp only [unitHex_map0, dim, axis] <;> norm_num <;>
      first | linarith | (constructor <;> linarith)
  · rintro l hl ⟨x, y, z⟩ hy
    rw [unitHex] at hl; simp only [List.mem_cons, List.not_mem_nil, or_false] at hl
    simp only [Inner] at hy
    rcases hl with rfl <;> intro a ha <;> simp only [dim] at ha <;> interval_cases a <;> simp only [unitHex_map0, axis] <;> constructor <;> linarith
  · rintro ⟨u, v, w⟩ hu
    have h0 := hu 0 (by omega)
    have h1 := hu 1 (by omega)
    have h2 := hu 2 (by omega)
    simp only [dim, axis] at h0 h1 h2
    norm_num at h0 h1 h2
    first
    | (refine ⟨[(0, 0, 0), (2, 0, 0), (0, 2, 0), (2, 2, 0), (0, 0, 2), (2, 0, 2), (0, 2, 2), (2, 2, 2)], by simp [unitHex], (u, v, w), ?_, ?_⟩
       · simp only [Inside]; refine ⟨?_, ?_, ?_, ?_⟩ <;> (try refine ⟨?_, ?_⟩) <;> (try refine ⟨?_, ?_⟩) <;> first | exact trivial | linarith
       · refine (unitHex_map0 K _ _ _).trans (Prod.ext ?_ (Prod.ext ?_ ?_)) <;> simp only <;> linarith)
  · rw [unitHex]; exact List.pairwise_singleton _ _
  · rintro l hl ⟨x, y, z⟩ ⟨x', y', z'⟩ hy hy' he
    rw [unitHex] at hl; simp only [List.mem_cons, List.not_mem_nil, or_false] at hl
    simp only [Inside] at hy hy'
    rcases hl with rfl <;> simp only [unitHex_map0, Prod.mk.injEq] at he <;> refine Prod.ext ?_ (Prod.ext ?_ ?_) <;> simp only <;> linarith

/-- Pattern. -/
def unitPrisms : List (List Off) := [[(0, 0, 0), (2, 0, 0), (0, 2, 0), (0, 0, 2), (2, 0, 2), (0, 2, 2)], [(2, 0, 0), (0, 2, 0), (2, 2, 0), (2, 0, 2), (0, 2, 2), (2, 2, 2)]]

omit [LinearOrder K] [IsStrictOrderedRing K] in
theorem unitPrisms_map0 [CharZero K] (x y z : K) : umap .prism [(0, 0, 0), (2, 0, 0), (0, 2, 0), (0, 0, 2), (2, 0, 2), (0, 2, 2)] (x, y, z) = (x, y, z) := by
  simp only [umap, mapTo, List.getD_cons_zero, List.getD_cons_succ, Nat.cast_zero, Nat.cast_ofNat, zero_div, Prod.mk.injEq]
  refine ⟨?_, ?_, ?_⟩ <;> ring

omit [LinearOrder K] [IsStrictOrderedRing K] in
theorem unitPrisms_map1 [CharZero K] (x y z : K) : umap .prism [(2, 0, 0), (0, 2, 0), (2, 2, 0), (2, 0, 2), (0, 2, 2), (2, 2, 2)] (x, y, z) = (1 - x, x + y, z) := by
  simp only [umap, mapTo, List.getD_cons_zero, List.getD_cons_succ, Nat.cast_zero, Nat.cast_ofNat, zero_div, Prod.mk.injEq]
  refine ⟨?_, ?_, ?_⟩ <;> ring

theorem unitPrisms_tiles : UnitTiles K .prism unitPrisms := by
  refine ⟨by decide, ?_, ?_, ?_, ?_, ?_⟩
  · rintro l hl ⟨x, y, z⟩ hy
    rw [unitPrisms] at hl; simp only [List.mem_cons, List.not_mem_nil, or_false] at hl
    simp only [Inside] at hy
    rcases hl with rfl | rfl <;> intro a ha <;> interval_cases a <;> simp only [unitPrisms_map0, unitPrisms_map1, dim, axis] <;> norm_num <;>
      first | linarith | (constructor <;> linarith)
  · rintro l hl ⟨x, y, z⟩ hy
    rw [unitPrisms] at hl; simp only [List.mem_cons, List.not_mem_nil, or_false] at hl
    simp only [Inner] at hy
    rcases hl with rfl | rfl <;> intro a ha <;> simp only [dim] at ha <;> interval_cases a <;> simp only [unitPrisms_map0, unitPrisms_map1, axis] <;> constructor <;> linarith
  · rintro ⟨u, v, w⟩ hu
    have h0 := hu 0 (by omega)
    have h1 := hu 1 (by omega)
    have h2 := hu 2 (by omega)
    simp only [dim, axis] at h0 h1 h2
    norm_num at h0 h1 h2
    rcases le_total (u + v) 1 with s0 | s0 <;> first
    | (refine ⟨[(0, 0, 0), (2, 0, 0), (0, 2, 0), (0, 0, 2), (2, 0, 2), (0, 2, 2)], by simp [unitPrisms], (u, v, w), ?_, ?_⟩
       · simp only [Inside]; refine ⟨?_, ?_, ?_, ?_⟩ <;> (try refine ⟨?_, ?_⟩) <;> (try refine ⟨?_, ?_⟩) <;> first | exact trivial | linarith
       · refine (unitPrisms_map0 K _ _ _).trans (Prod.ext ?_ (Prod.ext ?_ ?_)) <;> simp only <;> linarith)
    | (refine ⟨[(2, 0, 0), (0, 2, 0), (2, 2, 0), (2, 0, 2), (0, 2, 2), (2, 2, 2)], by simp [unitPrisms], (1 - u, u + v - 1, w), ?_, ?_⟩
       · simp only [Inside]; refine ⟨?_, ?_, ?_, ?_⟩ <;> (try refine ⟨?_, ?_⟩) <;> (try refine ⟨?_, ?_⟩) <;> first | exact trivial | linarith
       · refine (unitPrisms_map1 K _ _ _).trans (Prod.ext ?_ (Prod.ext ?_ ?_)) <;> simp only <;> linarith)
  · simp only [unitPrisms, List.pairwise_cons, List.mem_cons, List.not_mem_nil, or_false, forall_eq, false_imp_iff, implies_true, and_true, List.Pairwise.nil]
    repeat' apply And.intro
    all_goals
      rintro ⟨x, y, z⟩ ⟨x', y', z'⟩ he
      simp only [unitPrisms_map0, unitPrisms_map1, Prod.mk.injEq] at he
      obtain ⟨e1, e2, e3⟩ := he
      simp only [Inner, Inside]
      constructor <;> (rintro ⟨hy, hy'⟩; linarith)
  · rintro l hl ⟨x, y, z⟩ ⟨x', y', z'⟩ hy hy' he
    rw [unitPrisms] at hl; simp only [List.mem_cons, List.not_mem_nil, or_false] at hl
    simp only [Inside] at hy hy'
    rcases hl with rfl | rfl <;> simp only [unitPrisms_map0, unitPrisms_map1, Prod.mk.injEq] at he <;> refine Prod.ext ?_ (Prod.ext ?_ ?_) <;> simp only <;> linarith

end Verif.Lattice
