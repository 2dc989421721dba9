import Verif.Spec.ReferenceCell
import Mathlib.Tactic.Ring
import Mathlib.Tactic.Linarith
import Mathlib.Tactic.NormNum
/-! The new cells of uniform refinement tile the reference cells. -/
namespace Verif.Uniform
open Verif.Spec.RefCell
open Verif.Connectivity (CellType)

variable {K : Type} [Field K] [LinearOrder K] [IsStrictOrderedRing K]

theorem triangle_0 (x y z : K) : mapRef .triangle .triangle [0, 4, 5] (x, y, z) = (y / 2, x / 2, 0) := by
  simp [mapRef, mapTo, newPos, mean, pts, vertex]
  refine ⟨?_, ?_⟩ <;> ring

theorem triangle_1 (x y z : K) : mapRef .triangle .triangle [1, 5, 3] (x, y, z) = (-x / 2 - y / 2 + 1, y / 2, 0) := by
  simp [mapRef, mapTo, newPos, mean, pts, vertex]
  refine ⟨?_, ?_⟩ <;> ring

theorem triangle_2 (x y z : K) : mapRef .triangle .triangle [2, 3, 4] (x, y, z) = (x / 2, -x / 2 - y / 2 + 1, 0) := by
  simp [mapRef, mapTo, newPos, mean, pts, vertex]
  refine ⟨?_, ?_⟩ <;> ring

theorem triangle_3 (x y z : K) : mapRef .triangle .triangle [3, 4, 5] (x, y, z) = (-x / 2 + 1/2, -y / 2 + 1/2, 0) := by
  simp [mapRef, mapTo, newPos, mean, pts, vertex]
  refine ⟨?_, ?_⟩ <;> ring

theorem triangle_maps : ∀ l ∈ [[0, 4, 5], [1, 5, 3], [2, 3, 4], [3, 4, 5]], ∀ (p : Nat → K) (x : K × K × K), mapTo .triangle (newPos .triangle p l) x = mapTo .triangle p (mapRef .triangle .triangle l x) := by
  · intro l hl p x
    obtain ⟨x, y, z⟩ := x
    simp only [List.mem_cons, List.not_mem_nil, or_false] at hl
    rcases hl with rfl | rfl | rfl | rfl
    · rw [triangle_0]; simp [mapTo, newPos, mean, pts]; ring
    · rw [triangle_1]; simp [mapTo, newPos, mean, pts]; ring
    · rw [triangle_2]; simp [mapTo, newPos, mean, pts]; ring
    · rw [triangle_3]; simp [mapTo, newPos, mean, pts]; ring

theorem triangle_inside : ∀ l ∈ [[0, 4, 5], [1, 5, 3], [2, 3, 4], [3, 4, 5]], ∀ x : K × K × K, Inside .triangle x → Inside .triangle (mapRef .triangle .triangle l x) := by
  · intro l hl x hx
    obtain ⟨x, y, z⟩ := x
    obtain ⟨a1, a2, a3, a9⟩ := hx
    simp only [List.mem_cons, List.not_mem_nil, or_false] at hl
    rcases hl with rfl | rfl | rfl | rfl
    · rw [triangle_0]; exact ⟨by linarith, by linarith, by linarith, rfl⟩
    · rw [triangle_1]; exact ⟨by linarith, by linarith, by linarith, rfl⟩
    · rw [triangle_2]; exact ⟨by linarith, by linarith, by linarith, rfl⟩
    · rw [triangle_3]; exact ⟨by linarith, by linarith, by linarith, rfl⟩

theorem triangle_cover : ∀ x : K × K × K, Inside .triangle x → ∃ l ∈ ([[0, 4, 5], [1, 5, 3], [2, 3, 4], [3, 4, 5]] : List (List Nat)), ∃ y, Inside .triangle y ∧ mapRef .triangle .triangle l y = x := by
  · intro x hx
    obtain ⟨x, y, z⟩ := x
    obtain ⟨a1, a2, a3, rfl⟩ := hx
    rcases le_total (x) (1 / 2) with h0 | h0
    · rcases le_total (y) (1 / 2) with h1 | h1
      · rcases le_total (x + y) (1 / 2) with h2 | h2
        · refine ⟨[0, 4, 5], by simp, (2 * y, 2 * x, 0), ⟨by linarith, by linarith, by linarith, rfl⟩, ?_⟩
          rw [triangle_0]
          ext <;> simp only <;> linarith
        · refine ⟨[3, 4, 5], by simp, (-2 * x + 1, -2 * y + 1, 0), ⟨by linarith, by linarith, by linarith, rfl⟩, ?_⟩
          rw [triangle_3]
          ext <;> simp only <;> linarith
      · refine ⟨[2, 3, 4], by simp, (2 * x, -2 * x - 2 * y + 2, 0), ⟨by linarith, by linarith, by linarith, rfl⟩, ?_⟩
        rw [triangle_2]
        ext <;> simp only <;> linarith
    · refine ⟨[1, 5, 3], by simp, (-2 * x - 2 * y + 2, 2 * y, 0), ⟨by linarith, by linarith, by linarith, rfl⟩, ?_⟩
      rw [triangle_1]
      ext <;> simp only <;> linarith

theorem triangle_apart : ([[0, 4, 5], [1, 5, 3], [2, 3, 4], [3, 4, 5]] : List (List Nat)).Pairwise fun l l' => ∀ x y : K × K × K, mapRef .triangle .triangle l x = mapRef .triangle .triangle l' y →
    ¬ (Inner .triangle x ∧ Inside .triangle y) ∧ ¬ (Inside .triangle x ∧ Inner .triangle y) := by
  · simp only [List.pairwise_cons, List.mem_cons, List.not_mem_nil, or_false, List.Pairwise.nil, and_true, forall_eq_or_imp, forall_eq, IsEmpty.forall_iff, implies_true, and_assoc]
    refine ⟨?_, ?_, ?_, ?_, ?_, ?_⟩ <;>
    · rintro ⟨x, y, z⟩ ⟨x', y', z'⟩ h
      simp only [triangle_0, triangle_1, triangle_2, triangle_3, Prod.mk.injEq] at h
      obtain ⟨e1, e2, e3⟩ := h
      constructor <;>
      · rintro ⟨⟨a1, a2, a3, a9⟩, ⟨b1, b2, b3, b9⟩⟩
        linarith

theorem triangle_proper : ∀ l ∈ [[0, 4, 5], [1, 5, 3], [2, 3, 4], [3, 4, 5]], ∀ x y : K × K × K, Inside .triangle x → Inside .triangle y → mapRef .triangle .triangle l x = mapRef .triangle .triangle l y → x = y := by
  · intro l hl x y hx hy
    obtain ⟨x, y', z⟩ := x
    obtain ⟨u, v, w⟩ := y
    obtain ⟨a1, a2, a3, a9⟩ := hx
    obtain ⟨b1, b2, b3, b9⟩ := hy
    simp only [List.mem_cons, List.not_mem_nil, or_false] at hl
    rcases hl with rfl | rfl | rfl | rfl
    · simp only [triangle_0, Prod.mk.injEq]; rintro ⟨e1, e2, e3⟩; exact ⟨by linarith, by linarith, by linarith⟩
    · simp only [triangle_1, Prod.mk.injEq]; rintro ⟨e1, e2, e3⟩; exact ⟨by linarith, by linarith, by linarith⟩
    · simp only [triangle_2, Prod.mk.injEq]; rintro ⟨e1, e2, e3⟩; exact ⟨by linarith, by linarith, by linarith⟩
    · simp only [triangle_3, Prod.mk.injEq]; rintro ⟨e1, e2, e3⟩; exact ⟨by linarith, by linarith, by linarith⟩

theorem triangle_tiles : Tiles K .triangle [[0, 4, 5], [1, 5, 3], [2, 3, 4], [3, 4, 5]] := ⟨triangle_maps, triangle_inside, triangle_cover, triangle_apart, triangle_proper⟩

theorem quadrilateral_0 (x y z : K) : mapRef .quadrilateral .quadrilateral [0, 4, 5, 8] (x, y, z) = (x / 2, y / 2, 0) := by
  simp [mapRef, mapTo, newPos, mean, pts, vertex]
  refine ⟨?_, ?_⟩ <;> ring

theorem quadrilateral_1 (x y z : K) : mapRef .quadrilateral .quadrilateral [1, 6, 4, 8] (x, y, z) = (-y / 2 + 1, x / 2, 0) := by
  simp [mapRef, mapTo, newPos, mean, pts, vertex]
  refine ⟨?_, ?_⟩ <;> ring

theorem quadrilateral_2 (x y z : K) : mapRef .quadrilateral .quadrilateral [2, 7, 5, 8] (x, y, z) = (x / 2, -y / 2 + 1, 0) := by
  simp [mapRef, mapTo, newPos, mean, pts, vertex]
  refine ⟨?_, ?_⟩ <;> ring

theorem quadrilateral_3 (x y z : K) : mapRef .quadrilateral .quadrilateral [3, 7, 6, 8] (x, y, z) = (-x / 2 + 1, -y / 2 + 1, 0) := by
  simp [mapRef, mapTo, newPos, mean, pts, vertex]
  refine ⟨?_, ?_⟩ <;> ring

theorem quadrilateral_maps : ∀ l ∈ [[0, 4, 5, 8], [1, 6, 4, 8], [2, 7, 5, 8], [3, 7, 6, 8]], ∀ (p : Nat → K) (x : K × K × K), mapTo .quadrilateral (newPos .quadrilateral p l) x = mapTo .quadrilateral p (mapRef .quadrilateral .quadrilateral l x) := by
  · intro l hl p x
    obtain ⟨x, y, z⟩ := x
    simp only [List.mem_cons, List.not_mem_nil, or_false] at hl
    rcases hl with rfl | rfl | rfl | rfl
    · rw [quadrilateral_0]; simp [mapTo, newPos, mean, pts]; ring
    · rw [quadrilateral_1]; simp [mapTo, newPos, mean, pts]; ring
    · rw [quadrilateral_2]; simp [mapTo, newPos, mean, pts]; ring
    · rw [quadrilateral_3]; simp [mapTo, newPos, mean, pts]; ring

theorem quadrilateral_inside : ∀ l ∈ [[0, 4, 5, 8], [1, 6, 4, 8], [2, 7, 5, 8], [3, 7, 6, 8]], ∀ x : K × K × K, Inside .quadrilateral x → Inside .quadrilateral (mapRef .quadrilateral .quadrilateral l x) := by
  · intro l hl x hx
    obtain ⟨x, y, z⟩ := x
    obtain ⟨a1, a2, a3, a4, a9⟩ := hx
    simp only [List.mem_cons, List.not_mem_nil, or_false] at hl
    rcases hl with rfl | rfl | rfl | rfl
    · rw [quadrilateral_0]; exact ⟨by linarith, by linarith, by linarith, by linarith, rfl⟩
    · rw [quadrilateral_1]; exact ⟨by linarith, by linarith, by linarith, by linarith, rfl⟩
    · rw [quadrilateral_2]; exact ⟨by linarith, by linarith, by linarith, by linarith, rfl⟩
    · rw [quadrilateral_3]; exact ⟨by linarith, by linarith, by linarith, by linarith, rfl⟩

theorem quadrilateral_cover : ∀ x : K × K × K, Inside .quadrilateral x → ∃ l ∈ ([[0, 4, 5, 8], [1, 6, 4, 8], [2, 7, 5, 8], [3, 7, 6, 8]] : List (List Nat)), ∃ y, Inside .quadrilateral y ∧ mapRef .quadrilateral .quadrilateral l y = x := by
  · intro x hx
    obtain ⟨x, y, z⟩ := x
    obtain ⟨a1, a2, a3, a4, rfl⟩ := hx
    rcases le_total (x) (1 / 2) with h0 | h0
    · rcases le_total (y) (1 / 2) with h1 | h1
      · refine ⟨[0, 4, 5, 8], by simp, (2 * x, 2 * y, 0), ⟨by linarith, by linarith, by linarith, by linarith, rfl⟩, ?_⟩
        rw [quadrilateral_0]
        ext <;> simp only <;> linarith
      · refine ⟨[2, 7, 5, 8], by simp, (2 * x, -2 * y + 2, 0), ⟨by linarith, by linarith, by linarith, by linarith, rfl⟩, ?_⟩
        rw [quadrilateral_2]
        ext <;> simp only <;> linarith
    · rcases le_total (y) (1 / 2) with h1 | h1
      · refine ⟨[1, 6, 4, 8], by simp, (2 * y, -2 * x + 2, 0), ⟨by linarith, by linarith, by linarith, by linarith, rfl⟩, ?_⟩
        rw [quadrilateral_1]
        ext <;> simp only <;> linarith
      · refine ⟨[3, 7, 6, 8], by simp, (-2 * x + 2, -2 * y + 2, 0), ⟨by linarith, by linarith, by linarith, by linarith, rfl⟩, ?_⟩
        rw [quadrilateral_3]
        ext <;> simp only <;> linarith

theorem quadrilateral_apart : ([[0, 4, 5, 8], [1, 6, 4, 8], [2, 7, 5, 8], [3, 7, 6, 8]] : List (List Nat)).Pairwise fun l l' => ∀ x y : K × K × K, mapRef .quadrilateral .quadrilateral l x = mapRef .quadrilateral .quadrilateral l' y →
    ¬ (Inner .quadrilateral x ∧ Inside .quadrilateral y) ∧ ¬ (Inside .quadrilateral x ∧ Inner .quadrilateral y) := by
  · simp only [List.pairwise_cons, List.mem_cons, List.not_mem_nil, or_false, List.Pairwise.nil, and_true, forall_eq_or_imp, forall_eq, IsEmpty.forall_iff, implies_true, and_assoc]
    refine ⟨?_, ?_, ?_, ?_, ?_, ?_⟩ <;>
    · rintro ⟨x, y, z⟩ ⟨x', y', z'⟩ h
      simp only [quadrilateral_0, quadrilateral_1, quadrilateral_2, quadrilateral_3, Prod.mk.injEq] at h
      obtain ⟨e1, e2, e3⟩ := h
      constructor <;>
      · rintro ⟨⟨a1, a2, a3, a4, a9⟩, ⟨b1, b2, b3, b4, b9⟩⟩
        linarith

theorem quadrilateral_proper : ∀ l ∈ [[0, 4, 5, 8], [1, 6, 4, 8], [2, 7, 5, 8], [3, 7, 6, 8]], ∀ x y : K × K × K, Inside .quadrilateral x → Inside .quadrilateral y → mapRef .quadrilateral .quadrilateral l x = mapRef .quadrilateral .quadrilateral l y → x = y := by
  · intro l hl x y hx hy
    obtain ⟨x, y', z⟩ := x
    obtain ⟨u, v, w⟩ := y
    obtain ⟨a1, a2, a3, a4, a9⟩ := hx
    obtain ⟨b1, b2, b3, b4, b9⟩ := hy
    simp only [List.mem_cons, List.not_mem_nil, or_false] at hl
    rcases hl with rfl | rfl | rfl | rfl
    · simp only [quadrilateral_0, Prod.mk.injEq]; rintro ⟨e1, e2, e3⟩; exact ⟨by linarith, by linarith, by linarith⟩
    · simp only [quadrilateral_1, Prod.mk.injEq]; rintro ⟨e1, e2, e3⟩; exact ⟨by linarith, by linarith, by linarith⟩
    · simp only [quadrilateral_2, Prod.mk.injEq]; rintro ⟨e1, e2, e3⟩; exact ⟨by linarith, by linarith, by linarith⟩
    · simp only [quadrilateral_3, Prod.mk.injEq]; rintro ⟨e1, e2, e3⟩; exact ⟨by linarith, by linarith, by linarith⟩

theorem quadrilateral_tiles : Tiles K .quadrilateral [[0, 4, 5, 8], [1, 6, 4, 8], [2, 7, 5, 8], [3, 7, 6, 8]] := ⟨quadrilateral_maps, quadrilateral_inside, quadrilateral_cover, quadrilateral_apart, quadrilateral_proper⟩

theorem tetrahedron_0 (x y z : K) : mapRef .tetrahedron .tetrahedron [0, 7, 8, 9] (x, y, z) = (z / 2, y / 2, x / 2) := by
  simp [mapRef, mapTo, newPos, mean, pts, vertex]
  refine ⟨?_, ?_, ?_⟩ <;> ring

theorem tetrahedron_1 (x y z : K) : mapRef .tetrahedron .tetrahedron [1, 5, 6, 9] (x, y, z) = (-x / 2 - y / 2 - z / 2 + 1, y / 2, x / 2) := by
  simp [mapRef, mapTo, newPos, mean, pts, vertex]
  refine ⟨?_, ?_, ?_⟩ <;> ring

theorem tetrahedron_2 (x y z : K) : mapRef .tetrahedron .tetrahedron [2, 4, 6, 8] (x, y, z) = (y / 2, -x / 2 - y / 2 - z / 2 + 1, x / 2) := by
  simp [mapRef, mapTo, newPos, mean, pts, vertex]
  refine ⟨?_, ?_, ?_⟩ <;> ring

theorem tetrahedron_3 (x y z : K) : mapRef .tetrahedron .tetrahedron [3, 4, 5, 7] (x, y, z) = (y / 2, x / 2, -x / 2 - y / 2 - z / 2 + 1) := by
  simp [mapRef, mapTo, newPos, mean, pts, vertex]
  refine ⟨?_, ?_, ?_⟩ <;> ring

theorem tetrahedron_4 (x y z : K) : mapRef .tetrahedron .tetrahedron [9, 4, 6, 8] (x, y, z) = (-x / 2 - z / 2 + 1/2, x / 2 + y / 2 + z / 2, x / 2) := by
  simp [mapRef, mapTo, newPos, mean, pts, vertex]
  refine ⟨?_, ?_, ?_⟩ <;> ring

theorem tetrahedron_5 (x y z : K) : mapRef .tetrahedron .tetrahedron [9, 4, 8, 7] (x, y, z) = (-x / 2 - y / 2 - z / 2 + 1/2, x / 2 + y / 2, x / 2 + z / 2) := by
  simp [mapRef, mapTo, newPos, mean, pts, vertex]
  refine ⟨?_, ?_, ?_⟩ <;> ring

theorem tetrahedron_6 (x y z : K) : mapRef .tetrahedron .tetrahedron [9, 4, 7, 5] (x, y, z) = (-x / 2 - y / 2 + 1/2, x / 2, x / 2 + y / 2 + z / 2) := by
  simp [mapRef, mapTo, newPos, mean, pts, vertex]
  refine ⟨?_, ?_, ?_⟩ <;> ring

theorem tetrahedron_7 (x y z : K) : mapRef .tetrahedron .tetrahedron [9, 4, 5, 6] (x, y, z) = (-x / 2 + 1/2, x / 2 + z / 2, x / 2 + y / 2) := by
  simp [mapRef, mapTo, newPos, mean, pts, vertex]
  refine ⟨?_, ?_, ?_⟩ <;> ring

theorem tetrahedron_maps : ∀ l ∈ [[0, 7, 8, 9], [1, 5, 6, 9], [2, 4, 6, 8], [3, 4, 5, 7], [9, 4, 6, 8], [9, 4, 8, 7], [9, 4, 7, 5], [9, 4, 5, 6]], ∀ (p : Nat → K) (x : K × K × K), mapTo .tetrahedron (newPos .tetrahedron p l) x = mapTo .tetrahedron p (mapRef .tetrahedron .tetrahedron l x) := by
  · intro l hl p x
    obtain ⟨x, y, z⟩ := x
    simp only [List.mem_cons, List.not_mem_nil, or_false] at hl
    rcases hl with rfl | rfl | rfl | rfl | rfl | rfl | rfl | rfl
    · rw [tetrahedron_0]; simp [mapTo, newPos, mean, pts]; ring
    · rw [tetrahedron_1]; simp [mapTo, newPos, mean, pts]; ring
    · rw [tetrahedron_2]; simp [mapTo, newPos, mean, pts]; ring
    · rw [tetrahedron_3]; simp [mapTo, newPos, mean, pts]; ring
    · rw [tetrahedron_4]; simp [mapTo, newPos, mean, pts]; ring
    · rw [tetrahedron_5]; simp [mapTo, newPos, mean, pts]; ring
    · rw [tetrahedron_6]; simp [mapTo, newPos, mean, pts]; ring
    · rw [tetrahedron_7]; simp [mapTo, newPos, mean, pts]; ring

theorem tetrahedron_inside : ∀ l ∈ [[0, 7, 8, 9], [1, 5, 6, 9], [2, 4, 6, 8], [3, 4, 5, 7], [9, 4, 6, 8], [9, 4, 8, 7], [9, 4, 7, 5], [9, 4, 5, 6]], ∀ x : K × K × K, Inside .tetrahedron x → Inside .tetrahedron (mapRef .tetrahedron .tetrahedron l x) := by
  · intro l hl x hx
    obtain ⟨x, y, z⟩ := x
    obtain ⟨a1, a2, a3, a4⟩ := hx
    simp only [List.mem_cons, List.not_mem_nil, or_false] at hl
    rcases hl with rfl | rfl | rfl | rfl | rfl | rfl | rfl | rfl
    · rw [tetrahedron_0]; exact ⟨by linarith, by linarith, by linarith, by linarith⟩
    · rw [tetrahedron_1]; exact ⟨by linarith, by linarith, by linarith, by linarith⟩
    · rw [tetrahedron_2]; exact ⟨by linarith, by linarith, by linarith, by linarith⟩
    · rw [tetrahedron_3]; exact ⟨by linarith, by linarith, by linarith, by linarith⟩
    · rw [tetrahedron_4]; exact ⟨by linarith, by linarith, by linarith, by linarith⟩
    · rw [tetrahedron_5]; exact ⟨by linarith, by linarith, by linarith, by linarith⟩
    · rw [tetrahedron_6]; exact ⟨by linarith, by linarith, by linarith, by linarith⟩
    · rw [tetrahedron_7]; exact ⟨by linarith, by linarith, by linarith, by linarith⟩

theorem tetrahedron_cover : ∀ x : K × K × K, Inside .tetrahedron x → ∃ l ∈ ([[0, 7, 8, 9], [1, 5, 6, 9], [2, 4, 6, 8], [3, 4, 5, 7], [9, 4, 6, 8], [9, 4, 8, 7], [9, 4, 7, 5], [9, 4, 5, 6]] : List (List Nat)), ∃ y, Inside .tetrahedron y ∧ mapRef .tetrahedron .tetrahedron l y = x := by
  · intro x hx
    obtain ⟨x, y, z⟩ := x
    obtain ⟨a1, a2, a3, a4⟩ := hx
    rcases le_total (x) (1 / 2) with h0 | h0
    · rcases le_total (y) (1 / 2) with h1 | h1
      · rcases le_total (z) (1 / 2) with h2 | h2
        · rcases le_total (x + y + z) (1 / 2) with h3 | h3
          · refine ⟨[0, 7, 8, 9], by simp, (2 * z, 2 * y, 2 * x), ⟨by linarith, by linarith, by linarith, by linarith⟩, ?_⟩
            rw [tetrahedron_0]
            ext <;> simp only <;> linarith
          · rcases le_total (x + z) (1 / 2) with h4 | h4
            · rcases le_total (x + y) (1 / 2) with h5 | h5
              · refine ⟨[9, 4, 8, 7], by simp, (2 * x + 2 * y + 2 * z - 1, -2 * x - 2 * z + 1, -2 * x - 2 * y + 1), ⟨by linarith, by linarith, by linarith, by linarith⟩, ?_⟩
                rw [tetrahedron_5]
                ext <;> simp only <;> linarith
              · refine ⟨[9, 4, 6, 8], by simp, (2 * z, 2 * x + 2 * y - 1, -2 * x - 2 * z + 1), ⟨by linarith, by linarith, by linarith, by linarith⟩, ?_⟩
                rw [tetrahedron_4]
                ext <;> simp only <;> linarith
            · rcases le_total (x + y) (1 / 2) with h5 | h5
              · refine ⟨[9, 4, 7, 5], by simp, (2 * y, -2 * x - 2 * y + 1, 2 * x + 2 * z - 1), ⟨by linarith, by linarith, by linarith, by linarith⟩, ?_⟩
                rw [tetrahedron_6]
                ext <;> simp only <;> linarith
              · refine ⟨[9, 4, 5, 6], by simp, (-2 * x + 1, 2 * x + 2 * z - 1, 2 * x + 2 * y - 1), ⟨by linarith, by linarith, by linarith, by linarith⟩, ?_⟩
                rw [tetrahedron_7]
                ext <;> simp only <;> linarith
        · refine ⟨[3, 4, 5, 7], by simp, (2 * y, 2 * x, -2 * x - 2 * y - 2 * z + 2), ⟨by linarith, by linarith, by linarith, by linarith⟩, ?_⟩
          rw [tetrahedron_3]
          ext <;> simp only <;> linarith
      · refine ⟨[2, 4, 6, 8], by simp, (2 * z, 2 * x, -2 * x - 2 * y - 2 * z + 2), ⟨by linarith, by linarith, by linarith, by linarith⟩, ?_⟩
        rw [tetrahedron_2]
        ext <;> simp only <;> linarith
    · refine ⟨[1, 5, 6, 9], by simp, (2 * z, 2 * y, -2 * x - 2 * y - 2 * z + 2), ⟨by linarith, by linarith, by linarith, by linarith⟩, ?_⟩
      rw [tetrahedron_1]
      ext <;> simp only <;> linarith

theorem tetrahedron_apart : ([[0, 7, 8, 9], [1, 5, 6, 9], [2, 4, 6, 8], [3, 4, 5, 7], [9, 4, 6, 8], [9, 4, 8, 7], [9, 4, 7, 5], [9, 4, 5, 6]] : List (List Nat)).Pairwise fun l l' => ∀ x y : K × K × K, mapRef .tetrahedron .tetrahedron l x = mapRef .tetrahedron .tetrahedron l' y →
    ¬ (Inner .tetrahedron x ∧ Inside .tetrahedron y) ∧ ¬ (Inside .tetrahedron x ∧ Inner .tetrahedron y) := by
  · simp only [List.pairwise_cons, List.mem_cons, List.not_mem_nil, or_false, List.Pairwise.nil, and_true, forall_eq_or_imp, forall_eq, IsEmpty.forall_iff, implies_true, and_assoc]
    refine ⟨?_, ?_, ?_, ?_, ?_, ?_, ?_, ?_, ?_, ?_, ?_, ?_, ?_, ?_, ?_, ?_, ?_, ?_, ?_, ?_, ?_, ?_, ?_, ?_, ?_, ?_, ?_, ?_⟩ <;>
    · rintro ⟨x, y, z⟩ ⟨x', y', z'⟩ h
      simp only [tetrahedron_0, tetrahedron_1, tetrahedron_2, tetrahedron_3, tetrahedron_4, tetrahedron_5, tetrahedron_6, tetrahedron_7, Prod.mk.injEq] at h
      obtain ⟨e1, e2, e3⟩ := h
      constructor <;>
      · rintro ⟨⟨a1, a2, a3, a4⟩, ⟨b1, b2, b3, b4⟩⟩
        linarith

theorem tetrahedron_proper : ∀ l ∈ [[0, 7, 8, 9], [1, 5, 6, 9], [2, 4, 6, 8], [3, 4, 5, 7], [9, 4, 6, 8], [9, 4, 8, 7], [9, 4, 7, 5], [9, 4, 5, 6]], ∀ x y : K × K × K, Inside .tetrahedron x → Inside .tetrahedron y → mapRef .tetrahedron .tetrahedron l x = mapRef .tetrahedron .tetrahedron l y → x = y := by
  · intro l hl x y hx hy
    obtain ⟨x, y', z⟩ := x
    obtain ⟨u, v, w⟩ := y
    obtain ⟨a1, a2, a3, a4⟩ := hx
    obtain ⟨b1, b2, b3, b4⟩ := hy
    simp only [List.mem_cons, List.not_mem_nil, or_false] at hl
    rcases hl with rfl | rfl | rfl | rfl | rfl | rfl | rfl | rfl
    · simp only [tetrahedron_0, Prod.mk.injEq]; rintro ⟨e1, e2, e3⟩; exact ⟨by linarith, by linarith, by linarith⟩
    · simp only [tetrahedron_1, Prod.mk.injEq]; rintro ⟨e1, e2, e3⟩; exact ⟨by linarith, by linarith, by linarith⟩
    · simp only [tetrahedron_2, Prod.mk.injEq]; rintro ⟨e1, e2, e3⟩; exact ⟨by linarith, by linarith, by linarith⟩
    · simp only [tetrahedron_3, Prod.mk.injEq]; rintro ⟨e1, e2, e3⟩; exact ⟨by linarith, by linarith, by linarith⟩
    · simp only [tetrahedron_4, Prod.mk.injEq]; rintro ⟨e1, e2, e3⟩; exact ⟨by linarith, by linarith, by linarith⟩
    · simp only [tetrahedron_5, Prod.mk.injEq]; rintro ⟨e1, e2, e3⟩; exact ⟨by linarith, by linarith, by linarith⟩
    · simp only [tetrahedron_6, Prod.mk.injEq]; rintro ⟨e1, e2, e3⟩; exact ⟨by linarith, by linarith, by linarith⟩
    · simp only [tetrahedron_7, Prod.mk.injEq]; rintro ⟨e1, e2, e3⟩; exact ⟨by linarith, by linarith, by linarith⟩

theorem tetrahedron_tiles : Tiles K .tetrahedron [[0, 7, 8, 9], [1, 5, 6, 9], [2, 4, 6, 8], [3, 4, 5, 7], [9, 4, 6, 8], [9, 4, 8, 7], [9, 4, 7, 5], [9, 4, 5, 6]] := ⟨tetrahedron_maps, tetrahedron_inside, tetrahedron_cover, tetrahedron_apart, tetrahedron_proper⟩

theorem prism_0 (x y z : K) : mapRef .prism .prism [0, 6, 7, 8, 15, 16] (x, y, z) = (x / 2, y / 2, z / 2) := by
  simp [mapRef, mapTo, newPos, mean, pts, vertex]
  refine ⟨?_, ?_, ?_⟩ <;> ring

theorem prism_1 (x y z : K) : mapRef .prism .prism [6, 1, 9, 15, 10, 17] (x, y, z) = (x / 2 + 1/2, y / 2, z / 2) := by
  simp [mapRef, mapTo, newPos, mean, pts, vertex]
  refine ⟨?_, ?_, ?_⟩ <;> ring

theorem prism_2 (x y z : K) : mapRef .prism .prism [7, 9, 2, 16, 17, 11] (x, y, z) = (x / 2, y / 2 + 1/2, z / 2) := by
  simp [mapRef, mapTo, newPos, mean, pts, vertex]
  refine ⟨?_, ?_, ?_⟩ <;> ring

theorem prism_3 (x y z : K) : mapRef .prism .prism [6, 9, 7, 15, 17, 16] (x, y, z) = (-y / 2 + 1/2, x / 2 + y / 2, z / 2) := by
  simp [mapRef, mapTo, newPos, mean, pts, vertex]
  refine ⟨?_, ?_, ?_⟩ <;> ring

theorem prism_4 (x y z : K) : mapRef .prism .prism [15, 17, 16, 12, 14, 13] (x, y, z) = (-y / 2 + 1/2, x / 2 + y / 2, z / 2 + 1/2) := by
  simp [mapRef, mapTo, newPos, mean, pts, vertex]
  refine ⟨?_, ?_, ?_⟩ <;> ring

theorem prism_5 (x y z : K) : mapRef .prism .prism [8, 15, 16, 3, 12, 13] (x, y, z) = (x / 2, y / 2, z / 2 + 1/2) := by
  simp [mapRef, mapTo, newPos, mean, pts, vertex]
  refine ⟨?_, ?_, ?_⟩ <;> ring

theorem prism_6 (x y z : K) : mapRef .prism .prism [11, 17, 16, 5, 14, 13] (x, y, z) = (x / 2, -x / 2 - y / 2 + 1, z / 2 + 1/2) := by
  simp [mapRef, mapTo, newPos, mean, pts, vertex]
  refine ⟨?_, ?_, ?_⟩ <;> ring

theorem prism_7 (x y z : K) : mapRef .prism .prism [10, 15, 17, 4, 12, 14] (x, y, z) = (-x / 2 - y / 2 + 1, y / 2, z / 2 + 1/2) := by
  simp [mapRef, mapTo, newPos, mean, pts, vertex]
  refine ⟨?_, ?_, ?_⟩ <;> ring

theorem prism_maps : ∀ l ∈ [[0, 6, 7, 8, 15, 16], [6, 1, 9, 15, 10, 17], [7, 9, 2, 16, 17, 11], [6, 9, 7, 15, 17, 16], [15, 17, 16, 12, 14, 13], [8, 15, 16, 3, 12, 13], [11, 17, 16, 5, 14, 13], [10, 15, 17, 4, 12, 14]], ∀ (p : Nat → K) (x : K × K × K), mapTo .prism (newPos .prism p l) x = mapTo .prism p (mapRef .prism .prism l x) := by
  · intro l hl p x
    obtain ⟨x, y, z⟩ := x
    simp only [List.mem_cons, List.not_mem_nil, or_false] at hl
    rcases hl with rfl | rfl | rfl | rfl | rfl | rfl | rfl | rfl
    · rw [prism_0]; simp [mapTo, newPos, mean, pts]; ring
    · rw [prism_1]; simp [mapTo, newPos, mean, pts]; ring
    · rw [prism_2]; simp [mapTo, newPos, mean, pts]; ring
    · rw [prism_3]; simp [mapTo, newPos, mean, pts]; ring
    · rw [prism_4]; simp [mapTo, newPos, mean, pts]; ring
    · rw [prism_5]; simp [mapTo, newPos, mean, pts]; ring
    · rw [prism_6]; simp [mapTo, newPos, mean, pts]; ring
    · rw [prism_7]; simp [mapTo, newPos, mean, pts]; ring

theorem prism_inside : ∀ l ∈ [[0, 6, 7, 8, 15, 16], [6, 1, 9, 15, 10, 17], [7, 9, 2, 16, 17, 11], [6, 9, 7, 15, 17, 16], [15, 17, 16, 12, 14, 13], [8, 15, 16, 3, 12, 13], [11, 17, 16, 5, 14, 13], [10, 15, 17, 4, 12, 14]], ∀ x : K × K × K, Inside .prism x → Inside .prism (mapRef .prism .prism l x) := by
  · intro l hl x hx
    obtain ⟨x, y, z⟩ := x
    obtain ⟨a1, a2, a3, a4, a5⟩ := hx
    simp only [List.mem_cons, List.not_mem_nil, or_false] at hl
    rcases hl with rfl | rfl | rfl | rfl | rfl | rfl | rfl | rfl
    · rw [prism_0]; exact ⟨by linarith, by linarith, by linarith, by linarith, by linarith⟩
    · rw [prism_1]; exact ⟨by linarith, by linarith, by linarith, by linarith, by linarith⟩
    · rw [prism_2]; exact ⟨by linarith, by linarith, by linarith, by linarith, by linarith⟩
    · rw [prism_3]; exact ⟨by linarith, by linarith, by linarith, by linarith, by linarith⟩
    · rw [prism_4]; exact ⟨by linarith, by linarith, by linarith, by linarith, by linarith⟩
    · rw [prism_5]; exact ⟨by linarith, by linarith, by linarith, by linarith, by linarith⟩
    · rw [prism_6]; exact ⟨by linarith, by linarith, by linarith, by linarith, by linarith⟩
    · rw [prism_7]; exact ⟨by linarith, by linarith, by linarith, by linarith, by linarith⟩

theorem prism_cover : ∀ x : K × K × K, Inside .prism x → ∃ l ∈ ([[0, 6, 7, 8, 15, 16], [6, 1, 9, 15, 10, 17], [7, 9, 2, 16, 17, 11], [6, 9, 7, 15, 17, 16], [15, 17, 16, 12, 14, 13], [8, 15, 16, 3, 12, 13], [11, 17, 16, 5, 14, 13], [10, 15, 17, 4, 12, 14]] : List (List Nat)), ∃ y, Inside .prism y ∧ mapRef .prism .prism l y = x := by
  · intro x hx
    obtain ⟨x, y, z⟩ := x
    obtain ⟨a1, a2, a3, a4, a5⟩ := hx
    rcases le_total (z) (1 / 2) with h0 | h0
    · rcases le_total (x) (1 / 2) with h1 | h1
      · rcases le_total (y) (1 / 2) with h2 | h2
        · rcases le_total (x + y) (1 / 2) with h3 | h3
          · refine ⟨[0, 6, 7, 8, 15, 16], by simp, (2 * x, 2 * y, 2 * z), ⟨by linarith, by linarith, by linarith, by linarith, by linarith⟩, ?_⟩
            rw [prism_0]
            ext <;> simp only <;> linarith
          · refine ⟨[6, 9, 7, 15, 17, 16], by simp, (2 * x + 2 * y - 1, -2 * x + 1, 2 * z), ⟨by linarith, by linarith, by linarith, by linarith, by linarith⟩, ?_⟩
            rw [prism_3]
            ext <;> simp only <;> linarith
        · refine ⟨[7, 9, 2, 16, 17, 11], by simp, (2 * x, 2 * y - 1, 2 * z), ⟨by linarith, by linarith, by linarith, by linarith, by linarith⟩, ?_⟩
          rw [prism_2]
          ext <;> simp only <;> linarith
      · refine ⟨[6, 1, 9, 15, 10, 17], by simp, (2 * x - 1, 2 * y, 2 * z), ⟨by linarith, by linarith, by linarith, by linarith, by linarith⟩, ?_⟩
        rw [prism_1]
        ext <;> simp only <;> linarith
    · rcases le_total (x) (1 / 2) with h1 | h1
      · rcases le_total (y) (1 / 2) with h2 | h2
        · rcases le_total (x + y) (1 / 2) with h3 | h3
          · refine ⟨[8, 15, 16, 3, 12, 13], by simp, (2 * x, 2 * y, 2 * z - 1), ⟨by linarith, by linarith, by linarith, by linarith, by linarith⟩, ?_⟩
            rw [prism_5]
            ext <;> simp only <;> linarith
          · refine ⟨[15, 17, 16, 12, 14, 13], by simp, (2 * x + 2 * y - 1, -2 * x + 1, 2 * z - 1), ⟨by linarith, by linarith, by linarith, by linarith, by linarith⟩, ?_⟩
            rw [prism_4]
            ext <;> simp only <;> linarith
        · refine ⟨[11, 17, 16, 5, 14, 13], by simp, (2 * x, -2 * x - 2 * y + 2, 2 * z - 1), ⟨by linarith, by linarith, by linarith, by linarith, by linarith⟩, ?_⟩
          rw [prism_6]
          ext <;> simp only <;> linarith
      · refine ⟨[10, 15, 17, 4, 12, 14], by simp, (-2 * x - 2 * y + 2, 2 * y, 2 * z - 1), ⟨by linarith, by linarith, by linarith, by linarith, by linarith⟩, ?_⟩
        rw [prism_7]
        ext <;> simp only <;> linarith

theorem prism_apart : ([[0, 6, 7, 8, 15, 16], [6, 1, 9, 15, 10, 17], [7, 9, 2, 16, 17, 11], [6, 9, 7, 15, 17, 16], [15, 17, 16, 12, 14, 13], [8, 15, 16, 3, 12, 13], [11, 17, 16, 5, 14, 13], [10, 15, 17, 4, 12, 14]] : List (List Nat)).Pairwise fun l l' => ∀ x y : K × K × K, mapRef .prism .prism l x = mapRef .prism .prism l' y →
    ¬ (Inner .prism x ∧ Inside .prism y) ∧ ¬ (Inside .prism x ∧ Inner .prism y) := by
  · simp only [List.pairwise_cons, List.mem_cons, List.not_mem_nil, or_false, List.Pairwise.nil, and_true, forall_eq_or_imp, forall_eq, IsEmpty.forall_iff, implies_true, and_assoc]
    refine ⟨?_, ?_, ?_, ?_, ?_, ?_, ?_, ?_, ?_, ?_, ?_, ?_, ?_, ?_, ?_, ?_, ?_, ?_, ?_, ?_, ?_, ?_, ?_, ?_, ?_, ?_, ?_, ?_⟩ <;>
    · rintro ⟨x, y, z⟩ ⟨x', y', z'⟩ h
      simp only [prism_0, prism_1, prism_2, prism_3, prism_4, prism_5, prism_6, prism_7, Prod.mk.injEq] at h
      obtain ⟨e1, e2, e3⟩ := h
      constructor <;>
      · rintro ⟨⟨a1, a2, a3, a4, a5⟩, ⟨b1, b2, b3, b4, b5⟩⟩
        linarith

theorem prism_proper : ∀ l ∈ [[0, 6, 7, 8, 15, 16], [6, 1, 9, 15, 10, 17], [7, 9, 2, 16, 17, 11], [6, 9, 7, 15, 17, 16], [15, 17, 16, 12, 14, 13], [8, 15, 16, 3, 12, 13], [11, 17, 16, 5, 14, 13], [10, 15, 17, 4, 12, 14]], ∀ x y : K × K × K, Inside .prism x → Inside .prism y → mapRef .prism .prism l x = mapRef .prism .prism l y → x = y := by
  · intro l hl x y hx hy
    obtain ⟨x, y', z⟩ := x
    obtain ⟨u, v, w⟩ := y
    obtain ⟨a1, a2, a3, a4, a5⟩ := hx
    obtain ⟨b1, b2, b3, b4, b5⟩ := hy
    simp only [List.mem_cons, List.not_mem_nil, or_false] at hl
    rcases hl with rfl | rfl | rfl | rfl | rfl | rfl | rfl | rfl
    · simp only [prism_0, Prod.mk.injEq]; rintro ⟨e1, e2, e3⟩; exact ⟨by linarith, by linarith, by linarith⟩
    · simp only [prism_1, Prod.mk.injEq]; rintro ⟨e1, e2, e3⟩; exact ⟨by linarith, by linarith, by linarith⟩
    · simp only [prism_2, Prod.mk.injEq]; rintro ⟨e1, e2, e3⟩; exact ⟨by linarith, by linarith, by linarith⟩
    · simp only [prism_3, Prod.mk.injEq]; rintro ⟨e1, e2, e3⟩; exact ⟨by linarith, by linarith, by linarith⟩
    · simp only [prism_4, Prod.mk.injEq]; rintro ⟨e1, e2, e3⟩; exact ⟨by linarith, by linarith, by linarith⟩
    · simp only [prism_5, Prod.mk.injEq]; rintro ⟨e1, e2, e3⟩; exact ⟨by linarith, by linarith, by linarith⟩
    · simp only [prism_6, Prod.mk.injEq]; rintro ⟨e1, e2, e3⟩; exact ⟨by linarith, by linarith, by linarith⟩
    · simp only [prism_7, Prod.mk.injEq]; rintro ⟨e1, e2, e3⟩; exact ⟨by linarith, by linarith, by linarith⟩

theorem prism_tiles : Tiles K .prism [[0, 6, 7, 8, 15, 16], [6, 1, 9, 15, 10, 17], [7, 9, 2, 16, 17, 11], [6, 9, 7, 15, 17, 16], [15, 17, 16, 12, 14, 13], [8, 15, 16, 3, 12, 13], [11, 17, 16, 5, 14, 13], [10, 15, 17, 4, 12, 14]] := ⟨prism_maps, prism_inside, prism_cover, prism_apart, prism_proper⟩

theorem hexahedron_0 (x y z : K) : mapRef .hexahedron .hexahedron [0, 9, 8, 20, 10, 22, 21, 26] (x, y, z) = (y / 2, x / 2, z / 2) := by
  simp [mapRef, mapTo, newPos, mean, pts, vertex]
  refine ⟨?_, ?_, ?_⟩ <;> ring

theorem hexahedron_1 (x y z : K) : mapRef .hexahedron .hexahedron [1, 11, 8, 20, 12, 23, 21, 26] (x, y, z) = (-y / 2 + 1, x / 2, z / 2) := by
  simp [mapRef, mapTo, newPos, mean, pts, vertex]
  refine ⟨?_, ?_, ?_⟩ <;> ring

theorem hexahedron_2 (x y z : K) : mapRef .hexahedron .hexahedron [2, 13, 9, 20, 14, 24, 22, 26] (x, y, z) = (x / 2, -y / 2 + 1, z / 2) := by
  simp [mapRef, mapTo, newPos, mean, pts, vertex]
  refine ⟨?_, ?_, ?_⟩ <;> ring

theorem hexahedron_3 (x y z : K) : mapRef .hexahedron .hexahedron [3, 13, 11, 20, 15, 24, 23, 26] (x, y, z) = (-x / 2 + 1, -y / 2 + 1, z / 2) := by
  simp [mapRef, mapTo, newPos, mean, pts, vertex]
  refine ⟨?_, ?_, ?_⟩ <;> ring

theorem hexahedron_4 (x y z : K) : mapRef .hexahedron .hexahedron [4, 16, 10, 21, 17, 25, 22, 26] (x, y, z) = (x / 2, z / 2, -y / 2 + 1) := by
  simp [mapRef, mapTo, newPos, mean, pts, vertex]
  refine ⟨?_, ?_, ?_⟩ <;> ring

theorem hexahedron_5 (x y z : K) : mapRef .hexahedron .hexahedron [5, 16, 12, 21, 18, 25, 23, 26] (x, y, z) = (-x / 2 + 1, z / 2, -y / 2 + 1) := by
  simp [mapRef, mapTo, newPos, mean, pts, vertex]
  refine ⟨?_, ?_, ?_⟩ <;> ring

theorem hexahedron_6 (x y z : K) : mapRef .hexahedron .hexahedron [6, 17, 14, 22, 19, 25, 24, 26] (x, y, z) = (z / 2, -x / 2 + 1, -y / 2 + 1) := by
  simp [mapRef, mapTo, newPos, mean, pts, vertex]
  refine ⟨?_, ?_, ?_⟩ <;> ring

theorem hexahedron_7 (x y z : K) : mapRef .hexahedron .hexahedron [7, 18, 15, 23, 19, 25, 24, 26] (x, y, z) = (-z / 2 + 1, -x / 2 + 1, -y / 2 + 1) := by
  simp [mapRef, mapTo, newPos, mean, pts, vertex]
  refine ⟨?_, ?_, ?_⟩ <;> ring

theorem hexahedron_maps : ∀ l ∈ [[0, 9, 8, 20, 10, 22, 21, 26], [1, 11, 8, 20, 12, 23, 21, 26], [2, 13, 9, 20, 14, 24, 22, 26], [3, 13, 11, 20, 15, 24, 23, 26], [4, 16, 10, 21, 17, 25, 22, 26], [5, 16, 12, 21, 18, 25, 23, 26], [6, 17, 14, 22, 19, 25, 24, 26], [7, 18, 15, 23, 19, 25, 24, 26]], ∀ (p : Nat → K) (x : K × K × K), mapTo .hexahedron (newPos .hexahedron p l) x = mapTo .hexahedron p (mapRef .hexahedron .hexahedron l x) := by
  · intro l hl p x
    obtain ⟨x, y, z⟩ := x
    simp only [List.mem_cons, List.not_mem_nil, or_false] at hl
    rcases hl with rfl | rfl | rfl | rfl | rfl | rfl | rfl | rfl
    · rw [hexahedron_0]; simp [mapTo, newPos, mean, pts]; ring
    · rw [hexahedron_1]; simp [mapTo, newPos, mean, pts]; ring
    · rw [hexahedron_2]; simp [mapTo, newPos, mean, pts]; ring
    · rw [hexahedron_3]; simp [mapTo, newPos, mean, pts]; ring
    · rw [hexahedron_4]; simp [mapTo, newPos, mean, pts]; ring
    · rw [hexahedron_5]; simp [mapTo, newPos, mean, pts]; ring
    · rw [hexahedron_6]; simp [mapTo, newPos, mean, pts]; ring
    · rw [hexahedron_7]; simp [mapTo, newPos, mean, pts]; ring

theorem hexahedron_inside : ∀ l ∈ [[0, 9, 8, 20, 10, 22, 21, 26], [1, 11, 8, 20, 12, 23, 21, 26], [2, 13, 9, 20, 14, 24, 22, 26], [3, 13, 11, 20, 15, 24, 23, 26], [4, 16, 10, 21, 17, 25, 22, 26], [5, 16, 12, 21, 18, 25, 23, 26], [6, 17, 14, 22, 19, 25, 24, 26], [7, 18, 15, 23, 19, 25, 24, 26]], ∀ x : K × K × K, Inside .hexahedron x → Inside .hexahedron (mapRef .hexahedron .hexahedron l x) := by
  · intro l hl x hx
    obtain ⟨x, y, z⟩ := x
    obtain ⟨a1, a2, a3, a4, a5, a6⟩ := hx
    simp only [List.mem_cons, List.not_mem_nil, or_false] at hl
    rcases hl with rfl | rfl | rfl | rfl | rfl | rfl | rfl | rfl
    · rw [hexahedron_0]; exact ⟨by linarith, by linarith, by linarith, by linarith, by linarith, by linarith⟩
    · rw [hexahedron_1]; exact ⟨by linarith, by linarith, by linarith, by linarith, by linarith, by linarith⟩
    · rw [hexahedron_2]; exact ⟨by linarith, by linarith, by linarith, by linarith, by linarith, by linarith⟩
    · rw [hexahedron_3]; exact ⟨by linarith, by linarith, by linarith, by linarith, by linarith, by linarith⟩
    · rw [hexahedron_4]; exact ⟨by linarith, by linarith, by linarith, by linarith, by linarith, by linarith⟩
    · rw [hexahedron_5]; exact ⟨by linarith, by linarith, by linarith, by linarith, by linarith, by linarith⟩
    · rw [hexahedron_6]; exact ⟨by linarith, by linarith, by linarith, by linarith, by linarith, by linarith⟩
    · rw [hexahedron_7]; exact ⟨by linarith, by linarith, by linarith, by linarith, by linarith, by linarith⟩

theorem hexahedron_cover : ∀ x : K × K × K, Inside .hexahedron x → ∃ l ∈ ([[0, 9, 8, 20, 10, 22, 21, 26], [1, 11, 8, 20, 12, 23, 21, 26], [2, 13, 9, 20, 14, 24, 22, 26], [3, 13, 11, 20, 15, 24, 23, 26], [4, 16, 10, 21, 17, 25, 22, 26], [5, 16, 12, 21, 18, 25, 23, 26], [6, 17, 14, 22, 19, 25, 24, 26], [7, 18, 15, 23, 19, 25, 24, 26]] : List (List Nat)), ∃ y, Inside .hexahedron y ∧ mapRef .hexahedron .hexahedron l y = x := by
  · intro x hx
    obtain ⟨x, y, z⟩ := x
    obtain ⟨a1, a2, a3, a4, a5, a6⟩ := hx
    rcases le_total (x) (1 / 2) with h0 | h0
    · rcases le_total (y) (1 / 2) with h1 | h1
      · rcases le_total (z) (1 / 2) with h2 | h2
        · refine ⟨[0, 9, 8, 20, 10, 22, 21, 26], by simp, (2 * y, 2 * x, 2 * z), ⟨by linarith, by linarith, by linarith, by linarith, by linarith, by linarith⟩, ?_⟩
          rw [hexahedron_0]
          ext <;> simp only <;> linarith
        · refine ⟨[4, 16, 10, 21, 17, 25, 22, 26], by simp, (2 * x, -2 * z + 2, 2 * y), ⟨by linarith, by linarith, by linarith, by linarith, by linarith, by linarith⟩, ?_⟩
          rw [hexahedron_4]
          ext <;> simp only <;> linarith
      · rcases le_total (z) (1 / 2) with h2 | h2
        · refine ⟨[2, 13, 9, 20, 14, 24, 22, 26], by simp, (2 * x, -2 * y + 2, 2 * z), ⟨by linarith, by linarith, by linarith, by linarith, by linarith, by linarith⟩, ?_⟩
          rw [hexahedron_2]
          ext <;> simp only <;> linarith
        · refine ⟨[6, 17, 14, 22, 19, 25, 24, 26], by simp, (-2 * y + 2, -2 * z + 2, 2 * x), ⟨by linarith, by linarith, by linarith, by linarith, by linarith, by linarith⟩, ?_⟩
          rw [hexahedron_6]
          ext <;> simp only <;> linarith
    · rcases le_total (y) (1 / 2) with h1 | h1
      · rcases le_total (z) (1 / 2) with h2 | h2
        · refine ⟨[1, 11, 8, 20, 12, 23, 21, 26], by simp, (2 * y, -2 * x + 2, 2 * z), ⟨by linarith, by linarith, by linarith, by linarith, by linarith, by linarith⟩, ?_⟩
          rw [hexahedron_1]
          ext <;> simp only <;> linarith
        · refine ⟨[5, 16, 12, 21, 18, 25, 23, 26], by simp, (-2 * x + 2, -2 * z + 2, 2 * y), ⟨by linarith, by linarith, by linarith, by linarith, by linarith, by linarith⟩, ?_⟩
          rw [hexahedron_5]
          ext <;> simp only <;> linarith
      · rcases le_total (z) (1 / 2) with h2 | h2
        · refine ⟨[3, 13, 11, 20, 15, 24, 23, 26], by simp, (-2 * x + 2, -2 * y + 2, 2 * z), ⟨by linarith, by linarith, by linarith, by linarith, by linarith, by linarith⟩, ?_⟩
          rw [hexahedron_3]
          ext <;> simp only <;> linarith
        · refine ⟨[7, 18, 15, 23, 19, 25, 24, 26], by simp, (-2 * y + 2, -2 * z + 2, -2 * x + 2), ⟨by linarith, by linarith, by linarith, by linarith, by linarith, by linarith⟩, ?_⟩
          rw [hexahedron_7]
          ext <;> simp only <;> linarith

theorem hexahedron_apart : ([[0, 9, 8, 20, 10, 22, 21, 26], [1, 11, 8, 20, 12, 23, 21, 26], [2, 13, 9, 20, 14, 24, 22, 26], [3, 13, 11, 20, 15, 24, 23, 26], [4, 16, 10, 21, 17, 25, 22, 26], [5, 16, 12, 21, 18, 25, 23, 26], [6, 17, 14, 22, 19, 25, 24, 26], [7, 18, 15, 23, 19, 25, 24, 26]] : List (List Nat)).Pairwise fun l l' => ∀ x y : K × K × K, mapRef .hexahedron .hexahedron l x = mapRef .hexahedron .hexahedron l' y →
    ¬ (Inner .hexahedron x ∧ Inside .hexahedron y) ∧ ¬ (Inside .hexahedron x ∧ Inner .hexahedron y) := by
  · simp only [List.pairwise_cons, List.mem_cons, List.not_mem_nil, or_false, List.Pairwise.nil, and_true, forall_eq_or_imp, forall_eq, IsEmpty.forall_iff, implies_true, and_assoc]
    refine ⟨?_, ?_, ?_, ?_, ?_, ?_, ?_, ?_, ?_, ?_, ?_, ?_, ?_, ?_, ?_, ?_, ?_, ?_, ?_, ?_, ?_, ?_, ?_, ?_, ?_, ?_, ?_, ?_⟩ <;>
    · rintro ⟨x, y, z⟩ ⟨x', y', z'⟩ h
      simp only [hexahedron_0, hexahedron_1, hexahedron_2, hexahedron_3, hexahedron_4, hexahedron_5, hexahedron_6, hexahedron_7, Prod.mk.injEq] at h
      obtain ⟨e1, e2, e3⟩ := h
      constructor <;>
      · rintro ⟨⟨a1, a2, a3, a4, a5, a6⟩, ⟨b1, b2, b3, b4, b5, b6⟩⟩
        linarith

theorem hexahedron_proper : ∀ l ∈ [[0, 9, 8, 20, 10, 22, 21, 26], [1, 11, 8, 20, 12, 23, 21, 26], [2, 13, 9, 20, 14, 24, 22, 26], [3, 13, 11, 20, 15, 24, 23, 26], [4, 16, 10, 21, 17, 25, 22, 26], [5, 16, 12, 21, 18, 25, 23, 26], [6, 17, 14, 22, 19, 25, 24, 26], [7, 18, 15, 23, 19, 25, 24, 26]], ∀ x y : K × K × K, Inside .hexahedron x → Inside .hexahedron y → mapRef .hexahedron .hexahedron l x = mapRef .hexahedron .hexahedron l y → x = y := by
  · intro l hl x y hx hy
    obtain ⟨x, y', z⟩ := x
    obtain ⟨u, v, w⟩ := y
    obtain ⟨a1, a2, a3, a4, a5, a6⟩ := hx
    obtain ⟨b1, b2, b3, b4, b5, b6⟩ := hy
    simp only [List.mem_cons, List.not_mem_nil, or_false] at hl
    rcases hl with rfl | rfl | rfl | rfl | rfl | rfl | rfl | rfl
    · simp only [hexahedron_0, Prod.mk.injEq]; rintro ⟨e1, e2, e3⟩; exact ⟨by linarith, by linarith, by linarith⟩
    · simp only [hexahedron_1, Prod.mk.injEq]; rintro ⟨e1, e2, e3⟩; exact ⟨by linarith, by linarith, by linarith⟩
    · simp only [hexahedron_2, Prod.mk.injEq]; rintro ⟨e1, e2, e3⟩; exact ⟨by linarith, by linarith, by linarith⟩
    · simp only [hexahedron_3, Prod.mk.injEq]; rintro ⟨e1, e2, e3⟩; exact ⟨by linarith, by linarith, by linarith⟩
    · simp only [hexahedron_4, Prod.mk.injEq]; rintro ⟨e1, e2, e3⟩; exact ⟨by linarith, by linarith, by linarith⟩
    · simp only [hexahedron_5, Prod.mk.injEq]; rintro ⟨e1, e2, e3⟩; exact ⟨by linarith, by linarith, by linarith⟩
    · simp only [hexahedron_6, Prod.mk.injEq]; rintro ⟨e1, e2, e3⟩; exact ⟨by linarith, by linarith, by linarith⟩
    · simp only [hexahedron_7, Prod.mk.injEq]; rintro ⟨e1, e2, e3⟩; exact ⟨by linarith, by linarith, by linarith⟩

theorem hexahedron_tiles : Tiles K .hexahedron [[0, 9, 8, 20, 10, 22, 21, 26], [1, 11, 8, 20, 12, 23, 21, 26], [2, 13, 9, 20, 14, 24, 22, 26], [3, 13, 11, 20, 15, 24, 23, 26], [4, 16, 10, 21, 17, 25, 22, 26], [5, 16, 12, 21, 18, 25, 23, 26], [6, 17, 14, 22, 19, 25, 24, 26], [7, 18, 15, 23, 19, 25, 24, 26]] := ⟨hexahedron_maps, hexahedron_inside, hexahedron_cover, hexahedron_apart, hexahedron_proper⟩

end Verif.Uniform
