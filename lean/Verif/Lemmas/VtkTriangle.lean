import Verif.Lemmas.PopLoop
import Mathlib.Data.Nat.Sqrt
/-!
# The loop over the remainders of a triangle
-/
namespace Verif.CellPerm
open Verif.Spec

variable {α : Type}

theorem cellDegree_triangle (num n : Nat) (h : num = T (n + 1)) : cellDegree .triangle num = .ok n := by
  have h2 := T_eq (n + 1)
  have e : 1 + 8 * num = (2 * n + 3) * (2 * n + 3) := by rw [h]; linarith
  simp only [cellDegree, e, Nat.sqrt_eq]
  have e2 : (2 * n + 3 - 1) / 2 = n + 1 := by omega
  simp only [e2]
  rw [if_neg (by rw [h]; omega)]
  congr 1
  push_cast
  omega

theorem triLattice_eq (m : Nat) (g : Nat → Nat → α) : triLattice m g = strip g 0 (m + 1) (m + 1) := by
  simp [triLattice, strip, List.range_eq_range']

theorem triLattice_length (m : Nat) (g : Nat → Nat → α) : (triLattice m g).length = T (m + 1) := by
  rw [triLattice_eq]
  have := strip_length g 0 (m + 1) (m + 1) (le_refl _)
  rw [Nat.sub_self, T_zero] at this
  omega

theorem map_range' (h : Nat → α) (s n : Nat) : (List.range' s n).map h = (List.range n).map fun i => h (s + i) := by
  rw [List.range'_eq_map_range, List.map_map]
  rfl

/-- Rows with another start. -/
theorem strip_shift (h : Nat → Nat → α) (s k c : Nat) : strip h s k c = strip (fun x j => h (s + x) j) 0 k c := by
  unfold strip
  apply List.flatMap_congr
  intro j _
  rw [map_range', map_range']
  simp

/-- The first row. -/
theorem strip_first (h : Nat → Nat → α) (s k c : Nat) :
    strip h s (k + 1) (c + 1) = (List.range' s (c + 1)).map (h · 0) ++ strip (fun x j => h x (j + 1)) s k c := by
  simp only [strip, List.range_succ_eq_map, List.flatMap_cons, List.flatMap_map, Nat.sub_zero]
  congr 1
  apply List.flatMap_congr
  intro j _
  congr 2
  omega

/-- Corners, edges and the interior rows of a triangle. -/
theorem triLattice_split (k : Nat) (g : Nat → Nat → α) :
    triLattice (k + 1) g = g 0 0 :: ((List.range k).map (fun i => g (i + 1) 0) ++ g (k + 1) 0 ::
      (strip (fun x j => g x (j + 1)) 0 k (k + 1) ++ [g 0 (k + 1)])) := by
  rw [triLattice_eq, strip_first, strip_succ]
  have e : List.map (fun x => g x 0) (List.range' 0 (k + 1 + 1)) =
      g 0 0 :: ((List.range k).map (fun i => g (i + 1) 0) ++ [g (k + 1) 0]) := by
    rw [← List.range_eq_range', List.range_succ_eq_map, List.range_succ]
    simp
  rw [e, show k + 1 - k = 1 by omega]
  simp

theorem triStep_spec (k : Nat) (g : Nat → Nat → α) :
    triStep (triLattice (k + 1) g) = .ok ([g 0 0, g (k + 1) 0, g 0 (k + 1)] ++
      (List.range k).map (fun i => g (i + 1) 0) ++ (List.range k).map (fun i => g (k - i) (i + 1)) ++
      (List.range k).map (fun i => g 0 (k - i)), strip (fun x j => g (x + 1) (j + 1)) 0 (k - 1) (k - 1)) := by
  unfold triStep
  rw [triLattice_length, cellDegree_triangle _ (k + 1) rfl, triLattice_split]
  have p0 : vecPop (g 0 0 :: ((List.range k).map (fun i => g (i + 1) 0) ++ g (k + 1) 0 ::
      (strip (fun x j => g x (j + 1)) 0 k (k + 1) ++ [g 0 (k + 1)]))) 0 = .ok (g 0 0,
      (List.range k).map (fun i => g (i + 1) 0) ++ g (k + 1) 0 ::
      (strip (fun x j => g x (j + 1)) 0 k (k + 1) ++ [g 0 (k + 1)])) := vecPop_pos [] _ _ 0 rfl
  have p1 : vecPop ((List.range k).map (fun i => g (i + 1) 0) ++ g (k + 1) 0 ::
      (strip (fun x j => g x (j + 1)) 0 k (k + 1) ++ [g 0 (k + 1)])) (((k + 1 : Nat) : Int) - 1) = .ok (g (k + 1) 0,
      (List.range k).map (fun i => g (i + 1) 0) ++ (strip (fun x j => g x (j + 1)) 0 k (k + 1) ++ [g 0 (k + 1)])) :=
    vecPop_pos _ _ _ _ (by simp)
  have p2 : vecPop ((List.range k).map (fun i => g (i + 1) 0) ++ (strip (fun x j => g x (j + 1)) 0 k (k + 1) ++
      [g 0 (k + 1)])) (-1) = .ok (g 0 (k + 1), (List.range k).map (fun i => g (i + 1) 0) ++
      strip (fun x j => g x (j + 1)) 0 k (k + 1)) := by
    rw [← List.append_assoc]; exact vecPop_last _ _
  have hc : (((k + 1 : Nat) : Int) - 1).toNat = k := by omega
  have p3 := popFront ((List.range k).map (fun i => g (i + 1) 0)) (strip (fun x j => g x (j + 1)) 0 k (k + 1)) [] 0 0 rfl
  rw [List.length_map, List.length_range, List.nil_append, List.nil_append] at p3
  have l4 := strip_length (fun x j => g x (j + 1)) 0 k (k + 1) (by omega)
  rw [show k + 1 - k = 0 + 1 by omega, T_succ, T_zero, T_succ] at l4
  have hT : ((k + 1 : Nat) : Int) * (((k + 1 : Nat) : Int) - 1) / 2 = T k := T_int' _ _ k (by push_cast; ring) (by push_cast; ring)
  have p4 : popLoop (fun i => ((k + 1 : Nat) : Int) - i) k 1 (-(((k + 1 : Nat) : Int) * (((k + 1 : Nat) : Int) - 1) / 2))
      (strip (fun x j => g x (j + 1)) 0 k (k + 1)) = .ok ((List.range k).map (fun i => g (k - i) (i + 1)),
        strip (fun x j => g x (j + 1)) 0 k k) := by
    rw [hT, popLoop_neg _ _ _ _ _ (fun j => -(T (k - j) : Int)) (fun _ => by simp)
      (fun j hj => by
        have : T (k - j) = T (k - (j + 1)) + (k - j) := by
          conv_lhs => rw [show k - j = (k - (j + 1)) + 1 by omega, T_succ]
          omega
        rw [this]; push_cast; omega)
      (fun j hj => by
        have : T (k - j) = T (k - (j + 1)) + (k - j) := by
          conv_lhs => rw [show k - j = (k - (j + 1)) + 1 by omega, T_succ]
          omega
        omega)
      (fun j hj => by
        have := T_mono (show k - j ≤ k by omega)
        omega)]
    have := layerEnds (fun x j => g x (j + 1)) k (fun i => ((k + 1 : Nat) : Int) - i - 1) 1
      (((strip (fun x j => g x (j + 1)) 0 k (k + 1)).length : Int) + -(T k : Int)) [] []
      (by simp only [List.length_nil]; omega) (fun i hi => by push_cast; omega)
    simpa using this
  have l5 := strip_length (fun x j => g x (j + 1)) 0 k k (le_refl _)
  rw [Nat.sub_self, T_zero] at l5
  have p5 : popLoop (fun i => -(i : Int)) k 1 (-1) (strip (fun x j => g x (j + 1)) 0 k k) =
      .ok ((List.range k).map (fun i => g 0 (k - i)), strip (fun x j => g (x + 1) (j + 1)) 0 (k - 1) (k - 1)) := by
    rw [popLoop_neg _ _ _ _ _ (fun j => -(1 + T j : Int)) (fun _ => by simp [T_zero])
      (fun j hj => by rw [T_succ]; push_cast; omega)
      (fun j hj => by omega)
      (fun j hj => by
        have := T_mono (show j + 1 ≤ k by omega)
        rw [T_succ] at this
        omega)]
    have := layerStarts (fun x j => g x (j + 1)) k (fun i => -(i : Int) - 1) 1
      (((strip (fun x j => g x (j + 1)) 0 k k).length : Int) + -1) [] []
      (by simp only [List.length_nil]; omega) (fun i hi => by push_cast; omega)
    simp only [List.nil_append, List.append_nil] at this
    rw [this, strip_shift _ 1]
    congr 2
    · apply List.map_congr_left
      intro i hi
      have := List.mem_range.1 hi
      congr 1
      omega
    · simp only [Nat.add_comm 1]
  simp only [bind, Except.bind, hc, p0, p1, p2, p3, p4, p5]
  rfl

theorem triLoop_cons (fuel : Nat) (a b : α) (l : List α) : triLoop (fuel + 1) (a :: b :: l) = (do
      let (m, v) ← triStep (a :: b :: l)
      let ms ← triLoop fuel v
      return m ++ ms) := rfl

theorem triLattice_two (k : Nat) (g : Nat → Nat → α) : ∃ a b l, triLattice (k + 1) g = a :: b :: l := by
  have h := triLattice_length (k + 1) g
  have h2 := T_mono (show 2 ≤ k + 1 + 1 by omega)
  have h3 : T 2 = 3 := rfl
  match hl : triLattice (k + 1) g with
  | [] => rw [hl] at h; simp only [List.length_nil] at h; omega
  | [a] => rw [hl] at h; simp only [List.length_cons, List.length_nil] at h; omega
  | a :: b :: l => exact ⟨a, b, l, rfl⟩

theorem triLoop_spec (n : Nat) (g : Nat → Nat → α) (fuel : Nat) (hf : n + 1 ≤ fuel) :
    triLoop fuel (triLattice n g) = .ok ((vtkTriLattice n).map fun p => g p.1 p.2) := by
  induction n using Nat.strong_induction_on generalizing g fuel with
  | _ n ih =>
    obtain ⟨fuel, rfl⟩ : ∃ f, fuel = f + 1 := ⟨fuel - 1, by omega⟩
    rcases n with _ | k
    · rfl
    · obtain ⟨a, b, l, hl⟩ := triLattice_two k g
      rw [hl, triLoop_cons, ← hl, triStep_spec]
      obtain ⟨fuel, rfl⟩ : ∃ f, fuel = f + 1 := ⟨fuel - 1, by omega⟩
      rcases k with _ | _ | m
      · rfl
      · rfl
      · have := ih m (by omega) (fun x y => g (x + 1) (y + 1)) (fuel + 1) (by omega)
        rw [triLattice_eq] at this
        simp only [bind, Except.bind, show m + 1 + 1 - 1 = m + 1 by omega, this]
        simp only [pure, Except.pure, vtkTriLattice, List.map_append, List.map_cons, List.map_nil, List.map_map,
          Function.comp_def, List.append_assoc]

theorem triRem_spec (n : Nat) (g : Nat → Nat → α) :
    triRem (triLattice n g) = .ok ((vtkTriLattice n).map fun p => g p.1 p.2) := by
  apply triLoop_spec
  rw [triLattice_length, T_succ]
  omega

end Verif.CellPerm
