import Verif.Lemmas.VtkTriangle
/-!
# The loop over the remainders of a tetrahedron
-/
namespace Verif.CellPerm
open Verif.Spec

variable {α : Type}

theorem flatMap_range_add (a b : Nat) (f : Nat → List α) :
    (List.range (a + b)).flatMap f = (List.range a).flatMap f ++ (List.range b).flatMap fun i => f (a + i) := by
  rw [List.range_add, List.flatMap_append, List.flatMap_map]

theorem popNest_ok (start : Nat → Int) (count : Nat → Nat) (f : Nat → Nat → Int) (n i0 : Nat) (S : Nat → List α)
    (xs : Nat → List α)
    (h : ∀ i, i < n → popLoop (f (i0 + i)) (count (i0 + i)) 0 (start (i0 + i)) (S i) = .ok (xs i, S (i + 1))) :
    popNest start count f n i0 (S 0) = .ok ((List.range n).flatMap xs, S n) := by
  induction n generalizing i0 S xs with
  | zero => rfl
  | succ n ih =>
    have h0 := h 0 (by omega)
    simp only [Nat.add_zero, Nat.zero_add] at h0
    simp only [popNest, h0]
    rw [ih (i0 + 1) (fun i => S (i + 1)) (fun i => xs (i + 1)) (fun i hi => by
      have := h (i + 1) (by omega)
      rw [show i0 + 1 + i = i0 + (i + 1) by omega]; exact this)]
    simp [List.range_succ_eq_map, List.flatMap_map]

theorem tetLattice_succ (m : Nat) (g : Nat → Nat → Nat → α) :
    tetLattice (m + 1) g = triLattice (m + 1) (fun x y => g x y 0) ++ tetLattice m fun x y z => g x y (z + 1) := by
  simp only [tetLattice, List.range_succ_eq_map (n := m + 1), List.flatMap_cons, List.flatMap_map, Nat.sub_zero]
  congr 1
  apply List.flatMap_congr
  intro z _
  rw [show m + 1 - z.succ = m - z by omega]

theorem tetLattice_length (m : Nat) (g : Nat → Nat → Nat → α) :
    6 * (tetLattice m g).length = (m + 1) * (m + 2) * (m + 3) := by
  induction m generalizing g with
  | zero => rfl
  | succ m ih =>
    rw [tetLattice_succ, List.length_append, triLattice_length, Nat.mul_add, ih]
    have := T_eq (m + 1 + 1)
    nlinarith

theorem tetLoop_spec (num t f j : Nat) (ht : t * (t + 1) * (t + 2) = 6 * num) (hj : j ≤ t) (hf : t ≤ j + f) :
    tetLoop num f j = t := by
  induction f generalizing j with
  | zero => simp only [tetLoop]; omega
  | succ f ih =>
    simp only [tetLoop]
    by_cases h : j = t
    · subst h
      rw [if_neg (by omega)]
    · have hlt : j + 1 ≤ t := by omega
      have h1 : j * (j + 1) * (j + 2) < t * (t + 1) * (t + 2) := by
        have a1 : j * (j + 1) ≤ j * (t + 1) := Nat.mul_le_mul_left _ (by omega)
        have a2 : j * (t + 1) < t * (t + 1) := Nat.mul_lt_mul_of_pos_right (by omega) (by omega)
        calc j * (j + 1) * (j + 2) ≤ j * (j + 1) * (t + 2) := Nat.mul_le_mul_left _ (by omega)
          _ < t * (t + 1) * (t + 2) := Nat.mul_lt_mul_of_pos_right (by omega) (by omega)
      rw [if_pos (by omega)]
      exact ih (j + 1) hlt (by omega)

theorem cellDegree_tetrahedron (num n : Nat) (h : 6 * num = (n + 1) * (n + 2) * (n + 3)) :
    cellDegree .tetrahedron num = .ok n := by
  have ht : (n + 1) * (n + 1 + 1) * (n + 1 + 2) = 6 * num := by rw [h]
  have hle : n + 1 ≤ 6 * num := by
    rw [h]
    calc n + 1 ≤ (n + 1) * ((n + 2) * (n + 3)) := Nat.le_mul_of_pos_right _ (Nat.mul_pos (by omega) (by omega))
      _ = _ := by ring
  have := tetLoop_spec num (n + 1) (6 * num) 0 ht (by omega) (by omega)
  simp only [cellDegree, this]
  rw [if_neg (by rw [ht]; exact fun h => h rfl)]
  congr 1
  push_cast
  omega

/-! ## The layers of a tetrahedron of degree `k + 1` -/

variable (g : Nat → Nat → Nat → α)

/-- Points of layer `i + 1` in rows 1, 2, ... -/
def hL (i : Nat) (x j : Nat) : α := g x (j + 1) (i + 1)

/-- Points of layer 0 in rows 1, 2, ... -/
def h0 (x j : Nat) : α := g x (j + 1) 0

/-- Interior points of the first row of layer `i + 1`. -/
def mid (k i : Nat) : List α := (List.range' 1 (k - i - 1)).map fun x => g x 0 (i + 1)

theorem mid_length (k i : Nat) : (mid g k i).length = k - i - 1 := by simp [mid]

/-- Layer `i + 1` with all points. -/
theorem layer_split (k i : Nat) (hi : i < k) : triLattice (k - i) (fun x y => g x y (i + 1)) =
    g 0 0 (i + 1) :: (mid g k i ++ g (k - i) 0 (i + 1) :: strip (hL g i) 0 (k - i) (k - i)) := by
  obtain ⟨c, hc⟩ : ∃ c, k - i = c + 1 := ⟨k - i - 1, by omega⟩
  rw [triLattice_eq, strip_first, mid, hc, Nat.add_sub_cancel]
  have e : List.map (fun x => g x 0 (i + 1)) (List.range' 0 (c + 1 + 1)) =
      g 0 0 (i + 1) :: (List.map (fun x => g x 0 (i + 1)) (List.range' 1 c) ++ [g (c + 1) 0 (i + 1)]) := by
    rw [List.range'_succ, List.map_cons, Nat.zero_add, List.range'_concat]
    simp [Nat.add_comm]
  rw [e]
  simp [hL]
  rfl

/-- All points of a tetrahedron. -/
theorem tet_split (k : Nat) : tetLattice (k + 1) g =
    g 0 0 0 :: ((List.range k).map (fun i => g (i + 1) 0 0) ++ g (k + 1) 0 0 :: (strip (h0 g) 0 k (k + 1) ++ g 0 (k + 1) 0 ::
      ((List.range k).flatMap (fun i => g 0 0 (i + 1) :: (mid g k i ++ g (k - i) 0 (i + 1) :: strip (hL g i) 0 (k - i) (k - i))) ++
        [g 0 0 (k + 1)]))) := by
  rw [tetLattice_succ, triLattice_split]
  have e : tetLattice k (fun x y z => g x y (z + 1)) =
      (List.range k).flatMap (fun i => g 0 0 (i + 1) :: (mid g k i ++ g (k - i) 0 (i + 1) :: strip (hL g i) 0 (k - i) (k - i))) ++
        [g 0 0 (k + 1)] := by
    simp only [tetLattice, List.range_succ, List.flatMap_append, List.flatMap_cons, List.flatMap_nil, Nat.sub_self]
    congr 1
    apply List.flatMap_congr
    intro i hi
    exact layer_split g k i (List.mem_range.1 hi)
  rw [e]
  simp [h0]
  rfl

theorem tetCorners_spec (k : Nat) (LAY : List α) : tetCorners ((k : Int) + 2)
    (g 0 0 0 :: ((List.range k).map (fun i => g (i + 1) 0 0) ++ g (k + 1) 0 0 :: (strip (h0 g) 0 k (k + 1) ++ g 0 (k + 1) 0 ::
      (LAY ++ [g 0 0 (k + 1)])))) = .ok ([g 0 0 0, g (k + 1) 0 0, g 0 (k + 1) 0, g 0 0 (k + 1)],
        (List.range k).map (fun i => g (i + 1) 0 0) ++ (strip (h0 g) 0 k (k + 1) ++ LAY)) := by
  have p0 : vecPop (g 0 0 0 :: ((List.range k).map (fun i => g (i + 1) 0 0) ++ g (k + 1) 0 0 ::
      (strip (h0 g) 0 k (k + 1) ++ g 0 (k + 1) 0 :: (LAY ++ [g 0 0 (k + 1)])))) 0 = .ok (g 0 0 0, _) := vecPop_pos [] _ _ 0 rfl
  have p1 : vecPop ((List.range k).map (fun i => g (i + 1) 0 0) ++ g (k + 1) 0 0 ::
      (strip (h0 g) 0 k (k + 1) ++ g 0 (k + 1) 0 :: (LAY ++ [g 0 0 (k + 1)]))) ((k : Int) + 2 - 2) =
      .ok (g (k + 1) 0 0, _) := vecPop_pos _ _ _ _ (by simp)
  have l := strip_length (h0 g) 0 k (k + 1) (by omega)
  rw [show k + 1 - k = 0 + 1 by omega, T_succ, T_zero] at l
  have hT : ((k : Int) + 2) * ((k : Int) + 2 + 1) / 2 = T (k + 2) := T_int _ _ (k + 2) (by push_cast; ring) (by push_cast; ring)
  have hT2 : T (k + 2) = T (k + 1) + (k + 1 + 1) := T_succ (k + 1)
  have p2 : vecPop ((List.range k).map (fun i => g (i + 1) 0 0) ++ (strip (h0 g) 0 k (k + 1) ++ g 0 (k + 1) 0 ::
      (LAY ++ [g 0 0 (k + 1)]))) (((k : Int) + 2) * ((k : Int) + 2 + 1) / 2 - 3) =
      .ok (g 0 (k + 1) 0, ((List.range k).map (fun i => g (i + 1) 0 0) ++ strip (h0 g) 0 k (k + 1)) ++ (LAY ++ [g 0 0 (k + 1)])) := by
    rw [← List.append_assoc]
    refine vecPop_pos _ _ _ _ ?_
    rw [hT, List.length_append, List.length_map, List.length_range]
    push_cast
    omega
  have p3 : vecPop (((List.range k).map (fun i => g (i + 1) 0 0) ++ strip (h0 g) 0 k (k + 1)) ++ (LAY ++ [g 0 0 (k + 1)])) (-1) =
      .ok (g 0 0 (k + 1), ((List.range k).map (fun i => g (i + 1) 0 0) ++ strip (h0 g) 0 k (k + 1)) ++ LAY) := by
    rw [← List.append_assoc]
    exact vecPop_last _ _
  rw [List.nil_append] at p0
  simp only [tetCorners, bind, Except.bind, p0, p1, p2, p3, pure, Except.pure]
  rw [List.append_assoc]

theorem strip_len' (h : Nat → Nat → α) (s c : Nat) : (strip h s c c).length = T c := by
  have := strip_length h s c c (le_refl _)
  rw [Nat.sub_self, T_zero] at this
  omega

theorem strip_len1 (h : Nat → Nat → α) (s c : Nat) : (strip h s c (c + 1)).length + 1 = T (c + 1) := by
  have := strip_length h s c (c + 1) (by omega)
  rw [show c + 1 - c = 0 + 1 by omega, T_succ, T_zero] at this
  omega

theorem T_pos (c : Nat) (h : 0 < c) : T c = T (c - 1) + c := by
  obtain ⟨d, rfl⟩ : ∃ d, c = d + 1 := ⟨c - 1, by omega⟩
  rw [T_succ, Nat.add_sub_cancel]

theorem tetEdges_spec (k : Nat) (hk : 0 < k) : tetEdges ((k : Int) + 2)
    ((List.range k).map (fun i => g (i + 1) 0 0) ++ (strip (h0 g) 0 k (k + 1) ++
      (List.range k).flatMap (fun i => g 0 0 (i + 1) :: (mid g k i ++ g (k - i) 0 (i + 1) :: strip (hL g i) 0 (k - i) (k - i))))) =
    .ok ((List.range k).map (fun i => g (i + 1) 0 0) ++ (List.range k).map (fun i => g (k - i) (i + 1) 0) ++
      (List.range k).map (fun i => g 0 (k - i) 0) ++ (List.range k).map (fun i => g 0 0 (i + 1)) ++
      (List.range k).map (fun i => g (k - i) 0 (i + 1)) ++ (List.range k).map (fun i => g 0 (k - i) (i + 1)),
      strip (h0 g) 1 (k - 1) (k - 1) ++ (List.range k).flatMap (fun i => mid g k i ++ strip (hL g i) 0 (k - i - 1) (k - i))) := by
  have hc : ((k : Int) + 2 - 2).toNat = k := by omega
  -- layer 0
  have p0 := popFront ((List.range k).map (fun i => g (i + 1) 0 0)) (strip (h0 g) 0 k (k + 1) ++
      (List.range k).flatMap (fun i => g 0 0 (i + 1) :: (mid g k i ++ g (k - i) 0 (i + 1) :: strip (hL g i) 0 (k - i) (k - i))))
      [] 0 0 rfl
  rw [List.length_map, List.length_range, List.nil_append, List.nil_append] at p0
  have p1 := layerEnds (h0 g) k (fun i => (k : Int) + 2 - 3 - i) 0 ((k : Int) + 2 - 2) []
      ((List.range k).flatMap (fun i => g 0 0 (i + 1) :: (mid g k i ++ g (k - i) 0 (i + 1) :: strip (hL g i) 0 (k - i) (k - i))))
      (by simp) (fun i hi => by push_cast; omega)
  rw [List.nil_append, List.nil_append] at p1
  have t2 : ((k : Int) + 2 - 2) * ((k : Int) + 2 - 1) / 2 = T k := T_int _ _ k (by ring) (by ring)
  have p2 := layerStarts (h0 g) k (fun i => -(2 + i : Int)) 0 (((k : Int) + 2 - 2) * ((k : Int) + 2 - 1) / 2 - 1) []
      ((List.range k).flatMap (fun i => g 0 0 (i + 1) :: (mid g k i ++ g (k - i) 0 (i + 1) :: strip (hL g i) 0 (k - i) (k - i))))
      (by rw [t2]; simp) (fun i hi => by push_cast; omega)
  rw [List.nil_append, List.nil_append] at p2
  -- the other layers
  have t3 : ((k : Int) + 2 - 3) * ((k : Int) + 2 - 2) / 2 = T (k - 1) := T_int _ _ (k - 1) (by omega) (by omega)
  have p3 := popBlocks k (fun _ => []) (fun i => mid g k i ++ g (k - i) 0 (i + 1) :: strip (hL g i) 0 (k - i) (k - i))
      (fun i => g 0 0 (i + 1)) (fun i => ((k : Int) + 2 - i) * ((k : Int) + 2 - i - 1) / 2 - 1) 0
      (((k : Int) + 2 - 3) * ((k : Int) + 2 - 2) / 2) (strip (h0 g) 1 (k - 1) (k - 1)) []
      (fun _ => by rw [t3, strip_len']; simp)
      (fun i hi => by
        rw [Nat.zero_add, T_int' _ _ (k - i + 1) (by omega) (by omega)]
        simp only [List.length_append, List.length_cons, mid_length, strip_len', List.length_nil, T_succ]
        push_cast
        omega)
  simp only [List.nil_append, List.append_nil] at p3
  have p4 := popBlocks k (fun i => mid g k i) (fun i => strip (hL g i) 0 (k - i) (k - i)) (fun i => g (k - i) 0 (i + 1))
      (fun i => ((k : Int) + 2 - 2 - i) * ((k : Int) + 2 - 1 - i) / 2 + ((k : Int) + 2) - 4 - i) 0
      (((k : Int) + 2 - 3) * ((k : Int) + 2 - 2) / 2 + ((k : Int) + 2) - 3) (strip (h0 g) 1 (k - 1) (k - 1)) []
      (fun _ => by rw [t3, strip_len', mid_length]; omega)
      (fun i hi => by
        rw [Nat.zero_add, T_int _ _ (k - i) (by omega) (by omega), strip_len', mid_length]
        omega)
  simp only [List.append_nil] at p4
  have hs : ∀ i, i < k → strip (hL g i) 0 (k - i) (k - i) = strip (hL g i) 0 (k - i - 1) (k - i) ++ [g 0 (k - i) (i + 1)] := by
    intro i hi
    conv_lhs => rw [show k - i = (k - i - 1) + 1 by omega, strip_succ]
    rw [show k - i - 1 + 1 = k - i by omega, show k - i - (k - i - 1) = 1 by omega]
    simp [hL, show k - i - 1 + 1 = k - i by omega]
  have e5 : (List.range k).flatMap (fun i => mid g k i ++ strip (hL g i) 0 (k - i) (k - i)) =
      (List.range k).flatMap (fun i => (mid g k i ++ strip (hL g i) 0 (k - i - 1) (k - i)) ++ g 0 (k - i) (i + 1) :: []) := by
    apply List.flatMap_congr
    intro i hi
    rw [hs i (List.mem_range.1 hi), List.append_assoc]
  have ls : ∀ i, i < k → (strip (hL g i) 0 (k - i - 1) (k - i)).length + 1 = T (k - i) := by
    intro i hi
    have := strip_len1 (hL g i) 0 (k - i - 1)
    rwa [show k - i - 1 + 1 = k - i by omega] at this
  have p5 := popBlocks k (fun i => mid g k i ++ strip (hL g i) 0 (k - i - 1) (k - i)) (fun _ => []) (fun i => g 0 (k - i) (i + 1))
      (fun i => ((k : Int) + 2 - 3 - i) * ((k : Int) + 2 - 2 - i) / 2 + ((k : Int) + 2) - i - 5) 0
      (((k : Int) + 2 - 3) * ((k : Int) + 2 - 2) / 2 + ((k : Int) + 2) - 3 + ((k : Int) + 2 - 2) * ((k : Int) + 2 - 1) / 2 - 1)
      (strip (h0 g) 1 (k - 1) (k - 1)) []
      (fun _ => by
        have := ls 0 hk
        rw [Nat.sub_zero] at this
        rw [t3, t2, strip_len', List.length_append, mid_length, Nat.sub_zero]
        push_cast
        omega)
      (fun i hi => by
        have := ls (i + 1) hi
        rw [Nat.zero_add, T_int _ _ (k - (i + 1)) (by omega) (by omega), List.length_append, mid_length]
        simp only [List.length_nil]
        push_cast
        omega)
  simp only [List.append_nil] at p5
  rw [← e5] at p5
  simp only [tetEdges, hc, bind, Except.bind, p0, p1, p2, p3, p4, p5, pure, Except.pure]
  congr 3
  congr 3
  apply List.map_congr_left
  intro i hi
  have := List.mem_range.1 hi
  simp only [h0]
  congr 1
  omega

end Verif.CellPerm
