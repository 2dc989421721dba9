import Verif.Model.CellPerm
import Verif.Spec.CellNodes
import Verif.Prelude
/-!
# Removing values at computed positions
-/
namespace Verif.CellPerm
open Verif.Spec

variable {α : Type}

/-- Triangular numbers. -/
def T : Nat → Nat
  | 0 => 0
  | k + 1 => T k + (k + 1)

theorem T_zero : T 0 = 0 := rfl

theorem T_succ (k : Nat) : T (k + 1) = T k + (k + 1) := rfl

theorem T_eq (k : Nat) : 2 * T k = k * (k + 1) := by
  induction k with
  | zero => rfl
  | succ k ih => rw [T_succ]; linarith

/-- The expression of the code for triangular numbers. -/
theorem T_int (a b : Int) (k : Nat) (ha : a = k) (hb : b = k + 1) : a * b / 2 = T k := by
  have h : (2 : Int) * T k = k * (k + 1) := by exact_mod_cast T_eq k
  rw [ha, hb, ← h]
  omega

theorem T_int' (a b : Int) (k : Nat) (ha : a = k + 1) (hb : b = k) : a * b / 2 = T k := by
  rw [mul_comm]; exact T_int b a k hb ha

theorem T_mono {a b : Nat} (h : a ≤ b) : T a ≤ T b := by
  induction b with
  | zero => have : a = 0 := by omega
            subst this; exact le_refl _
  | succ b ih =>
    by_cases hb : a = b + 1
    · subst hb; exact le_refl _
    · have := ih (by omega)
      rw [T_succ]; omega

theorem vecPop_pos (A B : List α) (x : α) (d : Int) (h : d = A.length) :
    vecPop (A ++ x :: B) d = .ok (x, A ++ B) := by
  subst h
  have h1 : ¬ ((A.length : Int) < 0) := by omega
  simp only [vecPop, if_neg h1, Int.toNat_natCast]
  rw [List.getElem?_append_right (le_refl _), Nat.sub_self]
  simp only [List.getElem?_cons_zero]
  rw [List.eraseIdx_append_of_length_le (le_refl _), Nat.sub_self]
  rfl

theorem vecPop_neg (v : List α) (d : Int) (h : d < 0) (h' : 0 ≤ (v.length : Int) + d) :
    vecPop v d = vecPop v ((v.length : Int) + d) := by
  have h1 : ¬ ((v.length : Int) + d < 0) := by omega
  simp only [vecPop, if_pos h, if_neg h1]

theorem vecPop_last (A : List α) (x : α) : vecPop (A ++ [x]) (-1) = .ok (x, A) := by
  rw [vecPop_neg _ _ (by omega) (by simp), vecPop_pos A [] x _ (by simp)]
  simp

theorem popFront (A B : List α) (P : List α) (i : Nat) (d : Int) (h : d = P.length) :
    popLoop (fun _ => 0) A.length i d (P ++ (A ++ B)) = .ok (A, P ++ B) := by
  induction A generalizing i with
  | nil => rfl
  | cons a A ih =>
    simp only [List.length_cons, popLoop]
    rw [List.cons_append, vecPop_pos P (A ++ B) a d h]
    simp only [Int.add_zero]
    rw [ih]

/-- One value is removed from each of a sequence of blocks. -/
theorem popBlocks (k : Nat) (u v : Nat → List α) (x : Nat → α) (f : Nat → Int) (i0 : Nat) (d : Int) (A R : List α)
    (h0 : 0 < k → d = (A.length : Int) + (u 0).length)
    (hf : ∀ i, i + 1 < k → f (i0 + i) = ((v i).length : Int) + (u (i + 1)).length) :
    popLoop f k i0 d (A ++ (List.range k).flatMap (fun i => u i ++ x i :: v i) ++ R) =
      .ok ((List.range k).map x, A ++ (List.range k).flatMap (fun i => u i ++ v i) ++ R) := by
  induction k generalizing u v x i0 d A with
  | zero => simp [popLoop]
  | succ k ih =>
    simp only [List.range_succ_eq_map, List.flatMap_cons, List.flatMap_map, List.map_cons, List.map_map, popLoop]
    have e : A ++ (u 0 ++ x 0 :: v 0 ++ (List.range k).flatMap fun i => u i.succ ++ x i.succ :: v i.succ) ++ R =
        (A ++ u 0) ++ x 0 :: (v 0 ++ ((List.range k).flatMap fun i => u i.succ ++ x i.succ :: v i.succ) ++ R) := by
      simp [List.append_assoc]
    rw [e, vecPop_pos (A ++ u 0) _ (x 0) d (by rw [h0 (by omega)]; simp)]
    have e2 : (A ++ u 0) ++ (v 0 ++ ((List.range k).flatMap fun i => u i.succ ++ x i.succ :: v i.succ) ++ R) =
        (A ++ (u 0 ++ v 0)) ++ ((List.range k).flatMap fun i => u i.succ ++ x i.succ :: v i.succ) ++ R := by
      simp [List.append_assoc]
    simp only [e2]
    have := ih (fun i => u (i + 1)) (fun i => v (i + 1)) (fun i => x (i + 1)) (i0 + 1) (d + f i0) (A ++ (u 0 ++ v 0))
      (fun hk => by
        have h1 := hf 0 (by omega)
        rw [Nat.add_zero] at h1
        rw [h1, h0 (by omega)]
        simp only [List.length_append]
        push_cast
        omega)
      (fun i hi => by
        have := hf (i + 1) (by omega)
        rw [show i0 + 1 + i = i0 + (i + 1) by omega, this])
    simp only [Nat.succ_eq_add_one]
    rw [this]
    simp [List.append_assoc, Function.comp_def]

/-- The first value is removed from each of a sequence of blocks, from the last block to the first one. -/
theorem popBlocksRev (k : Nat) (v : Nat → List α) (x : Nat → α) (f : Nat → Int) (i0 : Nat) (d : Int) (A R : List α)
    (h0 : 0 < k → d = (A.length : Int) + ((List.range (k - 1)).flatMap fun i => x i :: v i).length)
    (hf : ∀ i, i + 1 < k → f (i0 + i) = -((v (k - 2 - i)).length : Int) - 1) :
    popLoop f k i0 d (A ++ (List.range k).flatMap (fun i => x i :: v i) ++ R) =
      .ok ((List.range k).map (fun i => x (k - 1 - i)), A ++ (List.range k).flatMap v ++ R) := by
  induction k generalizing i0 d R with
  | zero => simp [popLoop]
  | succ k ih =>
    simp only [List.range_succ (n := k), List.flatMap_append, List.flatMap_cons, List.flatMap_nil, List.append_nil]
    rw [Nat.add_sub_cancel] at h0
    simp only [popLoop]
    have e : A ++ (((List.range k).flatMap fun i => x i :: v i) ++ x k :: v k) ++ R =
        (A ++ (List.range k).flatMap fun i => x i :: v i) ++ x k :: (v k ++ R) := by
      simp [List.append_assoc]
    rw [e, vecPop_pos _ _ (x k) d (by rw [h0 (by omega)]; simp)]
    simp only
    have := ih (i0 + 1) (d + f i0) (v k ++ R)
      (fun hk => by
        have h1 := hf 0 (by omega)
        rw [Nat.add_zero] at h1
        rw [h1, h0 (by omega)]
        obtain ⟨k, rfl⟩ : ∃ j, k = j + 1 := ⟨k - 1, by omega⟩
        rw [List.range_succ, show k + 1 + 1 - 2 - 0 = k by omega]
        simp only [List.flatMap_append, List.flatMap_cons, List.flatMap_nil, List.append_nil, List.length_append,
          List.length_cons, Nat.add_sub_cancel]
        push_cast
        omega)
      (fun i hi => by
        have := hf (i + 1) (by omega)
        rw [show i0 + 1 + i = i0 + (i + 1) by omega, this, show k + 1 - 2 - (i + 1) = k - 2 - i by omega])
    rw [this]
    simp only [← List.range_succ, List.range_succ_eq_map (n := k), List.map_cons, List.map_map, Function.comp_def,
      List.append_assoc, Nat.succ_eq_add_one, Nat.add_sub_cancel, Nat.sub_zero]
    congr 3
    apply List.map_congr_left
    intro i hi
    congr 1
    omega

/-- Positions counted from the end. -/
theorem popLoop_neg (f : Nat → Int) (k i0 : Nat) (d : Int) (v : List α) (D : Nat → Int) (h0 : 0 < k → D 0 = d)
    (hD : ∀ j, j + 1 < k → D (j + 1) = D j + f (i0 + j)) (hneg : ∀ j, j < k → D j < 0)
    (hr : ∀ j, j < k → 0 ≤ (v.length : Int) - j + D j) :
    popLoop f k i0 d v = popLoop (fun i => f i - 1) k i0 ((v.length : Int) + d) v := by
  induction k generalizing i0 d v D with
  | zero => rfl
  | succ k ih =>
    simp only [popLoop]
    have hd := h0 (by omega)
    have hn := hneg 0 (by omega)
    have hr0 := hr 0 (by omega)
    rw [hd] at hn hr0
    rw [vecPop_neg v d hn (by omega)]
    cases hv : vecPop v ((v.length : Int) + d) with
    | error e => rfl
    | ok p =>
      obtain ⟨x, v'⟩ := p
      simp only
      have hlen : (v'.length : Int) = v.length - 1 := by
        have h1 : ¬ ((v.length : Int) + d < 0) := by omega
        simp only [vecPop, if_neg h1] at hv
        split at hv
        · rename_i y hy
          simp only [Except.ok.injEq, Prod.mk.injEq] at hv
          obtain ⟨hlt, -⟩ := List.getElem?_eq_some_iff.1 hy
          rw [← hv.2, List.length_eraseIdx_of_lt hlt]
          omega
        · cases hv
      rw [ih (i0 + 1) (d + f i0) v' (fun j => D (j + 1))
        (fun hk => by have := hD 0 (by omega); simp only [Nat.add_zero] at this; rw [← hd]; exact this)
        (fun j hj => by have := hD (j + 1) (by omega); rw [this]; congr 2; omega)
        (fun j hj => hneg (j + 1) (by omega))
        (fun j hj => by have := hr (j + 1) (by omega); push_cast at this; omega)]
      congr 2
      omega

/-- `k` rows: row `j` starts at `s` and has `c - j` values. -/
def strip (h : Nat → Nat → α) (s k c : Nat) : List α :=
  (List.range k).flatMap fun j => (List.range' s (c - j)).map (h · j)

theorem strip_length (h : Nat → Nat → α) (s k c : Nat) (hk : k ≤ c) : (strip h s k c).length + T (c - k) = T c := by
  induction k with
  | zero => simp [strip]
  | succ k ih =>
    have := ih (by omega)
    simp only [strip, List.range_succ, List.flatMap_append, List.length_append, List.flatMap_cons, List.flatMap_nil,
      List.append_nil, List.length_map, List.length_range'] at this ⊢
    rw [show c - k = (c - (k + 1)) + 1 by omega, T_succ] at this
    omega

theorem strip_succ (h : Nat → Nat → α) (s k c : Nat) :
    strip h s (k + 1) c = strip h s k c ++ (List.range' s (c - k)).map (h · k) := by
  simp [strip, List.range_succ]

/-- Rows without values can be left out. -/
theorem strip_all (h : Nat → Nat → α) (s c : Nat) : strip h s (c + 1) c = strip h s c c := by
  rw [strip_succ]; simp

theorem strip_cut (h : Nat → Nat → α) (s k c : Nat) (hk : c ≤ k) : strip h s k c = strip h s c c := by
  induction k with
  | zero => rw [Nat.le_zero.1 hk]
  | succ k ih =>
    by_cases hc : c = k + 1
    · rw [hc]
    · rw [strip_succ, ih (by omega), show c - k = 0 by omega]; simp

/-- The last values of `k` rows are removed. -/
theorem layerEnds (h : Nat → Nat → α) (k : Nat) (f : Nat → Int) (i0 : Nat) (d : Int) (A R : List α)
    (h0 : d = (A.length : Int) + k) (hf : ∀ i, i + 1 < k → f (i0 + i) = (k : Int) - 1 - i) :
    popLoop f k i0 d (A ++ strip h 0 k (k + 1) ++ R) =
      .ok ((List.range k).map (fun i => h (k - i) i), A ++ strip h 0 k k ++ R) := by
  have := popBlocks k (fun j => (List.range' 0 (k - j)).map (h · j)) (fun _ => []) (fun j => h (k - j) j) f i0 d A R
    (fun _ => by simpa using h0)
    (fun i hi => by rw [hf i hi]; simp; omega)
  have e1 : strip h 0 k (k + 1) = (List.range k).flatMap fun j => (List.range' 0 (k - j)).map (h · j) ++ h (k - j) j :: [] := by
    unfold strip
    apply List.flatMap_congr
    intro j hj
    have hj := List.mem_range.1 hj
    rw [show k + 1 - j = (k - j) + 1 by omega, List.range'_concat]
    simp
  rw [e1, this]
  simp [strip]

/-- The first values of `k` rows are removed, from the last row to the first one. -/
theorem layerStarts (h : Nat → Nat → α) (k : Nat) (f : Nat → Int) (i0 : Nat) (d : Int) (A R : List α)
    (h0 : d = (A.length : Int) + T k - 1) (hf : ∀ i, i + 1 < k → f (i0 + i) = -(2 + (i : Int))) :
    popLoop f k i0 d (A ++ strip h 0 k k ++ R) =
      .ok ((List.range k).map (fun i => h 0 (k - 1 - i)), A ++ strip h 1 (k - 1) (k - 1) ++ R) := by
  have e1 : ∀ n, n ≤ k → strip h 0 n k =
      (List.range n).flatMap fun j => h 0 j :: (List.range' 1 (k - 1 - j)).map (h · j) := by
    intro n hn
    unfold strip
    apply List.flatMap_congr
    intro j hj
    have hj := List.mem_range.1 hj
    rw [show k - j = (k - 1 - j) + 1 by omega, List.range'_succ]
    rfl
  have := popBlocksRev k (fun j => (List.range' 1 (k - 1 - j)).map (h · j)) (fun j => h 0 j) f i0 d A R
    (fun hk => by
      rw [h0, ← e1 (k - 1) (by omega)]
      have := strip_length h 0 (k - 1) k (by omega)
      rw [show k - (k - 1) = 0 + 1 by omega, T_succ, T_zero] at this
      omega)
    (fun i hi => by rw [hf i hi]; simp; omega)
  rw [← e1 k (le_refl _)] at this
  rw [this]
  congr 3
  have := strip_cut h 1 k (k - 1) (by omega)
  rw [← this]
  rfl

end Verif.CellPerm
