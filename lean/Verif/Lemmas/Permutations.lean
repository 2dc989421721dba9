import Verif.Model.Permutations
import Verif.Spec.FaceOrient
import Mathlib.Tactic.IntervalCases
/-!
# Lemmas on face rotations and reflections
-/
namespace Verif.Permutations
open Verif.Spec

theorem min3_0 (a b c : Int) (h1 : a < b) (h2 : a < c) : minPos [a, b, c] = 0 := by
  simp only [minPos, minFrom]
  rw [if_neg (by omega), if_neg (by omega)]
theorem min3_1 (a b c : Int) (h1 : b < a) (h2 : b < c) : minPos [a, b, c] = 1 := by
  simp only [minPos, minFrom]
  rw [if_pos (by omega), if_neg (by omega)]
theorem min3_2 (a b c : Int) (h1 : c < a) (h2 : c < b) : minPos [a, b, c] = 2 := by
  simp only [minPos, minFrom]
  by_cases h : b < a
  · rw [if_pos h, if_pos h2]
  · rw [if_neg h, if_pos h1]

theorem min4_0 (a b c d : Int) (h1 : a < b) (h2 : a < c) (h3 : a < d) : minPos [a, b, c, d] = 0 := by
  simp only [minPos, minFrom]
  rw [if_neg (by omega), if_neg (by omega), if_neg (by omega)]
theorem min4_1 (a b c d : Int) (h1 : b < a) (h2 : b < c) (h3 : b < d) : minPos [a, b, c, d] = 1 := by
  simp only [minPos, minFrom]
  rw [if_pos (by omega), if_neg (by omega), if_neg (by omega)]
theorem min4_2 (a b c d : Int) (h1 : c < a) (h2 : c < b) (h3 : c < d) : minPos [a, b, c, d] = 2 := by
  simp only [minPos, minFrom]
  by_cases h : b < a
  · rw [if_pos h, if_pos h2, if_neg (by omega)]
  · rw [if_neg h, if_pos h1, if_neg (by omega)]
theorem min4_3 (a b c d : Int) (h1 : d < a) (h2 : d < b) (h3 : d < c) : minPos [a, b, c, d] = 3 := by
  simp only [minPos, minFrom]
  split_ifs <;> omega

theorem toInt32_id (x : Int) (h0 : 0 ≤ x) (h1 : x < 2 ^ 31) : toInt32 x = x := by
  unfold toInt32; omega

/-- The number stored for a face. -/
def code (r : Bool × Nat) : Nat := (if r.1 then 1 else 0) + 2 * r.2

theorem rotN3 (n : Nat) (a b c : Int) : rotN n [a, b, c] = [a, b, c] ∨ rotN n [a, b, c] = [c, a, b] ∨ rotN n [a, b, c] = [b, c, a] := by
  induction n with
  | zero => left; rfl
  | succ n ih => unfold rotN; rcases ih with h | h | h <;> rw [h] <;> simp [rot]

theorem rotN4 (n : Nat) (a b c d : Int) : rotN n [a, b, c, d] = [a, b, c, d] ∨ rotN n [a, b, c, d] = [c, a, d, b] ∨
    rotN n [a, b, c, d] = [d, c, b, a] ∨ rotN n [a, b, c, d] = [b, d, a, c] := by
  induction n with
  | zero => left; rfl
  | succ n ih => unfold rotN; rcases ih with h | h | h | h <;> rw [h] <;> simp [rot]

theorem sameFace3 (a b c : Int) (m : List Int) (h : SameFace [a, b, c] m) :
    m = [a, b, c] ∨ m = [c, a, b] ∨ m = [b, c, a] ∨ m = [a, c, b] ∨ m = [b, a, c] ∨ m = [c, b, a] := by
  obtain ⟨k, rfl⟩ := h
  unfold orient
  split
  · simp only [reflect]; rcases rotN3 (k / 2) a c b with h | h | h <;> rw [h] <;> simp
  · rcases rotN3 (k / 2) a b c with h | h | h <;> rw [h] <;> simp

theorem sameFace4 (a b c d : Int) (m : List Int) (h : SameFace [a, b, c, d] m) :
    m = [a, b, c, d] ∨ m = [c, a, d, b] ∨ m = [d, c, b, a] ∨ m = [b, d, a, c] ∨
    m = [a, c, b, d] ∨ m = [b, a, d, c] ∨ m = [d, b, c, a] ∨ m = [c, d, a, b] := by
  obtain ⟨k, rfl⟩ := h
  unfold orient
  split
  · simp only [reflect]; rcases rotN4 (k / 2) a c b d with h | h | h | h <;> rw [h] <;> simp
  · rcases rotN4 (k / 2) a b c d with h | h | h | h <;> rw [h] <;> simp

/-- One case of the triangle. -/
theorem triangle_val (e v : List Int) (i g : Nat) (hi : minPos e = i) (hg : minPos v = g) (p q x y : Int)
    (hp : e.getD ((i + 2) % 3) 0 = p) (hq : e.getD ((i + 1) % 3) 0 = q)
    (hx : toInt32 (v.getD ((g + 2) % 3) 0) = x) (hy : toInt32 (v.getD ((g + 1) % 3) 0) = y) :
    triangle e v = (decide (q > p) == decide (y < x), if y > x then (g + 3 - i) % 3 else (i + 3 - g) % 3) := by
  unfold triangle
  simp only [hi, hg, hp, hq, hx, hy]

theorem tri_core (l0 l1 l2 r0 r1 r2 : Int) (h01 : l0 < l1) (h12 : l1 < l2)
    (d01 : r0 ≠ r1) (d02 : r0 ≠ r2) (d12 : r1 ≠ r2)
    (t0 : toInt32 r0 = r0) (t1 : toInt32 r1 = r1) (t2 : toInt32 r2 = r2)
    (f : Int → Int) (f0 : f r0 = l0) (f1 : f r1 = l1) (f2 : f r2 = l2)
    (m : List Int) (hm : SameFace [r0, r1, r2] m) :
    LowToHigh (orient (code (triangle (m.map f) m)) [r0, r1, r2]) := by
  have ho : (r0 < r1 ∧ r1 < r2) ∨ (r0 < r2 ∧ r2 < r1) ∨ (r1 < r0 ∧ r0 < r2) ∨ (r1 < r2 ∧ r2 < r0) ∨
      (r2 < r0 ∧ r0 < r1) ∨ (r2 < r1 ∧ r1 < r0) := by omega
  have h02 : l0 < l2 := by omega
  rcases sameFace3 _ _ _ _ hm with rfl | rfl | rfl | rfl | rfl | rfl <;>
  simp only [List.map_cons, List.map_nil, f0, f1, f2] <;>
  rcases ho with ⟨ha, hb⟩ | ⟨ha, hb⟩ | ⟨ha, hb⟩ | ⟨ha, hb⟩ | ⟨ha, hb⟩ | ⟨ha, hb⟩ <;>
  (have hc := lt_trans ha hb
   unfold triangle
   simp (discharger := omega) only [min3_0, min3_1, min3_2]
   simp [t0, t1, t2, code, h01, h12, h02, ha, hb, hc, not_lt_of_gt h01, not_lt_of_gt h12, not_lt_of_gt h02,
     not_lt_of_gt ha, not_lt_of_gt hb, not_lt_of_gt hc, orient, rotN, rot, reflect, LowToHigh])

theorem quad_order (r0 r1 r2 r3 : Int)
    (hd : r0 ≠ r1 ∧ r0 ≠ r2 ∧ r0 ≠ r3 ∧ r1 ≠ r2 ∧ r1 ≠ r3 ∧ r2 ≠ r3) :
    (r0 < r1 ∧ r0 < r2 ∧ r0 < r3 ∧ r1 < r2) ∨ (r0 < r1 ∧ r0 < r2 ∧ r0 < r3 ∧ r2 < r1) ∨
      (r1 < r0 ∧ r1 < r2 ∧ r1 < r3 ∧ r0 < r3) ∨ (r1 < r0 ∧ r1 < r2 ∧ r1 < r3 ∧ r3 < r0) ∨
      (r2 < r0 ∧ r2 < r1 ∧ r2 < r3 ∧ r0 < r3) ∨ (r2 < r0 ∧ r2 < r1 ∧ r2 < r3 ∧ r3 < r0) ∨
      (r3 < r0 ∧ r3 < r1 ∧ r3 < r2 ∧ r1 < r2) ∨ (r3 < r0 ∧ r3 < r1 ∧ r3 < r2 ∧ r2 < r1) := by
  obtain ⟨d01, d02, d03, d12, d13, d23⟩ := hd
  rcases lt_or_gt_of_ne d01 with h01 | h01 <;> rcases lt_or_gt_of_ne d23 with h23 | h23
  · rcases lt_or_gt_of_ne d02 with h | h
    · rcases lt_or_gt_of_ne d12 with h' | h'
      · left; omega
      · right; left; omega
    · right; right; right; right
      rcases lt_or_gt_of_ne d03 with h' | h'
      · left; omega
      · right; left; omega
  · rcases lt_or_gt_of_ne d03 with h | h
    · rcases lt_or_gt_of_ne d12 with h' | h'
      · left; omega
      · right; left; omega
    · right; right; right; right; right; right
      rcases lt_or_gt_of_ne d12 with h' | h'
      · left; omega
      · right; omega
  · rcases lt_or_gt_of_ne d12 with h | h
    · right; right
      rcases lt_or_gt_of_ne d03 with h' | h'
      · left; omega
      · right; left; omega
    · right; right; right; right
      rcases lt_or_gt_of_ne d03 with h' | h'
      · left; omega
      · right; left; omega
  · rcases lt_or_gt_of_ne d13 with h | h
    · right; right
      rcases lt_or_gt_of_ne d03 with h' | h'
      · left; omega
      · right; left; omega
    · right; right; right; right; right; right
      rcases lt_or_gt_of_ne d12 with h' | h'
      · left; omega
      · right; omega

theorem quad_case0 (l0 l1 l2 l3 r0 r1 r2 r3 : Int) (h01 : l0 < l1) (h12 : l1 < l2) (h23 : l2 < l3)
    (hd : r0 ≠ r1 ∧ r0 ≠ r2 ∧ r0 ≠ r3 ∧ r1 ≠ r2 ∧ r1 ≠ r3 ∧ r2 ≠ r3) :
    LowToHigh (orient (code (quad [l0, l1, l2, l3] [r0, r1, r2, r3])) [r0, r1, r2, r3]) := by
  rcases quad_order r0 r1 r2 r3 hd with ⟨ha, hb, hc, he⟩ | ⟨ha, hb, hc, he⟩ | ⟨ha, hb, hc, he⟩ | ⟨ha, hb, hc, he⟩ |
    ⟨ha, hb, hc, he⟩ | ⟨ha, hb, hc, he⟩ | ⟨ha, hb, hc, he⟩ | ⟨ha, hb, hc, he⟩ <;>
  (clear hd
   unfold quad
   simp (discharger := omega) only [min4_0, min4_1, min4_2, min4_3]
   simp [prev, code, h12, not_lt_of_gt h12, he, not_lt_of_gt he, ha, hb, hc, orient, rotN, rot, reflect, LowToHigh])

theorem quad_case1 (l0 l1 l2 l3 r0 r1 r2 r3 : Int) (h01 : l0 < l1) (h12 : l1 < l2) (h23 : l2 < l3)
    (hd : r0 ≠ r1 ∧ r0 ≠ r2 ∧ r0 ≠ r3 ∧ r1 ≠ r2 ∧ r1 ≠ r3 ∧ r2 ≠ r3) :
    LowToHigh (orient (code (quad [l2, l0, l3, l1] [r2, r0, r3, r1])) [r0, r1, r2, r3]) := by
  rcases quad_order r0 r1 r2 r3 hd with ⟨ha, hb, hc, he⟩ | ⟨ha, hb, hc, he⟩ | ⟨ha, hb, hc, he⟩ | ⟨ha, hb, hc, he⟩ |
    ⟨ha, hb, hc, he⟩ | ⟨ha, hb, hc, he⟩ | ⟨ha, hb, hc, he⟩ | ⟨ha, hb, hc, he⟩ <;>
  (clear hd
   unfold quad
   simp (discharger := omega) only [min4_0, min4_1, min4_2, min4_3]
   simp [prev, code, h12, not_lt_of_gt h12, he, not_lt_of_gt he, ha, hb, hc, orient, rotN, rot, reflect, LowToHigh])

theorem quad_case2 (l0 l1 l2 l3 r0 r1 r2 r3 : Int) (h01 : l0 < l1) (h12 : l1 < l2) (h23 : l2 < l3)
    (hd : r0 ≠ r1 ∧ r0 ≠ r2 ∧ r0 ≠ r3 ∧ r1 ≠ r2 ∧ r1 ≠ r3 ∧ r2 ≠ r3) :
    LowToHigh (orient (code (quad [l3, l2, l1, l0] [r3, r2, r1, r0])) [r0, r1, r2, r3]) := by
  rcases quad_order r0 r1 r2 r3 hd with ⟨ha, hb, hc, he⟩ | ⟨ha, hb, hc, he⟩ | ⟨ha, hb, hc, he⟩ | ⟨ha, hb, hc, he⟩ |
    ⟨ha, hb, hc, he⟩ | ⟨ha, hb, hc, he⟩ | ⟨ha, hb, hc, he⟩ | ⟨ha, hb, hc, he⟩ <;>
  (clear hd
   unfold quad
   simp (discharger := omega) only [min4_0, min4_1, min4_2, min4_3]
   simp [prev, code, h12, not_lt_of_gt h12, he, not_lt_of_gt he, ha, hb, hc, orient, rotN, rot, reflect, LowToHigh])

theorem quad_case3 (l0 l1 l2 l3 r0 r1 r2 r3 : Int) (h01 : l0 < l1) (h12 : l1 < l2) (h23 : l2 < l3)
    (hd : r0 ≠ r1 ∧ r0 ≠ r2 ∧ r0 ≠ r3 ∧ r1 ≠ r2 ∧ r1 ≠ r3 ∧ r2 ≠ r3) :
    LowToHigh (orient (code (quad [l1, l3, l0, l2] [r1, r3, r0, r2])) [r0, r1, r2, r3]) := by
  rcases quad_order r0 r1 r2 r3 hd with ⟨ha, hb, hc, he⟩ | ⟨ha, hb, hc, he⟩ | ⟨ha, hb, hc, he⟩ | ⟨ha, hb, hc, he⟩ |
    ⟨ha, hb, hc, he⟩ | ⟨ha, hb, hc, he⟩ | ⟨ha, hb, hc, he⟩ | ⟨ha, hb, hc, he⟩ <;>
  (clear hd
   unfold quad
   simp (discharger := omega) only [min4_0, min4_1, min4_2, min4_3]
   simp [prev, code, h12, not_lt_of_gt h12, he, not_lt_of_gt he, ha, hb, hc, orient, rotN, rot, reflect, LowToHigh])

theorem quad_case4 (l0 l1 l2 l3 r0 r1 r2 r3 : Int) (h01 : l0 < l1) (h12 : l1 < l2) (h23 : l2 < l3)
    (hd : r0 ≠ r1 ∧ r0 ≠ r2 ∧ r0 ≠ r3 ∧ r1 ≠ r2 ∧ r1 ≠ r3 ∧ r2 ≠ r3) :
    LowToHigh (orient (code (quad [l0, l2, l1, l3] [r0, r2, r1, r3])) [r0, r1, r2, r3]) := by
  rcases quad_order r0 r1 r2 r3 hd with ⟨ha, hb, hc, he⟩ | ⟨ha, hb, hc, he⟩ | ⟨ha, hb, hc, he⟩ | ⟨ha, hb, hc, he⟩ |
    ⟨ha, hb, hc, he⟩ | ⟨ha, hb, hc, he⟩ | ⟨ha, hb, hc, he⟩ | ⟨ha, hb, hc, he⟩ <;>
  (clear hd
   unfold quad
   simp (discharger := omega) only [min4_0, min4_1, min4_2, min4_3]
   simp [prev, code, h12, not_lt_of_gt h12, he, not_lt_of_gt he, ha, hb, hc, orient, rotN, rot, reflect, LowToHigh])

theorem quad_case5 (l0 l1 l2 l3 r0 r1 r2 r3 : Int) (h01 : l0 < l1) (h12 : l1 < l2) (h23 : l2 < l3)
    (hd : r0 ≠ r1 ∧ r0 ≠ r2 ∧ r0 ≠ r3 ∧ r1 ≠ r2 ∧ r1 ≠ r3 ∧ r2 ≠ r3) :
    LowToHigh (orient (code (quad [l1, l0, l3, l2] [r1, r0, r3, r2])) [r0, r1, r2, r3]) := by
  rcases quad_order r0 r1 r2 r3 hd with ⟨ha, hb, hc, he⟩ | ⟨ha, hb, hc, he⟩ | ⟨ha, hb, hc, he⟩ | ⟨ha, hb, hc, he⟩ |
    ⟨ha, hb, hc, he⟩ | ⟨ha, hb, hc, he⟩ | ⟨ha, hb, hc, he⟩ | ⟨ha, hb, hc, he⟩ <;>
  (clear hd
   unfold quad
   simp (discharger := omega) only [min4_0, min4_1, min4_2, min4_3]
   simp [prev, code, h12, not_lt_of_gt h12, he, not_lt_of_gt he, ha, hb, hc, orient, rotN, rot, reflect, LowToHigh])

theorem quad_case6 (l0 l1 l2 l3 r0 r1 r2 r3 : Int) (h01 : l0 < l1) (h12 : l1 < l2) (h23 : l2 < l3)
    (hd : r0 ≠ r1 ∧ r0 ≠ r2 ∧ r0 ≠ r3 ∧ r1 ≠ r2 ∧ r1 ≠ r3 ∧ r2 ≠ r3) :
    LowToHigh (orient (code (quad [l3, l1, l2, l0] [r3, r1, r2, r0])) [r0, r1, r2, r3]) := by
  rcases quad_order r0 r1 r2 r3 hd with ⟨ha, hb, hc, he⟩ | ⟨ha, hb, hc, he⟩ | ⟨ha, hb, hc, he⟩ | ⟨ha, hb, hc, he⟩ |
    ⟨ha, hb, hc, he⟩ | ⟨ha, hb, hc, he⟩ | ⟨ha, hb, hc, he⟩ | ⟨ha, hb, hc, he⟩ <;>
  (clear hd
   unfold quad
   simp (discharger := omega) only [min4_0, min4_1, min4_2, min4_3]
   simp [prev, code, h12, not_lt_of_gt h12, he, not_lt_of_gt he, ha, hb, hc, orient, rotN, rot, reflect, LowToHigh])

theorem quad_case7 (l0 l1 l2 l3 r0 r1 r2 r3 : Int) (h01 : l0 < l1) (h12 : l1 < l2) (h23 : l2 < l3)
    (hd : r0 ≠ r1 ∧ r0 ≠ r2 ∧ r0 ≠ r3 ∧ r1 ≠ r2 ∧ r1 ≠ r3 ∧ r2 ≠ r3) :
    LowToHigh (orient (code (quad [l2, l3, l0, l1] [r2, r3, r0, r1])) [r0, r1, r2, r3]) := by
  rcases quad_order r0 r1 r2 r3 hd with ⟨ha, hb, hc, he⟩ | ⟨ha, hb, hc, he⟩ | ⟨ha, hb, hc, he⟩ | ⟨ha, hb, hc, he⟩ |
    ⟨ha, hb, hc, he⟩ | ⟨ha, hb, hc, he⟩ | ⟨ha, hb, hc, he⟩ | ⟨ha, hb, hc, he⟩ <;>
  (clear hd
   unfold quad
   simp (discharger := omega) only [min4_0, min4_1, min4_2, min4_3]
   simp [prev, code, h12, not_lt_of_gt h12, he, not_lt_of_gt he, ha, hb, hc, orient, rotN, rot, reflect, LowToHigh])

theorem quad_core (l0 l1 l2 l3 r0 r1 r2 r3 : Int) (h01 : l0 < l1) (h12 : l1 < l2) (h23 : l2 < l3)
    (hd : r0 ≠ r1 ∧ r0 ≠ r2 ∧ r0 ≠ r3 ∧ r1 ≠ r2 ∧ r1 ≠ r3 ∧ r2 ≠ r3)
    (f : Int → Int) (f0 : f r0 = l0) (f1 : f r1 = l1) (f2 : f r2 = l2) (f3 : f r3 = l3)
    (m : List Int) (hm : SameFace [r0, r1, r2, r3] m) :
    LowToHigh (orient (code (quad (m.map f) m)) [r0, r1, r2, r3]) := by
  rcases sameFace4 _ _ _ _ _ hm with rfl | rfl | rfl | rfl | rfl | rfl | rfl | rfl <;>
  simp only [List.map_cons, List.map_nil, f0, f1, f2, f3]
  · exact quad_case0 l0 l1 l2 l3 r0 r1 r2 r3 h01 h12 h23 hd
  · exact quad_case1 l0 l1 l2 l3 r0 r1 r2 r3 h01 h12 h23 hd
  · exact quad_case2 l0 l1 l2 l3 r0 r1 r2 r3 h01 h12 h23 hd
  · exact quad_case3 l0 l1 l2 l3 r0 r1 r2 r3 h01 h12 h23 hd
  · exact quad_case4 l0 l1 l2 l3 r0 r1 r2 r3 h01 h12 h23 hd
  · exact quad_case5 l0 l1 l2 l3 r0 r1 r2 r3 h01 h12 h23 hd
  · exact quad_case6 l0 l1 l2 l3 r0 r1 r2 r3 h01 h12 h23 hd
  · exact quad_case7 l0 l1 l2 l3 r0 r1 r2 r3 h01 h12 h23 hd

end Verif.Permutations
