import Verif.Model.MarkMax
import Verif.Spec.MarkMax
import Mathlib.Algebra.Order.Field.Rat
/-! # C88: which entities `mark_maximum` marks -/
namespace Verif.Props
open Verif.MarkMax Verif.Spec.MarkMax

variable {K : Type} [Field K] [LinearOrder K] [IsStrictOrderedRing K]

omit [Field K] [IsStrictOrderedRing K] in
theorem greatest_spec [Field K] : ∀ (xs : List K) (x : K), (greatest x xs = x ∨ greatest x xs ∈ xs) ∧ x ≤ greatest x xs ∧ ∀ y ∈ xs, y ≤ greatest x xs
  | [], x => ⟨.inl rfl, le_refl _, fun _ h => by cases h⟩
  | y :: ys, x => by
    have ih := greatest_spec ys (if x < y then y else x)
    have he : greatest x (y :: ys) = greatest (if x < y then y else x) ys := rfl
    rw [he]
    by_cases h : x < y
    · rw [if_pos h] at ih ⊢
      refine ⟨?_, le_trans (le_of_lt h) ih.2.1, ?_⟩
      · rcases ih.1 with h1 | h1
        · exact .inr (by rw [h1]; exact List.mem_cons_self)
        · exact .inr (List.mem_cons_of_mem _ h1)
      · intro z hz
        rcases List.mem_cons.mp hz with h1 | h1
        · rw [h1]; exact ih.2.1
        · exact ih.2.2 z h1
    · rw [if_neg h] at ih ⊢
      refine ⟨?_, ih.2.1, ?_⟩
      · rcases ih.1 with h1 | h1
        · exact .inl h1
        · exact .inr (List.mem_cons_of_mem _ h1)
      · intro z hz
        rcases List.mem_cons.mp hz with h1 | h1
        · rw [h1]; exact le_trans (not_lt.mp h) ih.2.1
        · exact ih.2.2 z h1

omit [IsStrictOrderedRing K] in
/-- The reduced value is a bound for all values, and one of them if there are any. -/
theorem allreduce_spec (lowest : K) (markers : List (List K)) (hlow : ∀ v, Somewhere markers v → lowest ≤ v) :
    (∀ v, Somewhere markers v → v ≤ allreduce lowest (markers.map (localMax lowest))) ∧
    ((∃ v, Somewhere markers v) → Somewhere markers (allreduce lowest (markers.map (localMax lowest)))) := by
  have hloc : ∀ m : List K, (∀ v ∈ m, v ≤ localMax lowest m) ∧ (m = [] ∧ localMax lowest m = lowest ∨ localMax lowest m ∈ m) := by
    intro m
    cases m with
    | nil => exact ⟨fun _ h => (by cases h), .inl ⟨rfl, rfl⟩⟩
    | cons x xs =>
      have := greatest_spec xs x
      refine ⟨?_, .inr ?_⟩
      · intro v hv
        rcases List.mem_cons.mp hv with h | h
        · rw [h]; exact this.2.1
        · exact this.2.2 v h
      · rcases this.1 with h | h
        · show greatest x xs ∈ _
          rw [h]; exact List.mem_cons_self
        · exact List.mem_cons_of_mem _ h
  have hall : ∀ l : List K, (∀ v ∈ l, v ≤ allreduce lowest l) ∧ (l = [] ∨ allreduce lowest l ∈ l) := by
    intro l
    cases l with
    | nil => exact ⟨fun _ h => (by cases h), .inl rfl⟩
    | cons x xs =>
      have := greatest_spec xs x
      refine ⟨?_, .inr ?_⟩
      · intro v hv
        rcases List.mem_cons.mp hv with h | h
        · rw [h]; exact this.2.1
        · exact this.2.2 v h
      · rcases this.1 with h | h
        · show greatest x xs ∈ _
          rw [h]; exact List.mem_cons_self
        · exact List.mem_cons_of_mem _ h
  have hsome : ∀ m ∈ markers, ∀ v ∈ m, Somewhere markers v := by
    intro m hm v hv
    obtain ⟨r, hr⟩ := List.mem_iff_getElem?.mp hm
    obtain ⟨i, hi⟩ := List.mem_iff_getElem?.mp hv
    exact ⟨r, i, m, hr, hi⟩
  have hbound : ∀ v, Somewhere markers v → v ≤ allreduce lowest (markers.map (localMax lowest)) := by
    rintro v ⟨r, i, m, hm, hi⟩
    exact le_trans ((hloc m).1 v (List.mem_of_getElem? hi)) ((hall _).1 _ (List.mem_map.mpr ⟨m, List.mem_of_getElem? hm, rfl⟩))
  refine ⟨hbound, ?_⟩
  rintro ⟨v, hv⟩
  rcases (hall (markers.map (localMax lowest))).2 with h | h
  · obtain ⟨r, i, m, hm, -⟩ := hv
    have := List.mem_of_getElem? hm
    rw [List.map_eq_nil_iff] at h
    rw [h] at this
    cases this
  · obtain ⟨m, hm, he⟩ := List.mem_map.mp h
    rcases (hloc m).2 with ⟨-, h2⟩ | h2
    · have h3 := hbound v hv
      rw [← he, h2] at h3 ⊢
      rw [le_antisymm (hlow v hv) h3]
      exact hv
    · rw [← he]
      exact hsome m hm _ h2

omit [IsStrictOrderedRing K] in
theorem collect_spec (theta max : K) (m : List K) :
    (collect theta max m).Pairwise (· < ·) ∧ ∀ i, i ∈ collect theta max m ↔ ∃ v, m[i]? = some v ∧ theta * max < v := by
  have key : ∀ n, let out := (List.range n).foldl (fun out i => match m[i]? with
      | some e => if test theta max e then out ++ [i] else out
      | none => out) ([] : List Nat)
      out.Pairwise (· < ·) ∧ ∀ i, i ∈ out ↔ i < n ∧ ∃ v, m[i]? = some v ∧ theta * max < v := by
    intro n
    induction n with
    | zero => exact ⟨List.Pairwise.nil, fun i => ⟨fun h => (by cases h), fun h => by omega⟩⟩
    | succ n ih =>
      obtain ⟨ih1, ih2⟩ := ih
      simp only [List.range_succ, List.foldl_append, List.foldl_cons, List.foldl_nil]
      obtain ⟨o, ho⟩ : ∃ o, o = (List.range n).foldl (fun out i => match m[i]? with
        | some e => if test theta max e then out ++ [i] else out
        | none => out) ([] : List Nat) := ⟨_, rfl⟩
      rw [← ho] at ih1 ih2 ⊢
      cases hm : m[n]? with
      | none =>
        refine ⟨ih1, fun i => ?_⟩
        rw [show (match (none : Option K) with | some e => if test theta max e then o ++ [n] else o | none => o) = o from rfl, ih2]
        constructor
        · rintro ⟨h1, h2⟩; exact ⟨by omega, h2⟩
        · rintro ⟨h1, v, h2, h3⟩
          refine ⟨?_, v, h2, h3⟩
          rcases Nat.lt_or_ge i n with h | h
          · exact h
          · have : i = n := by omega
            rw [this, hm] at h2
            cases h2
      | some e =>
        show (if test theta max e then o ++ [n] else o).Pairwise (· < ·) ∧ ∀ i, i ∈ (if test theta max e then o ++ [n] else o) ↔ _
        by_cases ht : theta * max < e
        · rw [if_pos (by simpa [test] using ht)]
          refine ⟨?_, fun i => ?_⟩
          · rw [List.pairwise_append]
            refine ⟨ih1, List.pairwise_singleton _ _, ?_⟩
            intro a ha b hb
            rw [List.mem_singleton.mp hb]
            exact ((ih2 a).mp ha).1
          · rw [List.mem_append, ih2, List.mem_singleton]
            constructor
            · rintro (⟨h1, h2⟩ | h)
              · exact ⟨by omega, h2⟩
              · rw [h]; exact ⟨by omega, e, hm, ht⟩
            · rintro ⟨h1, h2⟩
              rcases Nat.lt_or_ge i n with h | h
              · exact .inl ⟨h, h2⟩
              · exact .inr (by omega)
        · rw [if_neg (by simpa [test] using ht)]
          refine ⟨ih1, fun i => ?_⟩
          rw [ih2]
          constructor
          · rintro ⟨h1, h2⟩; exact ⟨by omega, h2⟩
          · rintro ⟨h1, v, h2, h3⟩
            refine ⟨?_, v, h2, h3⟩
            rcases Nat.lt_or_ge i n with h | h
            · exact h
            · have : i = n := by omega
              rw [this, hm] at h2
              injection h2 with h2
              rw [h2] at ht
              exact absurd h3 ht
  obtain ⟨h1, h2⟩ := key m.length
  refine ⟨h1, fun i => ?_⟩
  refine (h2 i).trans ⟨fun h => h.2, fun h => ⟨?_, h⟩⟩
  obtain ⟨v, hv, -⟩ := h
  exact (List.getElem?_eq_some_iff.mp hv).1

/-- **C88.** For `0 < theta < 1`, on each rank the indices are in increasing order, without repetition, and an entity is among them exactly if its value is greater than `theta` times each
value on each rank. -/
theorem C88_marked (lowest : K) (markers : List (List K)) (theta : K) (h0 : 0 < theta) (h1 : theta < 1) (hlow : ∀ v, Somewhere markers v → lowest ≤ v) (r : Nat) :
    ∃ out, markMaximum lowest markers theta r = .ok out ∧ out.Pairwise (· < ·) ∧
      ∀ i, i ∈ out ↔ ∃ v, Has markers r i v ∧ ∀ w, Somewhere markers w → theta * w < v := by
  refine ⟨_, if_neg (not_or.mpr ⟨not_le.mpr h0, not_le.mpr h1⟩), ?_⟩
  obtain ⟨c1, c2⟩ := collect_spec theta (allreduce lowest (markers.map (localMax lowest))) (markers.getD r [])
  refine ⟨c1, fun i => (c2 i).trans ?_⟩
  obtain ⟨a1, a2⟩ := allreduce_spec lowest markers hlow
  have hhas : ∀ v, (markers.getD r [])[i]? = some v ↔ Has markers r i v := by
    intro v
    rw [List.getD_eq_getElem?_getD]
    constructor
    · intro h
      cases hm : markers[r]? with
      | none => rw [hm] at h; simp at h
      | some m => rw [hm] at h; exact ⟨m, hm, h⟩
    · rintro ⟨m, hm, h⟩
      rw [hm]; exact h
  constructor
  · rintro ⟨v, hv, hlt⟩
    exact ⟨v, (hhas v).mp hv, fun w hw => lt_of_le_of_lt (mul_le_mul_of_nonneg_left (a1 w hw) (le_of_lt h0)) hlt⟩
  · rintro ⟨v, hv, hlt⟩
    exact ⟨v, (hhas v).mpr hv, hlt _ (a2 ⟨v, r, i, hv⟩)⟩

/-- **C88.** How the values are distributed over ranks has no influence: an entity with the same value among the same values is marked or not marked, wherever it is. -/
theorem C88_distribution (lowest : K) (A B : List (List K)) (theta : K) (h0 : 0 < theta) (h1 : theta < 1) (hlow : ∀ v, Somewhere A v → lowest ≤ v)
    (hsame : ∀ v, Somewhere A v ↔ Somewhere B v) (r i s j : Nat) (v : K) (hA : Has A r i v) (hB : Has B s j v) :
    ∃ a b, markMaximum lowest A theta r = .ok a ∧ markMaximum lowest B theta s = .ok b ∧ (i ∈ a ↔ j ∈ b) := by
  obtain ⟨a, a1, -, a3⟩ := C88_marked lowest A theta h0 h1 hlow r
  obtain ⟨b, b1, -, b3⟩ := C88_marked lowest B theta h0 h1 (fun v hv => hlow v ((hsame v).mpr hv)) s
  refine ⟨a, b, a1, b1, ?_⟩
  have huniq : ∀ (M : List (List K)) (r i : Nat) (v w : K), Has M r i v → Has M r i w → v = w := by
    rintro M r i v w ⟨m, hm, hv⟩ ⟨n, hn, hw⟩
    rw [hm] at hn
    injection hn with hn
    subst hn
    rw [hv] at hw
    injection hw
  rw [a3, b3]
  constructor
  · rintro ⟨w, hw, h⟩
    rw [huniq A r i w v hw hA] at h
    exact ⟨v, hB, fun u hu => h u ((hsame u).mpr hu)⟩
  · rintro ⟨w, hw, h⟩
    rw [huniq B s j w v hw hB] at h
    exact ⟨v, hA, fun u hu => h u ((hsame u).mp hu)⟩

/-- **C88.** If some value is positive, each entity with the greatest value is marked. -/
theorem C88_greatest (lowest : K) (markers : List (List K)) (theta : K) (h0 : 0 < theta) (h1 : theta < 1) (hlow : ∀ v, Somewhere markers v → lowest ≤ v) (r i : Nat) (v : K)
    (hv : Has markers r i v) (hpos : 0 < v) (hmax : ∀ w, Somewhere markers w → w ≤ v) : ∃ out, markMaximum lowest markers theta r = .ok out ∧ i ∈ out := by
  obtain ⟨out, o1, -, o3⟩ := C88_marked lowest markers theta h0 h1 hlow r
  refine ⟨out, o1, (o3 i).mpr ⟨v, hv, fun w hw => ?_⟩⟩
  calc theta * w ≤ theta * v := mul_le_mul_of_nonneg_left (hmax w hw) (le_of_lt h0)
    _ < 1 * v := mul_lt_mul_of_pos_right h1 hpos
    _ = v := one_mul v

/-- **C88.** If some value is not negative, what is marked for a parameter is marked for each smaller one. -/
theorem C88_monotone (lowest : K) (markers : List (List K)) (a b : K) (h0 : 0 < a) (hab : a ≤ b) (h1 : b < 1) (hlow : ∀ v, Somewhere markers v → lowest ≤ v)
    (hpos : ∃ w, Somewhere markers w ∧ 0 ≤ w) (r : Nat) :
    ∃ A B, markMaximum lowest markers a r = .ok A ∧ markMaximum lowest markers b r = .ok B ∧ ∀ i ∈ B, i ∈ A := by
  obtain ⟨A, a1, -, a3⟩ := C88_marked lowest markers a h0 (lt_of_le_of_lt hab h1) hlow r
  obtain ⟨B, b1, -, b3⟩ := C88_marked lowest markers b (lt_of_lt_of_le h0 hab) h1 hlow r
  refine ⟨A, B, a1, b1, fun i hi => ?_⟩
  obtain ⟨v, hv, h⟩ := (b3 i).mp hi
  obtain ⟨w0, hw0, hw0'⟩ := hpos
  refine (a3 i).mpr ⟨v, hv, fun w hw => ?_⟩
  have hvpos : 0 < v := lt_of_le_of_lt (mul_nonneg (le_of_lt (lt_of_lt_of_le h0 hab)) hw0') (h w0 hw0)
  rcases le_total 0 w with hw' | hw'
  · exact lt_of_le_of_lt (mul_le_mul_of_nonneg_right hab hw') (h w hw)
  · exact lt_of_le_of_lt (mul_nonpos_of_nonneg_of_nonpos (le_of_lt h0) hw') hvpos

omit [IsStrictOrderedRing K] in
/-- **C88.** Other parameters are refused on each rank. -/
theorem C88_refused (lowest : K) (markers : List (List K)) (theta : K) (r : Nat) (h : ¬ (0 < theta ∧ theta < 1)) : markMaximum lowest markers theta r = .error .theta := by
  refine if_pos ?_
  rcases lt_or_ge 0 theta with h0 | h0
  · exact .inr (not_lt.mp fun h1 => h ⟨h0, h1⟩)
  · exact .inl h0

/-- **C88 (partial).** The documented criterion, a value at least `theta` times the greatest, holds for all marked entities; an entity for which it holds is not marked only if its value is
equal to `theta` times the greatest. -/
theorem C88_documented_partial (lowest : K) (markers : List (List K)) (theta : K) (h0 : 0 < theta) (h1 : theta < 1) (hlow : ∀ v, Somewhere markers v → lowest ≤ v) (r i : Nat) (v w : K)
    (hv : Has markers r i v) (hw : Somewhere markers w) (hmax : ∀ u, Somewhere markers u → u ≤ w) :
    ∃ out, markMaximum lowest markers theta r = .ok out ∧ (i ∈ out → theta * w ≤ v) ∧ (theta * w ≤ v → i ∈ out ∨ v = theta * w) := by
  obtain ⟨out, o1, -, o3⟩ := C88_marked lowest markers theta h0 h1 hlow r
  refine ⟨out, o1, ?_, ?_⟩
  · intro hi
    obtain ⟨v', ⟨m, hm, hv'⟩, h⟩ := (o3 i).mp hi
    obtain ⟨n, hn, hv⟩ := hv
    rw [hm] at hn
    injection hn with hn
    subst hn
    rw [hv] at hv'
    injection hv' with hv'
    rw [hv']
    exact le_of_lt (h w hw)
  · intro h
    rcases lt_or_eq_of_le h with h | h
    · exact .inl ((o3 i).mpr ⟨v, hv, fun u hu => lt_of_le_of_lt (mul_le_mul_of_nonneg_left (hmax u hu) (le_of_lt h0)) h⟩)
    · exact .inr h.symm

namespace C88ex

/-- Three ranks, one of them without entities. -/
def values : List (List ℚ) := [[1, 8, 4], [], [5, 3]]
theorem somewhere (M : List (List ℚ)) (v : ℚ) (h : Somewhere M v) : v ∈ M.flatten := by
  obtain ⟨r, i, m, hm, hi⟩ := h
  exact List.mem_flatten.mpr ⟨m, List.mem_of_getElem? hm, List.mem_of_getElem? hi⟩
theorem least : ∀ v, Somewhere values v → (-1000 : ℚ) ≤ v := by
  intro v hv
  have := somewhere _ v hv
  simp only [values, List.flatten_cons, List.flatten_nil, List.cons_append, List.nil_append, List.mem_cons, List.not_mem_nil, or_false] at this
  rcases this with h | h | h | h | h <;> subst h <;> norm_num

end C88ex
open C88ex

/-- The entity with value 5 is marked on rank 2 as it is greater than half of 8, which is on rank 0; the one with value 4 is not. -/
example : markMaximum (-1000 : ℚ) values (1 / 2) 0 = .ok [1] ∧ markMaximum (-1000 : ℚ) values (1 / 2) 1 = .ok [] ∧ markMaximum (-1000 : ℚ) values (1 / 2) 2 = .ok [0] := by
  decide +kernel
example : ∃ out, markMaximum (-1000 : ℚ) values (1 / 2) 2 = .ok out ∧ out.Pairwise (· < ·) ∧ ∀ i, i ∈ out ↔ ∃ v, Has values 2 i v ∧ ∀ w, Somewhere values w → (1 / 2 : ℚ) * w < v :=
  C88_marked _ _ _ (by norm_num) (by norm_num) least 2
example : ∃ out, markMaximum (-1000 : ℚ) values (1 / 2) 0 = .ok out ∧ 1 ∈ out :=
  C88_greatest _ _ _ (by norm_num) (by norm_num) least 0 1 8 ⟨_, rfl, rfl⟩ (by norm_num) (by
    intro w hw
    have := somewhere _ w hw
    simp only [values, List.flatten_cons, List.flatten_nil, List.cons_append, List.nil_append, List.mem_cons, List.not_mem_nil, or_false] at this
    rcases this with h | h | h | h | h <;> subst h <;> norm_num)
example : ∃ A B, markMaximum (-1000 : ℚ) values (1 / 4) 0 = .ok A ∧ markMaximum (-1000 : ℚ) values (1 / 2) 0 = .ok B ∧ ∀ i ∈ B, i ∈ A :=
  C88_monotone _ _ _ _ (by norm_num) (by norm_num) (by norm_num) least ⟨8, ⟨0, 1, _, rfl, rfl⟩, by norm_num⟩ 0
/-- The same values on one rank. -/
example : ∃ a b, markMaximum (-1000 : ℚ) values (1 / 2) 2 = .ok a ∧ markMaximum (-1000 : ℚ) [[3, 5, 8, 4, 1]] (1 / 2) 0 = .ok b ∧ (0 ∈ a ↔ 1 ∈ b) := by
  refine C88_distribution _ _ _ _ (by norm_num) (by norm_num) least ?_ 2 0 0 1 5 ⟨_, rfl, rfl⟩ ⟨_, rfl, rfl⟩
  intro v
  constructor
  · intro hv
    have := somewhere _ v hv
    simp only [values, List.flatten_cons, List.flatten_nil, List.cons_append, List.nil_append, List.mem_cons, List.not_mem_nil, or_false] at this
    rcases this with h | h | h | h | h <;> subst h
    exacts [⟨0, 4, _, rfl, rfl⟩, ⟨0, 2, _, rfl, rfl⟩, ⟨0, 3, _, rfl, rfl⟩, ⟨0, 1, _, rfl, rfl⟩, ⟨0, 0, _, rfl, rfl⟩]
  · intro hv
    have := somewhere _ v hv
    simp only [List.flatten_cons, List.flatten_nil, List.append_nil, List.mem_cons, List.not_mem_nil, or_false] at this
    rcases this with h | h | h | h | h <;> subst h
    exacts [⟨2, 1, _, rfl, rfl⟩, ⟨2, 0, _, rfl, rfl⟩, ⟨0, 1, _, rfl, rfl⟩, ⟨0, 2, _, rfl, rfl⟩, ⟨0, 0, _, rfl, rfl⟩]
example : markMaximum (-1000 : ℚ) values 1 0 = .error .theta := C88_refused _ _ _ _ (by norm_num)
example : ∃ out, markMaximum (-1000 : ℚ) values (1 / 2) 0 = .ok out ∧ (2 ∈ out → (1 / 2 : ℚ) * 8 ≤ 4) ∧ ((1 / 2 : ℚ) * 8 ≤ 4 → 2 ∈ out ∨ (4 : ℚ) = 1 / 2 * 8) :=
  C88_documented_partial _ _ _ (by norm_num) (by norm_num) least 0 2 4 8 ⟨_, rfl, rfl⟩ ⟨0, 1, _, rfl, rfl⟩ (by
    intro w hw
    have := somewhere _ w hw
    simp only [values, List.flatten_cons, List.flatten_nil, List.cons_append, List.nil_append, List.mem_cons, List.not_mem_nil, or_false] at this
    rcases this with h | h | h | h | h <;> subst h <;> norm_num)

/-- **C88 refuted, the documented criterion.** An entity for which `marker_i ≥ θ max(marker)` holds is not marked. -/
theorem C88_refuted_documented : ∃ (markers : List (List ℚ)) (theta : ℚ) (r i : Nat) (v w : ℚ), 0 < theta ∧ theta < 1 ∧ Has markers r i v ∧ Somewhere markers w ∧
    (∀ u, Somewhere markers u → u ≤ w) ∧ theta * w ≤ v ∧ ∃ out, markMaximum (-1000) markers theta r = .ok out ∧ i ∉ out := by
  refine ⟨[[1, 2]], 1 / 2, 0, 0, 1, 2, by norm_num, by norm_num, ⟨_, rfl, rfl⟩, ⟨0, 1, _, rfl, rfl⟩, ?_, by norm_num, [1], by decide +kernel, by decide⟩
  intro u hu
  have := somewhere _ u hu
  simp only [List.flatten_cons, List.flatten_nil, List.append_nil, List.mem_cons, List.not_mem_nil, or_false] at this
  rcases this with h | h <;> subst h <;> norm_num

/-- **C88 refuted, something is marked.** If all values are zero, as for an exact solution, the documented criterion holds for all entities and none is marked. -/
theorem C88_refuted_zero (n : Nat) (lowest theta : ℚ) (hl : lowest ≤ 0) (h0 : 0 < theta) (h1 : theta < 1) : markMaximum lowest [List.replicate n 0] theta 0 = .ok [] := by
  have hz : ∀ v, Somewhere [List.replicate n (0 : ℚ)] v → v = 0 := by
    intro v hv
    have := somewhere _ v hv
    simp only [List.flatten_cons, List.flatten_nil, List.append_nil, List.mem_replicate] at this
    exact this.2
  obtain ⟨out, o1, -, o3⟩ := C88_marked lowest [List.replicate n 0] theta h0 h1 (fun v hv => by rw [hz v hv]; exact hl) 0
  rw [o1]
  congr 1
  refine List.eq_nil_iff_forall_not_mem.mpr fun i hi => ?_
  obtain ⟨v, hv, h⟩ := (o3 i).mp hi
  have := h v ⟨0, i, hv⟩
  rw [hz v ⟨0, i, hv⟩, mul_zero] at this
  exact lt_irrefl _ this

end Verif.Props
