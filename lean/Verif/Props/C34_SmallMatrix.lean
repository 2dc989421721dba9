import Verif.Model.SmallMatrix
import Mathlib.LinearAlgebra.Matrix.Determinant.Basic
import Mathlib.LinearAlgebra.Matrix.NonsingularInverse
import Mathlib.LinearAlgebra.Matrix.ToLinearEquiv
import Mathlib.LinearAlgebra.Matrix.DotProduct
import Mathlib.LinearAlgebra.CrossProduct
import Mathlib.Tactic.FieldSimp
import Mathlib.Tactic.Ring
import Mathlib.Tactic.LinearCombination
import Mathlib.Tactic.FinCases
import Mathlib.Algebra.BigOperators.Fin
import Mathlib.Algebra.Order.Field.Rat
/-!
# C34: determinant, inverse, product and pseudo-inverse of small matrices
-/
namespace Verif.Props
open Verif.SmallMatrix
open scoped Matrix

/-- The `n` by `m` matrix held by a view. -/
def view {K : Type} (n m : Nat) (A : Entries K) : Matrix (Fin n) (Fin m) K := fun i j => A i j

theorem set_apply {K : Type} (A : Entries K) (i j : Nat) (x : K) (a b : Nat) :
    SmallMatrix.set A i j x a b = if a = i ∧ b = j then x else A a b := by
  unfold SmallMatrix.set
  by_cases h : a = i
  · subst h
    rw [Function.update_self]
    by_cases h' : b = j
    · subst h'; simp
    · rw [Function.update_of_ne h', if_neg (by tauto)]
  · rw [Function.update_of_ne h, if_neg (by tauto)]

section
variable {K : Type} [Field K]

theorem diffProd_eq (a b c d : K) : diffProd a b c d = a * d - b * c := by
  unfold diffProd fma; ring

/-- C34: `cross` is the cross product. -/
theorem C34_cross (u v : Nat → K) :
    SmallMatrix.cross u v = List.ofFn (crossProduct (fun i : Fin 3 => u i) (fun i : Fin 3 => v i)) := by
  simp [SmallMatrix.cross, cross_apply, List.ofFn_succ]

/-- C34: `det` is the determinant for 1x1, 2x2 and 3x3 matrices and refuses other sizes. -/
theorem C34_det (n : Nat) (A : Entries K) :
    (n = 1 ∨ n = 2 ∨ n = 3 → SmallMatrix.det n A = .ok (view n n A).det) ∧
    (¬ (n = 1 ∨ n = 2 ∨ n = 3) → SmallMatrix.det n A = .error .shape) := by
  constructor
  · rintro (rfl | rfl | rfl)
    · rw [Matrix.det_fin_one]; rfl
    · rw [Matrix.det_fin_two]
      simp only [SmallMatrix.det, diffProd_eq]; rfl
    · rw [Matrix.det_fin_three]
      simp only [SmallMatrix.det, diffProd_eq, fma]
      congr 1
      simp only [view, Fin.val_zero, Fin.val_one, Fin.val_two]
      ring
  · intro h
    match n, h with
    | 0, _ => rfl
    | n + 4, _ => rfl

/-- C34: `inv` writes the two-sided inverse of an invertible matrix and no other entry. -/
theorem C34_inv (n : Nat) (A B : Entries K) (hn : n = 1 ∨ n = 2 ∨ n = 3) (hd : (view n n A).det ≠ 0) :
    ∃ R, SmallMatrix.inv n A B = .ok R ∧ view n n R * view n n A = 1 ∧ view n n A * view n n R = 1 ∧
      ∀ i j, n ≤ i ∨ n ≤ j → R i j = B i j := by
  have key : ∃ R, SmallMatrix.inv n A B = .ok R ∧ view n n R * view n n A = 1 ∧
      ∀ i j, n ≤ i ∨ n ≤ j → R i j = B i j := by
    rcases hn with rfl | rfl | rfl
    · rw [Matrix.det_fin_one] at hd
      have hd : A 0 0 ≠ 0 := hd
      refine ⟨_, rfl, ?_, ?_⟩
      · ext i j
        fin_cases i; fin_cases j
        simp [Matrix.mul_apply, view, set_apply, hd]
      · intro i j h
        rw [set_apply, if_neg (by omega)]
    · rw [Matrix.det_fin_two] at hd
      have hd : A 0 0 * A 1 1 - A 0 1 * A 1 0 ≠ 0 := hd
      refine ⟨_, rfl, ?_, ?_⟩
      · ext i j
        fin_cases i <;> fin_cases j <;>
          simp [Matrix.mul_apply, Fin.sum_univ_two, view, set_apply, diffProd_eq] <;> field_simp <;> ring
      · intro i j h
        simp only [set_apply]
        rw [if_neg (by omega), if_neg (by omega), if_neg (by omega), if_neg (by omega)]
    · have hd : A 0 2 * (A 1 0 * A 2 1 - A 1 1 * A 2 0) +
          (A 0 0 * (A 1 1 * A 2 2 - A 1 2 * A 2 1) - A 0 1 * (A 1 0 * A 2 2 - A 1 2 * A 2 0)) ≠ 0 := by
        rw [Matrix.det_fin_three] at hd
        intro h0
        apply hd
        simp only [view, Fin.val_zero, Fin.val_one, Fin.val_two]
        rw [← h0]; ring
      have hI := mul_inv_cancel₀ hd
      refine ⟨_, rfl, ?_, ?_⟩
      · simp only [diffProd_eq, fma, one_div]
        generalize (A 0 2 * (A 1 0 * A 2 1 - A 1 1 * A 2 0) +
          (A 0 0 * (A 1 1 * A 2 2 - A 1 2 * A 2 1) - A 0 1 * (A 1 0 * A 2 2 - A 1 2 * A 2 0)))⁻¹ = I at hI
        ext i j
        fin_cases i <;> fin_cases j <;>
          simp [Matrix.mul_apply, Fin.sum_univ_three, view, set_apply] <;>
          first | linear_combination hI | ring
      · intro i j h
        simp only [set_apply]
        rw [if_neg (by omega), if_neg (by omega), if_neg (by omega), if_neg (by omega), if_neg (by omega),
          if_neg (by omega), if_neg (by omega), if_neg (by omega), if_neg (by omega)]
  obtain ⟨R, h1, h2, h3⟩ := key
  exact ⟨R, h1, h2, mul_eq_one_comm.mp h2, h3⟩

/-! ### Loops -/

theorem accumulate_inner (l : Nat) (i j : Nat) (t : Nat → K) (C : Entries K) (a b : Nat) :
    (List.range l).foldl (fun C k => SmallMatrix.set C i j (C i j + t k)) C a b =
      if a = i ∧ b = j then C a b + ∑ k ∈ Finset.range l, t k else C a b := by
  induction l generalizing a b with
  | zero => simp
  | succ l ih =>
    rw [List.range_succ, List.foldl_append, List.foldl_cons, List.foldl_nil, set_apply, ih i j, ih a b]
    by_cases h : a = i ∧ b = j
    · rw [if_pos h, if_pos h, if_pos ⟨rfl, rfl⟩, h.1, h.2, Finset.sum_range_succ, add_assoc]
    · rw [if_neg h, if_neg h, if_neg h]

theorem accumulate_mid (m l : Nat) (i : Nat) (t : Nat → Nat → K) (C : Entries K) (a b : Nat) :
    (List.range m).foldl (fun C j => (List.range l).foldl (fun C k => SmallMatrix.set C i j (C i j + t j k)) C) C a b =
      if a = i ∧ b < m then C a b + ∑ k ∈ Finset.range l, t b k else C a b := by
  induction m generalizing a b with
  | zero => simp
  | succ m ih =>
    rw [List.range_succ, List.foldl_append, List.foldl_cons, List.foldl_nil, accumulate_inner l i m, ih a b]
    by_cases h : a = i ∧ b = m
    · rw [if_pos h, if_neg (by omega), if_pos (by omega), h.2]
    · rw [if_neg h]
      by_cases h' : a = i ∧ b < m
      · rw [if_pos h', if_pos (by omega)]
      · rw [if_neg h', if_neg (by omega)]

theorem accumulate_apply (n m l : Nat) (t : Nat → Nat → Nat → K) (C : Entries K) (a b : Nat) :
    accumulate n m l t C a b = if a < n ∧ b < m then C a b + ∑ k ∈ Finset.range l, t a b k else C a b := by
  unfold accumulate
  induction n generalizing a b with
  | zero => simp
  | succ n ih =>
    rw [List.range_succ, List.foldl_append, List.foldl_cons, List.foldl_nil, accumulate_mid m l n, ih a b]
    by_cases h : a = n ∧ b < m
    · rw [if_pos h, if_neg (by omega), if_pos (by omega), h.1]
    · rw [if_neg h]
      by_cases h' : a < n ∧ b < m
      · rw [if_pos h', if_pos (by omega)]
      · rw [if_neg h', if_neg (by omega)]

theorem fill_inner (m i : Nat) (t : Nat → K) (C : Entries K) (a b : Nat) :
    (List.range m).foldl (fun C j => SmallMatrix.set C i j (t j)) C a b = if a = i ∧ b < m then t b else C a b := by
  induction m generalizing a b with
  | zero => simp
  | succ m ih =>
    rw [List.range_succ, List.foldl_append, List.foldl_cons, List.foldl_nil, set_apply, ih a b]
    by_cases h : a = i ∧ b = m
    · rw [if_pos h, if_pos (by omega), h.2]
    · rw [if_neg h]
      by_cases h' : a = i ∧ b < m
      · rw [if_pos h', if_pos (by omega)]
      · rw [if_neg h', if_neg (by omega)]

theorem smfill_apply (n m : Nat) (t : Nat → Nat → K) (C : Entries K) (a b : Nat) :
    SmallMatrix.fill n m t C a b = if a < n ∧ b < m then t a b else C a b := by
  unfold SmallMatrix.fill
  induction n generalizing a b with
  | zero => simp
  | succ n ih =>
    rw [List.range_succ, List.foldl_append, List.foldl_cons, List.foldl_nil, fill_inner, ih a b]
    by_cases h : a = n ∧ b < m
    · rw [if_pos h, if_pos (by omega), h.1]
    · rw [if_neg h]
      by_cases h' : a < n ∧ b < m
      · rw [if_pos h', if_pos (by omega)]
      · rw [if_neg h', if_neg (by omega)]

/-- C34: `dot` adds the product, or the product of the transposes, and changes nothing outside the result. -/
theorem C34_dot (a0 a1 b0 b1 : Nat) (A B C : Entries K) :
    (∀ h : a1 = b0, view a0 b1 (SmallMatrix.dot a0 a1 b0 b1 A B C false) =
        view a0 b1 C + view a0 a1 A * (h ▸ view b0 b1 B : Matrix (Fin a1) (Fin b1) K) ∧
      ∀ i j, a0 ≤ i ∨ b1 ≤ j → SmallMatrix.dot a0 a1 b0 b1 A B C false i j = C i j) ∧
    (∀ h : a0 = b1, view a1 b0 (SmallMatrix.dot a0 a1 b0 b1 A B C true) =
        view a1 b0 C + (view a0 a1 A)ᵀ * (h ▸ (view b0 b1 B)ᵀ : Matrix (Fin a0) (Fin b0) K) ∧
      ∀ i j, a1 ≤ i ∨ b0 ≤ j → SmallMatrix.dot a0 a1 b0 b1 A B C true i j = C i j) := by
  constructor
  · rintro rfl
    constructor
    · ext i j
      rw [Matrix.add_apply, Matrix.mul_apply]
      unfold view SmallMatrix.dot
      rw [if_neg (by simp), accumulate_apply, if_pos ⟨i.2, j.2⟩, Finset.sum_range]
    · intro i j h
      unfold SmallMatrix.dot
      rw [if_neg (by simp), accumulate_apply, if_neg (by omega)]
  · rintro rfl
    constructor
    · ext i j
      rw [Matrix.add_apply, Matrix.mul_apply]
      unfold view SmallMatrix.dot
      rw [if_pos rfl, accumulate_apply, if_pos ⟨i.2, j.2⟩, Finset.sum_range]
      rfl
    · intro i j h
      unfold SmallMatrix.dot
      rw [if_pos rfl, accumulate_apply, if_neg (by omega)]

end

/-! ### The pseudo-inverse -/

section
variable {K : Type} [Field K] [LinearOrder K] [IsStrictOrderedRing K]

theorem gram_det_ne_zero {n m : Nat} (A : Matrix (Fin n) (Fin m) K) (hA : Function.Injective A.mulVec) :
    (Aᵀ * A).det ≠ 0 := by
  intro h
  obtain ⟨v, hv, h0⟩ := Matrix.exists_mulVec_eq_zero_iff.mpr h
  apply hv
  apply hA
  rw [Matrix.mulVec_zero]
  have h1 : (A *ᵥ v) ⬝ᵥ (A *ᵥ v) = 0 := by
    rw [Matrix.dotProduct_mulVec, ← Matrix.mulVec_transpose, Matrix.mulVec_mulVec, h0, zero_dotProduct]
  exact dotProduct_self_eq_zero.mp h1

/-- C34: `pinv` of a 3x2 or nx1 matrix of full rank is the Moore-Penrose left inverse. -/
theorem C34_pinv (a0 a1 : Nat) (A P g : Entries K) (hs : (a0 = 3 ∧ a1 = 2) ∨ a1 = 1)
    (hA : Function.Injective (view a0 a1 A).mulVec) :
    ∃ R, SmallMatrix.pinv a0 a1 A P g = .ok R ∧ view a1 a0 R * view a0 a1 A = 1 ∧
      (view a0 a1 A * view a1 a0 R)ᵀ = view a0 a1 A * view a1 a0 R ∧
      ∀ i j, a1 ≤ i ∨ a0 ≤ j → R i j = P i j := by
  have hG := gram_det_ne_zero _ hA
  suffices h : ∃ (R : Entries K) (N : Matrix (Fin a1) (Fin a1) K), SmallMatrix.pinv a0 a1 A P g = .ok R ∧
      N * ((view a0 a1 A)ᵀ * view a0 a1 A) = 1 ∧ view a1 a0 R = N * (view a0 a1 A)ᵀ ∧
      ∀ i j, a1 ≤ i ∨ a0 ≤ j → R i j = P i j by
    obtain ⟨R, N, h1, h2, h3, h4⟩ := h
    refine ⟨R, h1, ?_, ?_, h4⟩
    · rw [h3, Matrix.mul_assoc, h2]
    · have hN : Nᵀ = N := by
        have h5 : ((view a0 a1 A)ᵀ * view a0 a1 A) * Nᵀ = 1 := by
          have := congrArg Matrix.transpose h2
          rw [Matrix.transpose_mul, Matrix.transpose_mul, Matrix.transpose_transpose, Matrix.transpose_one] at this
          exact this
        calc Nᵀ = N * ((view a0 a1 A)ᵀ * view a0 a1 A) * Nᵀ := by rw [h2, Matrix.one_mul]
          _ = N := by rw [Matrix.mul_assoc, h5, Matrix.mul_one]
      rw [h3, ← Matrix.mul_assoc, Matrix.transpose_mul, Matrix.transpose_mul, Matrix.transpose_transpose, hN,
        Matrix.mul_assoc]
  rcases hs with ⟨rfl, rfl⟩ | rfl
  · -- three rows, two columns
    set AT := SmallMatrix.fill 2 3 (fun i j => A j i) g with hAT
    set Z := SmallMatrix.fill 2 2 (fun _ _ => (0 : K)) g with hZ
    set P0 := SmallMatrix.fill 2 3 (fun _ _ => (0 : K)) P with hP0
    have vAT : view 2 3 AT = (view 3 2 A)ᵀ := by
      ext i j; rw [Matrix.transpose_apply]; unfold view
      rw [hAT, smfill_apply, if_pos ⟨i.2, j.2⟩]
    have vZ : view 2 2 Z = 0 := by
      ext i j; unfold view; rw [hZ, smfill_apply, if_pos ⟨i.2, j.2⟩]; rfl
    have vP0 : view 2 3 P0 = 0 := by
      ext i j; unfold view; rw [hP0, smfill_apply, if_pos ⟨i.2, j.2⟩]; rfl
    have hATA := ((C34_dot 2 3 3 2 AT A Z).1 rfl).1
    rw [vAT, vZ, zero_add] at hATA
    have hdet : (view 2 2 (SmallMatrix.dot 2 3 3 2 AT A Z false)).det ≠ 0 := by rw [hATA]; exact hG
    obtain ⟨Inv, hi1, hi2, _, _⟩ := C34_inv 2 _ g (by omega) hdet
    rw [hATA] at hi2
    refine ⟨SmallMatrix.dot 2 2 2 3 Inv AT P0 false, view 2 2 Inv, ?_, hi2, ?_, ?_⟩
    · unfold SmallMatrix.pinv
      rw [if_pos rfl]
      simp only []
      rw [← hAT, ← hZ, ← hP0, hi1]
    · have := ((C34_dot 2 2 2 3 Inv AT P0).1 rfl).1
      rw [vAT, vP0, zero_add] at this
      exact this
    · intro i j h
      rw [((C34_dot 2 2 2 3 Inv AT P0).1 rfl).2 i j h, hP0, smfill_apply, if_neg (by omega)]
  · -- one column
    have hres : (List.range a0).foldl (fun r i => (List.range 1).foldl (fun r j => r + A i j * A i j) r) 0 =
        ∑ i : Fin a0, A i 0 * A i 0 := by
      rw [← Finset.sum_range (fun i => A i 0 * A i 0)]
      have : ∀ n : Nat, (List.range n).foldl (fun r i => (List.range 1).foldl (fun r j => r + A i j * A i j) r) 0 =
          ∑ i ∈ Finset.range n, A i 0 * A i 0 := by
        intro n
        induction n with
        | zero => rfl
        | succ n ih =>
          rw [List.range_succ (n := n), List.foldl_append, Finset.sum_range_succ, ih]; rfl
      exact this a0
    have hgram : ((view a0 1 A)ᵀ * view a0 1 A) 0 0 = ∑ i : Fin a0, A i 0 * A i 0 := by
      rw [Matrix.mul_apply]; rfl
    rw [Matrix.det_fin_one, hgram] at hG
    have hset : ∀ (n : Nat) (c : Nat → K) (P : Entries K) (a b : Nat),
        (List.range n).foldl (fun P i => (List.range 1).foldl (fun P j => SmallMatrix.set P j i (c i * A i j)) P) P a b =
          if a = 0 ∧ b < n then c b * A b 0 else P a b := by
      intro n c P a b
      induction n generalizing a b with
      | zero => simp
      | succ n ih =>
        rw [List.range_succ (n := n), List.foldl_append]
        simp only [List.foldl_cons, List.foldl_nil, List.range_one]
        simp only [List.range_one, List.foldl_cons, List.foldl_nil] at ih
        rw [set_apply, ih]
        by_cases h : a = 0 ∧ b = n
        · rw [if_pos h, if_pos (by omega), h.2]
        · rw [if_neg h]
          by_cases h' : a = 0 ∧ b < n
          · rw [if_pos h', if_pos (by omega)]
          · rw [if_neg h', if_neg (by omega)]
    refine ⟨_, Matrix.of fun _ _ => 1 / ∑ i : Fin a0, A i 0 * A i 0, by
      unfold SmallMatrix.pinv; rw [if_neg (by omega), if_pos rfl], ?_, ?_, ?_⟩
    · ext i j
      have hi : i = 0 := Subsingleton.elim _ _
      have hj : j = 0 := Subsingleton.elim _ _
      subst hi; subst hj
      rw [Matrix.mul_apply, Fin.sum_univ_one, hgram, Matrix.one_apply_eq]
      exact one_div_mul_cancel hG
    · ext i j
      have hi : i = 0 := Subsingleton.elim _ _
      subst hi
      rw [Matrix.mul_apply, Fin.sum_univ_one, Matrix.transpose_apply]
      show (List.range a0).foldl _ P 0 j = _
      rw [hset a0 (fun _ => _), if_pos ⟨rfl, j.2⟩, hres]
      rfl
    · intro i j h
      rw [hset a0 (fun _ => _), if_neg (by omega)]

end

/-! ### Cases -/

/-- A 3x3 matrix with non-zero determinant. -/
def smA : Entries ℚ := fun i j => if i = j then 2 else if i < j then (i : ℚ) + 1 else -(j : ℚ)

example : (view 3 3 smA).det ≠ 0 := by
  rw [Matrix.det_fin_three]; simp [view, smA]; norm_num

/-- A 3x2 matrix of full rank. -/
example : Function.Injective (view 3 2 smA).mulVec := by
  intro u v h
  have h0 := congrFun h 0
  have h1 := congrFun h 1
  simp [view, smA, Matrix.mulVec, dotProduct, Fin.sum_univ_two] at h0 h1
  ext i
  fin_cases i
  · simp; linarith
  · simp; linarith

end Verif.Props
