import Verif.Props.C34_SmallMatrix
import Verif.Model.PullBack
import Verif.Spec.PullBack
/-!
# Memory and Newton's method of `pull_back_nonaffine`
-/
namespace Verif.PullBack
open Verif.SmallMatrix (Entries)
open Verif.Spec.PullBack Verif.Props
open scoped Matrix

section Mem
variable {K : Type}

theorem wr_out {m : Nat → K} {base rows cols : Nat} {E : Entries K} {a : Nat} (h : a < base ∨ base + rows * cols ≤ a) : wr m base rows cols E a = m a := by
  unfold wr; rw [if_neg (by omega)]

theorem rd_wr {m : Nat → K} {base rows cols : Nat} {E : Entries K} {i j : Nat} (hi : i < rows) (hj : j < cols) : rd (wr m base rows cols E) base cols i j = E i j := by
  have h1 : i * cols + j < rows * cols := by
    have := Nat.mul_le_mul_right cols (Nat.succ_le_of_lt hi)
    rw [Nat.succ_mul] at this; omega
  unfold rd wr
  rw [if_pos (by omega)]
  have h2 : base + i * cols + j - base = i * cols + j := by omega
  rw [h2]
  have h3 : (i * cols + j) / cols = i := by
    rw [Nat.mul_comm, Nat.mul_add_div (by omega), Nat.div_eq_of_lt hj, Nat.add_zero]
  have h4 : (i * cols + j) % cols = j := by
    rw [Nat.mul_comm, Nat.mul_add_mod, Nat.mod_eq_of_lt hj]
  rw [h3, h4]

theorem rd_wr_out {m : Nat → K} {base rows cols b r c : Nat} {E : Entries K} {i j : Nat} (hi : i < r) (hj : j < c) (h : b + r * c ≤ base ∨ base + rows * cols ≤ b) :
    rd (wr m base rows cols E) b c i j = rd m b c i j := by
  have h1 : i * c + j < r * c := by
    have := Nat.mul_le_mul_right c (Nat.succ_le_of_lt hi)
    rw [Nat.succ_mul] at this; omega
  unfold rd
  exact wr_out (by omega)

/-- The starts of the parts in terms of the sizes. -/
theorem layout_eq (t d n : Nat) : layout t d n = ⟨0, t * n, t * n + t, t * n + 2 * t, t * n + 2 * t + d, t * n + 2 * t + d + t * d, t * n + 2 * t + d + 2 * (t * d)⟩ := by
  unfold layout
  congr 1 <;> ring

end Mem

variable {K : Type} [Field K]

theorem addNodes_inner (gcols : Nat) (c xk : Nat → K) (j : Nat) :
    (List.range gcols).foldl (fun xk j => Function.update xk j (xk j + c j)) xk j = if j < gcols then xk j + c j else xk j := by
  induction gcols with
  | zero => simp
  | succ m ih =>
    rw [List.range_succ, List.foldl_append, List.foldl_cons, List.foldl_nil]
    by_cases h : j = m
    · subst h
      rw [Function.update_self, ih, if_neg (by omega), if_pos (by omega)]
    · rw [Function.update_of_ne h, ih]
      by_cases h' : j < m
      · rw [if_pos h', if_pos (by omega)]
      · rw [if_neg h', if_neg (by omega)]

theorem addNodes_eq (nx gcols : Nat) (g : Entries K) (phi xk : Nat → K) {j : Nat} (hj : j < gcols) :
    addNodes nx gcols g phi xk j = xk j + ∑ i ∈ Finset.range nx, g i j * phi i := by
  unfold addNodes
  induction nx with
  | zero => simp
  | succ n ih =>
    rw [List.range_succ, List.foldl_append, List.foldl_cons, List.foldl_nil, addNodes_inner gcols (fun j => g n j * phi n), if_pos hj, ih, Finset.sum_range_succ, add_assoc]

theorem map_range_ofFn (t : Nat) (f : Nat → K) : (List.range t).map f = List.ofFn (fun i : Fin t => f i) := by
  apply List.ext_getElem
  · simp
  · intro i h1 h2; simp

/-- What an iteration starts from. -/
def Xof (t d n : Nat) (m : Nat → K) : Fin t → K := fun i => rd m (layout t d n).Xk t 0 i

theorem evalAt_ok (e : CElem K) (d : Nat) (g : Entries K) (m : Nat → K) :
    (∀ j : Fin d, rd (evalAt e d g m) (layout e.tdim d e.dim).xk d 0 j = place e.tab e.dim g d (Xof e.tdim d e.dim m) j) ∧
    view d e.tdim (rd (evalAt e d g m) (layout e.tdim d e.dim).J e.tdim) = jac e.tab e.dim g d (Xof e.tdim d e.dim m) ∧
    Xof e.tdim d e.dim (evalAt e d g m) = Xof e.tdim d e.dim m ∧
    (∀ a, e.tdim * (2 * d + 2 * e.dim + 2) + d + e.dim ≤ a → evalAt e d g m a = m a) := by
  obtain ⟨sx, sd, t, n, tab⟩ := e
  have hL := layout_eq t d n
  have hQ : d * t = t * d := Nat.mul_comm d t
  have hB : (t + 1) * n = t * n + n := Nat.succ_mul t n
  have hS : t * (2 * d + 2 * n + 2) + d + n = t * n + 2 * t + d + 2 * (t * d) + (t * n + n) := by ring
  have hX : (List.range t).map (rd m (t * n) t 0) = List.ofFn (Xof t d n m) := by
    rw [map_range_ofFn]; unfold Xof; rw [hL]
  unfold evalAt
  simp only [hL, hX, hS]
  obtain ⟨Q, hQe⟩ : ∃ Q, Q = t * d := ⟨_, rfl⟩
  obtain ⟨P, hPe⟩ : ∃ P, P = t * n := ⟨_, rfl⟩
  rw [← hQe] at hQ
  rw [← hPe] at hB
  simp only [← hPe, ← hQe]
  obtain ⟨m1, h1⟩ : ∃ m1, m1 = wr m (P + 2 * t + d + 2 * Q) (t + 1) n (tab (List.ofFn (Xof t d n m))) := ⟨_, rfl⟩
  rw [← h1]
  obtain ⟨m2, h2⟩ : ∃ m2, m2 = wr m1 (P + 2 * t) 1 d (fun _ _ => (0 : K)) := ⟨_, rfl⟩
  rw [← h2]
  obtain ⟨m3, h3⟩ : ∃ m3, m3 = wr m2 (P + 2 * t) 1 d (fun _ => addNodes n d g (rd m2 (P + 2 * t + d + 2 * Q) n 0) (rd m2 (P + 2 * t) d 0)) := ⟨_, rfl⟩
  rw [← h3]
  obtain ⟨m4, h4⟩ : ∃ m4, m4 = wr m3 (P + 2 * t + d) d t (fun _ _ => (0 : K)) := ⟨_, rfl⟩
  rw [← h4]
  obtain ⟨m5, h5⟩ : ∃ m5, m5 = wr m4 0 t n (fun i j => rd m4 (P + 2 * t + d + 2 * Q) n (i + 1) j) := ⟨_, rfl⟩
  rw [← h5]
  -- the basis functions stay
  have b1 : ∀ i < t + 1, ∀ j < n, rd m1 (P + 2 * t + d + 2 * Q) n i j = tab (List.ofFn (Xof t d n m)) i j := by
    intro i hi j hj; rw [h1]; exact rd_wr hi hj
  have b2 : ∀ i < t + 1, ∀ j < n, rd m2 (P + 2 * t + d + 2 * Q) n i j = tab (List.ofFn (Xof t d n m)) i j := by
    intro i hi j hj; rw [h2, rd_wr_out (r := t + 1) hi hj (by omega)]; exact b1 i hi j hj
  have b4 : ∀ i < t + 1, ∀ j < n, rd m4 (P + 2 * t + d + 2 * Q) n i j = tab (List.ofFn (Xof t d n m)) i j := by
    intro i hi j hj
    rw [h4, rd_wr_out (r := t + 1) hi hj (by omega), h3, rd_wr_out (r := t + 1) hi hj (by omega)]; exact b2 i hi j hj
  have d5 : ∀ i < t, ∀ j < n, rd m5 0 n i j = tab (List.ofFn (Xof t d n m)) (i + 1) j := by
    intro i hi j hj; rw [h5, rd_wr hi hj]; exact b4 _ (by omega) j hj
  refine ⟨?_, ?_, ?_, ?_⟩
  · intro j
    rw [rd_wr_out (r := 1) (by omega) j.2 (by omega), h5, rd_wr_out (r := 1) (by omega) j.2 (by omega), h4, rd_wr_out (r := 1) (by omega) j.2 (by omega), h3,
      rd_wr (by omega) j.2, addNodes_eq _ _ _ _ _ j.2, h2, rd_wr (by omega) j.2, ← h2, zero_add]
    unfold place
    rw [Finset.sum_range]
    exact Finset.sum_congr rfl (fun i _ => by rw [b2 0 (by omega) i i.2, mul_comm])
  · ext j k
    unfold view jac
    rw [rd_wr j.2 k.2]
    unfold computeJacobian SmallMatrix.dot
    rw [if_pos rfl, accumulate_apply, if_pos ⟨j.2, k.2⟩, h5, rd_wr_out (r := d) j.2 k.2 (by omega), h4, rd_wr j.2 k.2, zero_add, Finset.sum_range, ← h4, ← h5]
    exact Finset.sum_congr rfl (fun i _ => by rw [d5 k k.2 i i.2, mul_comm])
  · funext i
    unfold Xof
    rw [hL]
    simp only [← hPe]
    rw [rd_wr_out (r := 1) (by omega) i.2 (by omega), h5, rd_wr_out (r := 1) (by omega) i.2 (by omega), h4, rd_wr_out (r := 1) (by omega) i.2 (by omega), h3,
      rd_wr_out (r := 1) (by omega) i.2 (by omega), h2, rd_wr_out (r := 1) (by omega) i.2 (by omega), h1, rd_wr_out (r := 1) (by omega) i.2 (by omega)]
  · intro a ha
    rw [wr_out (by omega), h5, wr_out (by omega), h4, wr_out (by omega), h3, wr_out (by omega), h2, wr_out (by omega), h1, wr_out (by omega)]

/-- The shapes that can be inverted. -/
def ShapeOk (d t : Nat) : Prop := (d = t ∧ (t = 1 ∨ t = 2 ∨ t = 3)) ∨ (d = 3 ∧ t = 2) ∨ (d ≠ 1 ∧ t = 1)

section Ordered
variable [LinearOrder K] [IsStrictOrderedRing K]

/-- A left inverse whose product with the matrix is symmetric is the one of least squares. -/
theorem pinv_unique {d t : Nat} (J : Matrix (Fin d) (Fin t) K) (R : Matrix (Fin t) (Fin d) K) (hJ : Function.Injective J.mulVec) (h1 : R * J = 1) (h2 : (J * R)ᵀ = J * R)
    (r : Fin d → K) : R *ᵥ r = leastSquares J r := by
  have hG := gram_det_ne_zero J hJ
  have hU : IsUnit (Jᵀ * J).det := isUnit_iff_ne_zero.mpr hG
  have h3 : (Jᵀ * J) * R = Jᵀ := by
    rw [Matrix.mul_assoc, ← h2, ← Matrix.transpose_mul, Matrix.mul_assoc, h1, Matrix.mul_one]
  have h4 : R = (Jᵀ * J)⁻¹ * Jᵀ := by
    calc R = (Jᵀ * J)⁻¹ * ((Jᵀ * J) * R) := by rw [← Matrix.mul_assoc, Matrix.nonsing_inv_mul _ hU, Matrix.one_mul]
      _ = (Jᵀ * J)⁻¹ * Jᵀ := by rw [h3]
  unfold leastSquares
  rw [Matrix.mulVec_mulVec, ← h4]

/-- The inverse that is computed. -/
theorem inverse_ok {d t : Nat} (hs : ShapeOk d t) (J Kv : Entries K) (hJ : Function.Injective (view d t J).mulVec) :
    ∃ R, computeJacobianInverse d t J Kv = .ok R ∧ view t d R * view d t J = 1 ∧ (view d t J * view t d R)ᵀ = view d t J * view t d R := by
  unfold computeJacobianInverse
  by_cases hdt : d = t
  · subst hdt
    have hn : d = 1 ∨ d = 2 ∨ d = 3 := by unfold ShapeOk at hs; omega
    have hd : (view d d J).det ≠ 0 := by
      intro h
      obtain ⟨v, hv, h0⟩ := Matrix.exists_mulVec_eq_zero_iff.mpr h
      exact hv (hJ (by rw [h0, Matrix.mulVec_zero]))
    obtain ⟨R, h1, h2, h3, _⟩ := C34_inv d J Kv hn hd
    rw [if_pos rfl, h1]
    exact ⟨R, rfl, h2, by rw [h3, Matrix.transpose_one]⟩
  · obtain ⟨R, h1, h2, h3, _⟩ := C34_pinv d t J Kv (fun _ _ => 0) (by unfold ShapeOk at hs; omega) hJ
    rw [if_neg hdt, h1]
    exact ⟨R, rfl, h2, h3⟩

/-- Shapes for which there is no inverse. -/
theorem inverse_bad {d t : Nat} (ht : t = 0 ∨ 3 < t ∨ (t = 3 ∧ d ≠ 3)) (J Kv : Entries K) : computeJacobianInverse d t J Kv = .error .shape := by
  unfold computeJacobianInverse
  by_cases hdt : d = t
  · subst hdt
    rw [if_pos rfl]
    have : SmallMatrix.inv d J Kv = .error .shape := by
      unfold SmallMatrix.inv
      split
      · omega
      · omega
      · omega
      · rfl
    rw [this]
  · rw [if_neg hdt]
    have : SmallMatrix.pinv d t J Kv (fun _ _ => 0) = .error .shape := by
      unfold SmallMatrix.pinv
      rw [if_neg (by omega), if_neg (by omega)]
    rw [this]

theorem advance_ok (e : CElem K) (d : Nat) (x : Nat → K) (m : Nat → K) :
    (∀ i : Fin e.tdim, rd (advance e d x m) (layout e.tdim d e.dim).dX e.tdim 0 i =
      (view e.tdim d (rd m (layout e.tdim d e.dim).K d) *ᵥ (fun j : Fin d => x j - rd m (layout e.tdim d e.dim).xk d 0 j)) i) ∧
    (∀ i : Fin e.tdim, Xof e.tdim d e.dim (advance e d x m) i = Xof e.tdim d e.dim m i + rd (advance e d x m) (layout e.tdim d e.dim).dX e.tdim 0 i) ∧
    (∀ a, e.tdim * (2 * d + 2 * e.dim + 2) + d + e.dim ≤ a → advance e d x m a = m a) := by
  obtain ⟨sx, sd, t, n, tab⟩ := e
  have hL := layout_eq t d n
  have hS : t * (2 * d + 2 * n + 2) + d + n = t * n + 2 * t + d + 2 * (t * d) + (t * n + n) := by ring
  unfold advance Xof
  simp only [hL, hS]
  obtain ⟨Q, hQe⟩ : ∃ Q, Q = t * d := ⟨_, rfl⟩
  obtain ⟨P, hPe⟩ : ∃ P, P = t * n := ⟨_, rfl⟩
  simp only [← hPe, ← hQe]
  obtain ⟨m1, h1⟩ : ∃ m1, m1 = wr m (P + t) 1 t (fun _ _ => (0 : K)) := ⟨_, rfl⟩
  rw [← h1]
  obtain ⟨m2, h2⟩ : ∃ m2, m2 = wr m1 (P + t) 1 t (SmallMatrix.accumulate 1 t d (fun _ i j => rd m1 (P + 2 * t + d + Q) d i j * (x j - rd m1 (P + 2 * t) d 0 j)) (rd m1 (P + t) t)) :=
    ⟨_, rfl⟩
  rw [← h2]
  refine ⟨?_, ?_, ?_⟩
  · intro i
    rw [rd_wr_out (r := 1) (by omega) i.2 (by omega), h2, rd_wr (by omega) i.2, accumulate_apply, if_pos ⟨by omega, i.2⟩, h1, rd_wr (by omega) i.2, zero_add, Finset.sum_range, ← h1]
    unfold Matrix.mulVec dotProduct view
    refine Finset.sum_congr rfl (fun j _ => ?_)
    rw [h1, rd_wr_out (r := t) i.2 j.2 (by omega), rd_wr_out (r := 1) (by omega) j.2 (by omega)]
  · intro i
    rw [rd_wr (by omega) i.2, rd_wr_out (r := 1) (by omega) i.2 (by omega), add_comm]
    congr 1
    rw [h2, rd_wr_out (r := 1) (by omega) i.2 (by omega), h1, rd_wr_out (r := 1) (by omega) i.2 (by omega)]
  · intro a ha
    rw [wr_out (by omega), h2, wr_out (by omega), h1, wr_out (by omega)]

theorem step_ok (e : CElem K) {d : Nat} (hs : ShapeOk d e.tdim) (g : Entries K) (x : Nat → K) (m : Nat → K)
    (hJ : Function.Injective (jac e.tab e.dim g d (Xof e.tdim d e.dim m)).mulVec) :
    ∃ m', step e d g x m = .ok m' ∧
      (∀ i : Fin e.tdim, rd m' (layout e.tdim d e.dim).dX e.tdim 0 i =
        leastSquares (jac e.tab e.dim g d (Xof e.tdim d e.dim m)) ((fun j : Fin d => x j) - place e.tab e.dim g d (Xof e.tdim d e.dim m)) i) ∧
      Xof e.tdim d e.dim m' = Xof e.tdim d e.dim m +
        leastSquares (jac e.tab e.dim g d (Xof e.tdim d e.dim m)) ((fun j : Fin d => x j) - place e.tab e.dim g d (Xof e.tdim d e.dim m)) ∧
      (∀ a, e.tdim * (2 * d + 2 * e.dim + 2) + d + e.dim ≤ a → m' a = m a) := by
  obtain ⟨e1, e2, e3, e4⟩ := evalAt_ok e d g m
  obtain ⟨m1, hm1⟩ : ∃ m1, m1 = evalAt e d g m := ⟨_, rfl⟩
  rw [← hm1] at e1 e2 e3
  rw [← e2] at hJ
  obtain ⟨R, r1, r2, r3⟩ := inverse_ok hs (rd m1 (layout e.tdim d e.dim).J e.tdim) (rd m1 (layout e.tdim d e.dim).K d) hJ
  obtain ⟨m2, hm2⟩ : ∃ m2, m2 = wr m1 (layout e.tdim d e.dim).K e.tdim d R := ⟨_, rfl⟩
  have hstep : step e d g x m = .ok (advance e d x m2) := by
    unfold step
    simp only [← hm1, r1, ← hm2]
  obtain ⟨a1, a2, a3⟩ := advance_ok e d x m2
  have hL := layout_eq e.tdim d e.dim
  have hQ : d * e.tdim = e.tdim * d := Nat.mul_comm _ _
  have hK : view e.tdim d (rd m2 (layout e.tdim d e.dim).K d) = view e.tdim d R := by
    ext i j; unfold view; rw [hm2, rd_wr i.2 j.2]
  have hxk : ∀ j : Fin d, rd m2 (layout e.tdim d e.dim).xk d 0 j = place e.tab e.dim g d (Xof e.tdim d e.dim m) j := by
    intro j
    rw [hm2, rd_wr_out (r := 1) (by omega) j.2 (by rw [hL]; simp only []; omega)]
    exact e1 j
  have hX : Xof e.tdim d e.dim m2 = Xof e.tdim d e.dim m := by
    rw [← e3]; funext i; unfold Xof
    rw [hm2, rd_wr_out (r := 1) (by omega) i.2 (by rw [hL]; simp only []; omega)]
  have hfun : (fun j : Fin d => x j - rd m2 (layout e.tdim d e.dim).xk d 0 j) = (fun j : Fin d => x j) - place e.tab e.dim g d (Xof e.tdim d e.dim m) := by
    funext j; rw [hxk j]; rfl
  have hdX : ∀ i : Fin e.tdim, rd (advance e d x m2) (layout e.tdim d e.dim).dX e.tdim 0 i =
      leastSquares (jac e.tab e.dim g d (Xof e.tdim d e.dim m)) ((fun j : Fin d => x j) - place e.tab e.dim g d (Xof e.tdim d e.dim m)) i := by
    intro i
    rw [a1 i, hK, hfun, pinv_unique _ _ hJ r2 r3, e2]
  refine ⟨_, hstep, hdX, ?_, ?_⟩
  · funext i
    rw [a2 i, hdX i, hX]; rfl
  · intro a ha
    rw [a3 a ha, hm2, wr_out, hm1, e4 a ha]
    right
    have hS : e.tdim * (2 * d + 2 * e.dim + 2) + d + e.dim = e.tdim * e.dim + 2 * e.tdim + d + 2 * (e.tdim * d) + (e.tdim * e.dim + e.dim) := by ring
    rw [hL]; simp only []; omega

theorem dXSquared_eq (e : CElem K) (d : Nat) (m : Nat → K) :
    dXSquared e d m = ∑ i : Fin e.tdim, rd m (layout e.tdim d e.dim).dX e.tdim 0 i * rd m (layout e.tdim d e.dim).dX e.tdim 0 i := by
  unfold dXSquared
  rw [← Finset.sum_range (fun i => rd m (layout e.tdim d e.dim).dX e.tdim 0 i * rd m (layout e.tdim d e.dim).dX e.tdim 0 i)]
  have : ∀ n : Nat, (List.range n).foldl (fun s i => s + rd m (layout e.tdim d e.dim).dX e.tdim 0 i * rd m (layout e.tdim d e.dim).dX e.tdim 0 i) 0 =
      ∑ i ∈ Finset.range n, rd m (layout e.tdim d e.dim).dX e.tdim 0 i * rd m (layout e.tdim d e.dim).dX e.tdim 0 i := by
    intro n
    induction n with
    | zero => rfl
    | succ n ih => rw [List.range_succ, List.foldl_append, Finset.sum_range_succ, ih]; rfl
  exact this _

/-- The iterations are those of Newton's method, when step `k + q` is the first to be short. -/
theorem iterate_stop (sqrt : K → K) (tol : K) (e : CElem K) {d : Nat} (hs : ShapeOk d e.tdim) (g : Entries K) (x : Nat → K) (q : Nat) :
    ∀ (n k : Nat) (m : Nat → K), q < n → Xof e.tdim d e.dim m = iter e.tab e.dim g e.tdim (fun j : Fin d => x j) k →
    (∀ j ≤ q, Function.Injective (jac e.tab e.dim g d (iter e.tab e.dim g e.tdim (fun j : Fin d => x j) (k + j))).mulVec) →
    sqrt (stepSquared e.tab e.dim g e.tdim (fun j : Fin d => x j) (k + q)) < tol →
    (∀ j < q, ¬ sqrt (stepSquared e.tab e.dim g e.tdim (fun j : Fin d => x j) (k + j)) < tol) →
    ∃ m', iterate sqrt tol e d g x n m = .ok (m', true) ∧ Xof e.tdim d e.dim m' = iter e.tab e.dim g e.tdim (fun j : Fin d => x j) (k + q + 1) ∧
      (∀ a, e.tdim * (2 * d + 2 * e.dim + 2) + d + e.dim ≤ a → m' a = m a) := by
  induction q with
  | zero =>
    intro n k m hn hX hJ hlt _
    obtain ⟨n, rfl⟩ : ∃ n', n = n' + 1 := ⟨n - 1, by omega⟩
    obtain ⟨m', s1, s2, s3, s4⟩ := step_ok e hs g x m (by rw [hX]; exact hJ 0 (by omega))
    have hsq : dXSquared e d m' = stepSquared e.tab e.dim g e.tdim (fun j : Fin d => x j) k := by
      rw [dXSquared_eq]
      unfold stepSquared
      refine Finset.sum_congr rfl (fun i _ => ?_)
      rw [s2 i, hX]
      simp only [iter, Pi.add_apply, add_sub_cancel_left]
    refine ⟨m', ?_, ?_, s4⟩
    · unfold iterate
      rw [s1]
      simp only []
      rw [hsq, if_pos (by simpa using hlt)]
    · rw [s3, hX]; rfl
  | succ q ih =>
    intro n k m hn hX hJ hlt hge
    obtain ⟨n, rfl⟩ : ∃ n', n = n' + 1 := ⟨n - 1, by omega⟩
    obtain ⟨m', s1, s2, s3, s4⟩ := step_ok e hs g x m (by rw [hX]; exact hJ 0 (by omega))
    have hsq : dXSquared e d m' = stepSquared e.tab e.dim g e.tdim (fun j : Fin d => x j) k := by
      rw [dXSquared_eq]
      unfold stepSquared
      refine Finset.sum_congr rfl (fun i _ => ?_)
      rw [s2 i, hX]
      simp only [iter, Pi.add_apply, add_sub_cancel_left]
    have hX' : Xof e.tdim d e.dim m' = iter e.tab e.dim g e.tdim (fun j : Fin d => x j) (k + 1) := by rw [s3, hX]; rfl
    have hk : ∀ j, k + 1 + j = k + (j + 1) := fun j => by omega
    obtain ⟨m2, t1, t2, t3⟩ := ih n (k + 1) m' (by omega) hX' (fun j hj => by rw [hk]; exact hJ _ (by omega)) (by rw [hk]; exact hlt) (fun j hj => by rw [hk]; exact hge _ (by omega))
    refine ⟨m2, ?_, ?_, ?_⟩
    · unfold iterate
      rw [s1]
      simp only []
      rw [hsq, if_neg (by simpa using hge 0 (by omega)), t1]
    · rw [t2, hk]
    · intro a ha; rw [t3 a ha, s4 a ha]

/-- No step is short. -/
theorem iterate_fail (sqrt : K → K) (tol : K) (e : CElem K) {d : Nat} (hs : ShapeOk d e.tdim) (g : Entries K) (x : Nat → K) :
    ∀ (n k : Nat) (m : Nat → K), Xof e.tdim d e.dim m = iter e.tab e.dim g e.tdim (fun j : Fin d => x j) k →
    (∀ j < n, Function.Injective (jac e.tab e.dim g d (iter e.tab e.dim g e.tdim (fun j : Fin d => x j) (k + j))).mulVec) →
    (∀ j < n, ¬ sqrt (stepSquared e.tab e.dim g e.tdim (fun j : Fin d => x j) (k + j)) < tol) →
    ∃ m', iterate sqrt tol e d g x n m = .ok (m', false) := by
  intro n
  induction n with
  | zero => intro k m _ _ _; exact ⟨m, rfl⟩
  | succ n ih =>
    intro k m hX hJ hge
    obtain ⟨m', s1, s2, s3, s4⟩ := step_ok e hs g x m (by rw [hX]; exact hJ 0 (by omega))
    have hsq : dXSquared e d m' = stepSquared e.tab e.dim g e.tdim (fun j : Fin d => x j) k := by
      rw [dXSquared_eq]
      unfold stepSquared
      refine Finset.sum_congr rfl (fun i _ => ?_)
      rw [s2 i, hX]
      simp only [iter, Pi.add_apply, add_sub_cancel_left]
    have hX' : Xof e.tdim d e.dim m' = iter e.tab e.dim g e.tdim (fun j : Fin d => x j) (k + 1) := by rw [s3, hX]; rfl
    have hk : ∀ j, k + 1 + j = k + (j + 1) := fun j => by omega
    obtain ⟨m2, t1⟩ := ih (k + 1) m' hX' (fun j hj => by rw [hk]; exact hJ _ (by omega)) (fun j hj => by rw [hk]; exact hge _ (by omega))
    refine ⟨m2, ?_⟩
    unfold iterate
    rw [s1]
    simp only []
    rw [hsq, if_neg (by simpa using hge 0 (by omega)), t1]

/-- Least squares with a solution. -/
theorem leastSquares_exact {d t : Nat} (J : Matrix (Fin d) (Fin t) K) (hJ : Function.Injective J.mulVec) (v : Fin t → K) : leastSquares J (J *ᵥ v) = v := by
  have hU : IsUnit (Jᵀ * J).det := isUnit_iff_ne_zero.mpr (gram_det_ne_zero J hJ)
  unfold leastSquares
  rw [Matrix.mulVec_mulVec, Matrix.mulVec_mulVec, Matrix.mul_assoc, Matrix.nonsing_inv_mul _ hU, Matrix.one_mulVec]

/-- As many unknowns as equations. -/
theorem leastSquares_square {d : Nat} (J : Matrix (Fin d) (Fin d) K) (hJ : Function.Injective J.mulVec) (r : Fin d → K) : J *ᵥ leastSquares J r = r := by
  have hd : J.det ≠ 0 := by
    intro h
    obtain ⟨v, hv, h0⟩ := Matrix.exists_mulVec_eq_zero_iff.mpr h
    exact hv (hJ (by rw [h0, Matrix.mulVec_zero]))
  have hU : IsUnit J.det := isUnit_iff_ne_zero.mpr hd
  have : r = J *ᵥ (J⁻¹ *ᵥ r) := by rw [Matrix.mulVec_mulVec, Matrix.mul_nonsing_inv _ hU, Matrix.one_mulVec]
  rw [this, leastSquares_exact J hJ]

theorem reset_Xof (t d n : Nat) (m : Nat → K) : Xof t d n (wr m (layout t d n).Xk 1 t (fun _ _ => 0)) = 0 := by
  funext i; unfold Xof; rw [rd_wr (by omega) i.2]; rfl

theorem reset_frame (t d n : Nat) (m : Nat → K) {a : Nat} (ha : t * (2 * d + 2 * n + 2) + d + n ≤ a) : wr m (layout t d n).Xk 1 t (fun _ _ => 0) a = m a := by
  rw [wr_out]
  right
  have hS : t * (2 * d + 2 * n + 2) + d + n = t * n + 2 * t + d + 2 * (t * d) + (t * n + n) := by ring
  rw [layout_eq]; simp only []; omega

theorem point_ok (sqrt : K → K) (tol : K) (maxit : Int) (e : CElem K) {d : Nat} (hs : ShapeOk d e.tdim) (g x : Entries K) (p k : Nat) (s : (Nat → K) × Entries K) (hk : (k : Int) < maxit)
    (h : StopsAt e.tab e.dim g sqrt tol e.tdim (fun j : Fin d => x p j) k) (hr : RegularTo e.tab e.dim g e.tdim (fun j : Fin d => x p j) (k + 1)) :
    ∃ m' X', point sqrt tol maxit e d g x p s = .ok (m', X') ∧ (∀ a, e.tdim * (2 * d + 2 * e.dim + 2) + d + e.dim ≤ a → m' a = s.1 a) ∧
      (∀ i : Fin e.tdim, X' p i = iter e.tab e.dim g e.tdim (fun j : Fin d => x p j) (k + 1) i) ∧ (∀ q i, q ≠ p ∨ e.tdim ≤ i → X' q i = s.2 q i) := by
  obtain ⟨m', h1, h2, h3⟩ := iterate_stop sqrt tol e hs g (x p) k maxit.toNat 0 (wr s.1 (layout e.tdim d e.dim).Xk 1 e.tdim (fun _ _ => 0)) (by omega) (reset_Xof _ _ _ _)
    (fun j hj => by rw [Nat.zero_add]; exact hr j (by omega)) (by rw [Nat.zero_add]; exact h.short) (fun j hj => by rw [Nat.zero_add]; exact h.first j hj)
  rw [Nat.zero_add] at h2
  refine ⟨m', fun q i => if q = p ∧ i < e.tdim then rd m' (layout e.tdim d e.dim).Xk e.tdim 0 i else s.2 q i, ?_, ?_, ?_, ?_⟩
  · unfold point
    simp only [h1]
    rw [if_neg (by simp)]
  · intro a ha; rw [h3 a ha, reset_frame _ _ _ _ ha]
  · intro i
    simp only []
    rw [if_pos ⟨trivial, i.2⟩, ← h2]; rfl
  · intro q i hq
    simp only []
    rw [if_neg (by omega)]

theorem point_fail (sqrt : K → K) (tol : K) (maxit : Int) (e : CElem K) {d : Nat} (hs : ShapeOk d e.tdim) (g x : Entries K) (p : Nat) (s : (Nat → K) × Entries K) (hm : 0 ≤ maxit)
    (h : ∀ j : Nat, (j : Int) < maxit → ¬ sqrt (stepSquared e.tab e.dim g e.tdim (fun j : Fin d => x p j) j) < tol)
    (hr : RegularTo e.tab e.dim g e.tdim (fun j : Fin d => x p j) maxit.toNat) : point sqrt tol maxit e d g x p s = .error .noConvergence := by
  obtain ⟨m', h1⟩ := iterate_fail sqrt tol e hs g (x p) maxit.toNat 0 (wr s.1 (layout e.tdim d e.dim).Xk 1 e.tdim (fun _ _ => 0)) (reset_Xof _ _ _ _)
    (fun j hj => by rw [Nat.zero_add]; exact hr j hj) (fun j hj => by rw [Nat.zero_add]; exact h j (by omega))
  unfold point
  simp only [h1]
  rw [if_pos ⟨trivial, hm⟩]

/-- All points up to `n`. -/
theorem points_ok (sqrt : K → K) (tol : K) (maxit : Int) (e : CElem K) {d : Nat} (hs : ShapeOk d e.tdim) (g x : Entries K) (stop : Nat → Nat) (s : (Nat → K) × Entries K) (n : Nat)
    (h : ∀ p < n, (stop p : Int) < maxit ∧ StopsAt e.tab e.dim g sqrt tol e.tdim (fun j : Fin d => x p j) (stop p) ∧
      RegularTo e.tab e.dim g e.tdim (fun j : Fin d => x p j) (stop p + 1)) :
    ∃ m' X', (List.range n).foldlM (fun s p => point sqrt tol maxit e d g x p s) s = .ok (m', X') ∧
      (∀ a, e.tdim * (2 * d + 2 * e.dim + 2) + d + e.dim ≤ a → m' a = s.1 a) ∧
      (∀ p < n, ∀ i : Fin e.tdim, X' p i = iter e.tab e.dim g e.tdim (fun j : Fin d => x p j) (stop p + 1) i) ∧ (∀ q i, n ≤ q ∨ e.tdim ≤ i → X' q i = s.2 q i) := by
  induction n with
  | zero => exact ⟨s.1, s.2, rfl, fun _ _ => rfl, fun p hp => absurd hp (by omega), fun _ _ _ => rfl⟩
  | succ n ih =>
    obtain ⟨m1, X1, a1, a2, a3, a4⟩ := ih (fun p hp => h p (by omega))
    obtain ⟨h1, h2, h3⟩ := h n (by omega)
    obtain ⟨m2, X2, b1, b2, b3, b4⟩ := point_ok sqrt tol maxit e hs g x n (stop n) (m1, X1) h1 h2 h3
    refine ⟨m2, X2, ?_, ?_, ?_, ?_⟩
    · rw [List.range_succ, List.foldlM_append, a1]
      show List.foldlM (fun s p => point sqrt tol maxit e d g x p s) (m1, X1) [n] = _
      rw [List.foldlM_cons, b1]; rfl
    · intro a ha; rw [b2 a ha]; exact a2 a ha
    · intro p hp i
      by_cases hpn : p = n
      · subst hpn; exact b3 i
      · rw [b4 p i (Or.inl hpn)]; exact a3 p (by omega) i
    · intro q i hq
      rw [b4 q i (by omega)]; exact a4 q i (by omega)

end Ordered

end Verif.PullBack
