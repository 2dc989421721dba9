import Verif.Lemmas.PullBack
/-!
# C83: pulling points back is the inverse of pushing them forward
-/
namespace Verif.Props
open Verif.PullBack Verif.Spec.PullBack
open Verif.SmallMatrix (Entries)
open scoped Matrix

section
variable {K : Type} [Field K]

theorem isAffine_true {e : CElem K} (h : e.simplex = true ∧ e.degree = 1) : e.isAffine = true := by
  unfold CElem.isAffine
  rw [h.1, h.2]
  rfl

theorem isAffine_false {e : CElem K} (h : e.simplex = false ∨ e.degree ≠ 1) : e.isAffine = false := by
  unfold CElem.isAffine
  rw [Bool.and_eq_false_iff, beq_eq_false_iff_ne]
  exact h

/-- C83: the parts of the working array lie one behind the other and fill exactly the size that is asked for. -/
theorem C83_regions (e : CElem K) (gdim : Nat) (he : e.simplex = false ∨ e.degree ≠ 1) :
    let L := layout e.tdim gdim e.dim
    L.dphi = 0 ∧ L.Xk = L.dphi + e.tdim * e.dim ∧ L.dX = L.Xk + e.tdim ∧ L.xk = L.dX + e.tdim ∧ L.J = L.xk + gdim ∧ L.K = L.J + gdim * e.tdim ∧
      L.basis = L.K + e.tdim * gdim ∧ L.basis + (e.tdim + 1) * e.dim = e.workingSize gdim := by
  unfold CElem.workingSize layout
  rw [if_neg (by rw [isAffine_false he]; decide)]
  refine ⟨rfl, ?_, ?_, ?_, rfl, ?_, ?_, ?_⟩ <;> ring

/-- C83: `push_forward` puts points where the cell puts them. -/
theorem C83_push (e : CElem K) (np gcols : Nat) (Xs : Nat → Fin e.tdim → K) (g : Entries K) :
    ∃ x, pushForwardPy e np e.dim gcols (fun p => List.ofFn (Xs p)) g = .ok x ∧ ∀ p < np, ∀ j : Fin gcols, x p j = place e.tab e.dim g gcols (Xs p) j := by
  refine ⟨_, by unfold pushForwardPy; rw [if_neg (fun h => h rfl)], ?_⟩
  intro p hp j
  unfold pushForward SmallMatrix.dot
  rw [if_neg (by decide), accumulate_apply, if_pos ⟨hp, j.2⟩, smfill_apply, if_pos ⟨hp, j.2⟩, zero_add, Finset.sum_range]
  rfl

variable [LinearOrder K] [IsStrictOrderedRing K]

/-- C83: when the map is not affine, every point gets the first point of Newton's method that is reached by a short step.  The working array may start with any contents; nothing behind the size that is
asked for is touched. -/
theorem C83_newton (sqrt : K → K) (tol : K) (maxit : Int) (e : CElem K) {d np : Nat} (hs : ShapeOk d e.tdim) (g x X : Entries K) (size : Nat) (m : Nat → K) (stop : Nat → Nat)
    (ha : e.simplex = false ∨ e.degree ≠ 1) (hsize : e.workingSize d ≤ size)
    (h : ∀ p < np, (stop p : Int) < maxit ∧ StopsAt e.tab e.dim g sqrt tol e.tdim (fun j : Fin d => x p j) (stop p) ∧
      RegularTo e.tab e.dim g e.tdim (fun j : Fin d => x p j) (stop p + 1)) :
    ∃ m' X', pullBackNonaffine sqrt tol maxit e np d e.dim d X x g size m = .ok (m', X') ∧
      (∀ p < np, ∀ i : Fin e.tdim, X' p i = iter e.tab e.dim g e.tdim (fun j : Fin d => x p j) (stop p + 1) i) ∧
      (∀ q i, np ≤ q ∨ e.tdim ≤ i → X' q i = X q i) ∧ (∀ a, e.workingSize d ≤ a → m' a = m a) := by
  have hw : e.workingSize d = e.tdim * (2 * d + 2 * e.dim + 2) + d + e.dim := by
    unfold CElem.workingSize; rw [if_neg (by rw [isAffine_false ha]; decide)]
  unfold pullBackNonaffine
  by_cases hn : np = 0
  · subst hn
    exact ⟨m, X, if_pos rfl, fun p hp => absurd hp (by omega), fun _ _ _ => rfl, fun _ _ => rfl⟩
  · rw [if_neg hn, if_neg (fun h => h rfl), if_neg (by omega), if_neg (fun h => h rfl)]
    obtain ⟨m', X', h1, h2, h3, h4⟩ := points_ok sqrt tol maxit e hs g x stop (wr m (layout e.tdim d e.dim).xk 1 d (fun _ _ => 0), X) np h
    refine ⟨m', X', h1, h3, h4, ?_⟩
    intro a ha'
    rw [hw] at ha'
    rw [h2 a ha']
    have hS : e.tdim * (2 * d + 2 * e.dim + 2) + d + e.dim = e.tdim * e.dim + 2 * e.tdim + d + 2 * (e.tdim * d) + (e.tdim * e.dim + e.dim) := by ring
    show wr m (layout e.tdim d e.dim).xk 1 d (fun _ _ => 0) a = m a
    rw [wr_out]
    right
    rw [layout_eq]; simp only []; omega

/-- C83: an exception is thrown when no step for a point is short. -/
theorem C83_not_converged (sqrt : K → K) (tol : K) (maxit : Int) (e : CElem K) {d np : Nat} (hs : ShapeOk d e.tdim) (g x X : Entries K) (size : Nat) (m : Nat → K) (stop : Nat → Nat)
    (hsize : e.workingSize d ≤ size) {p0 : Nat} (hp0 : p0 < np)
    (h : ∀ p < p0, (stop p : Int) < maxit ∧ StopsAt e.tab e.dim g sqrt tol e.tdim (fun j : Fin d => x p j) (stop p) ∧
      RegularTo e.tab e.dim g e.tdim (fun j : Fin d => x p j) (stop p + 1))
    (hm : 0 ≤ maxit) (hno : ∀ j : Nat, (j : Int) < maxit → ¬ sqrt (stepSquared e.tab e.dim g e.tdim (fun j : Fin d => x p0 j) j) < tol)
    (hr : RegularTo e.tab e.dim g e.tdim (fun j : Fin d => x p0 j) maxit.toNat) :
    pullBackNonaffine sqrt tol maxit e np d e.dim d X x g size m = .error .noConvergence := by
  unfold pullBackNonaffine
  rw [if_neg (by omega), if_neg (fun h => h rfl), if_neg (by omega), if_neg (fun h => h rfl)]
  obtain ⟨m', X', h1, -, -, -⟩ := points_ok sqrt tol maxit e hs g x stop (wr m (layout e.tdim d e.dim).xk 1 d (fun _ _ => 0), X) p0 h
  have hrange : List.range np = List.range p0 ++ p0 :: (List.range (np - p0 - 1)).map (fun i => p0 + (i + 1)) := by
    apply List.ext_getElem
    · simp; omega
    · intro i a b
      rw [List.getElem_range]
      rcases Nat.lt_trichotomy i p0 with hi | hi | hi
      · rw [List.getElem_append_left (by simpa using hi), List.getElem_range]
      · subst hi
        rw [List.getElem_append_right (by simp)]; simp
      · rw [List.getElem_append_right (by simp; omega)]
        obtain ⟨c, rfl⟩ : ∃ c, i = p0 + (c + 1) := ⟨i - p0 - 1, by omega⟩
        have : p0 + (c + 1) - (List.range p0).length = c + 1 := by simp
        simp only [this, List.getElem_cons_succ, List.getElem_map, List.getElem_range]
  simp only []
  rw [hrange, List.foldlM_append, h1]
  show List.foldlM (fun s p => point sqrt tol maxit e d g x p s) (m', X') (p0 :: _) = _
  rw [List.foldlM_cons, point_fail sqrt tol maxit e hs g x p0 (m', X') hm hno hr]
  rfl

/-- C83: `pull_back` for an affine map gives the points that come closest to the given ones.  Nodes may have more columns than the points have coordinates (those of `geometry.x` have three), or fewer. -/
theorem C83_affine (sqrt : K → K) (tol : K) (maxit : Int) (e : CElem K) {d np gcols : Nat} (hs : ShapeOk d e.tdim) (hd : 0 < d) (g x : Entries K) (size : Nat) (m : Nat → K)
    (ha : e.simplex = true ∧ e.degree = 1) (hsize : e.workingSize d ≤ size) (hg : gcols ≤ 3)
    (hJ : Function.Injective (jac e.tab e.dim (fun i j => if j < gcols then g i j else 0) d (0 : Fin e.tdim → K)).mulVec) :
    ∃ m' X', pullBackPy sqrt tol maxit e np d e.dim gcols x g size m = .ok (m', X') ∧
      (∀ p < np, ∀ i : Fin e.tdim, X' p i =
        leastSquares (jac e.tab e.dim (fun i j => if j < gcols then g i j else 0) d (0 : Fin e.tdim → K)) (fun j => x p j - if (j : Nat) < gcols then g 0 j else 0) i) ∧
      (∀ a, e.workingSize d ≤ a → m' a = m a) := by
  have hw : e.workingSize d = e.tdim * (2 * d + 1) + (e.tdim + 1) * e.dim := by
    unfold CElem.workingSize; rw [if_pos (isAffine_true ha)]
  unfold pullBackPy
  rw [if_neg (by omega), if_pos (isAffine_true ha), hw]
  obtain ⟨sx, sd, t, n, tab⟩ := e
  simp only at hs hJ ⊢
  unfold pullBackPyAffine
  simp only []
  have hQ2 : 2 * d * t = 2 * (d * t) := Nat.mul_assoc _ _ _
  have hQ' : t * d = d * t := Nat.mul_comm _ _
  have hS : t * (2 * d + 1) + (t + 1) * n = 2 * (d * t) + t + (t + 1) * n := by ring
  have hgc : gcols * t ≤ 2 * (d * t) + t := by
    calc gcols * t ≤ (2 * d + 1) * t := Nat.mul_le_mul_right t (by omega)
      _ = 2 * (d * t) + t := by ring
  simp only [hQ2, hS]
  obtain ⟨Q, hQe⟩ : ∃ Q, Q = d * t := ⟨_, rfl⟩
  simp only [← hQe] at hQ' hgc ⊢
  obtain ⟨m1, h1⟩ : ∃ m1, m1 = wr m 0 d t (fun _ _ => (0 : K)) := ⟨_, rfl⟩
  rw [← h1]
  obtain ⟨m2, h2⟩ : ∃ m2, m2 = wr m1 (2 * Q) 1 t (fun _ _ => (0 : K)) := ⟨_, rfl⟩
  rw [← h2]
  have hX : (List.range t).map (rd m2 (2 * Q) t 0) = List.ofFn (0 : Fin t → K) := by
    rw [map_range_ofFn]
    congr 1
    funext i
    rw [h2, rd_wr (by omega) i.2]; rfl
  rw [hX]
  obtain ⟨m3, h3⟩ : ∃ m3, m3 = wr m2 (2 * Q + t) (t + 1) n (tab (List.ofFn (0 : Fin t → K))) := ⟨_, rfl⟩
  rw [← h3, if_neg (fun h => h rfl)]
  have hz : ∀ a < Q, m3 a = 0 := by
    intro a ha'
    rw [h3, wr_out (by omega), h2, wr_out (by omega), h1]
    unfold wr
    rw [if_pos (by omega)]
  obtain ⟨m4, h4⟩ : ∃ m4, m4 = wr m3 0 gcols t (computeJacobian t n gcols (fun i j => rd m3 (2 * Q + t) n (i + 1) j) g (rd m3 0 t)) := ⟨_, rfl⟩
  rw [← h4]
  have hrow : ∀ j < d, ∀ k < t, j * t + k < Q := by
    intro j hj k hk
    have := Nat.mul_le_mul_right t (Nat.succ_le_of_lt hj)
    rw [Nat.succ_mul] at this; omega
  have hview : view d t (rd m4 0 t) = jac tab n (fun i j => if j < gcols then g i j else 0) d (0 : Fin t → K) := by
    ext j k
    have hjk := hrow j j.2 k k.2
    unfold view jac
    by_cases hj : (j : Nat) < gcols
    · rw [h4, rd_wr hj k.2]
      unfold computeJacobian SmallMatrix.dot
      rw [if_pos rfl, accumulate_apply, if_pos ⟨hj, k.2⟩]
      have : rd m3 0 t (j : Nat) (k : Nat) = 0 := by unfold rd; exact hz _ (by omega)
      rw [this, zero_add, Finset.sum_range]
      refine Finset.sum_congr rfl (fun i _ => ?_)
      simp only []
      rw [h3, rd_wr (by omega) i.2, if_pos hj, mul_comm]
    · have hge : gcols * t ≤ j * t := Nat.mul_le_mul_right t (by omega)
      unfold rd
      rw [h4, wr_out (by omega), hz _ (by omega)]
      symm
      apply Finset.sum_eq_zero
      intro i _
      simp only []
      rw [if_neg hj, mul_zero]
  rw [← hview] at hJ
  obtain ⟨R, r1, r2, r3⟩ := inverse_ok hs (rd m4 0 t) (rd m4 Q d) hJ
  rw [r1]
  simp only []
  rw [if_neg (by omega)]
  refine ⟨_, _, rfl, ?_, ?_⟩
  · intro p hp i
    unfold pullBackAffine
    rw [accumulate_apply, if_pos ⟨hp, i.2⟩, smfill_apply, if_pos ⟨hp, i.2⟩, zero_add, Finset.sum_range, ← hview, ← pinv_unique _ _ hJ r2 r3]
    unfold Matrix.mulVec dotProduct view
    refine Finset.sum_congr rfl (fun j _ => ?_)
    simp only []
    rw [rd_wr i.2 j.2, zero_add]
  · intro a ha'
    rw [wr_out (by omega), h4, wr_out (by omega), h3, wr_out (by omega), h2, wr_out (by omega), h1, wr_out (by omega)]

/-- An affine map. -/
theorem place_affine {tab : List K → Nat → Nat → K} {n t : Nat} (h : Affine tab n t) (hn : 0 < n) (g : Entries K) (d : Nat) (X : Fin t → K) :
    place tab n g d X = (fun j : Fin d => g 0 j) + jac tab n g d (0 : Fin t → K) *ᵥ X := by
  have h0 : List.ofFn (0 : Fin t → K) = List.replicate t 0 := by
    apply List.ext_getElem
    · simp
    · intro i a b; simp
  funext j
  have e1 : ∑ i : Fin n, (if (i : Nat) = 0 then (1 : K) else 0) * g i j = g 0 j := by
    rw [Finset.sum_eq_single (⟨0, hn⟩ : Fin n)]
    · simp
    · intro b _ hb
      rw [if_neg (fun hc => hb (Fin.ext hc)), zero_mul]
    · intro hc; exact absurd (Finset.mem_univ _) hc
  unfold place
  simp only [Pi.add_apply, Matrix.mulVec, dotProduct, jac]
  rw [← e1, h0]
  have e2 : ∀ k : Fin t, (∑ i : Fin n, tab (List.replicate t 0) (k + 1) i * g i j) * X k = ∑ i : Fin n, X k * tab (List.replicate t 0) (k + 1) i * g i j := by
    intro k
    rw [Finset.sum_mul]
    exact Finset.sum_congr rfl (fun i _ => by ring)
  rw [Finset.sum_congr rfl (fun k _ => e2 k), Finset.sum_comm, ← Finset.sum_add_distrib]
  refine Finset.sum_congr rfl (fun i _ => ?_)
  rw [h.value X i i.2, h.origin i i.2, add_mul, Finset.sum_mul]

/-- C83: on cells with an affine map, `pull_back` undoes `push_forward`. -/
theorem C83_pull_push (sqrt : K → K) (eps : K) (tol : Option K) (maxit : Int) (e : CElem K) {d np : Nat} (hs : ShapeOk d e.tdim) (hd : 0 < d) (hd3 : d ≤ 3) (g x : Entries K) (work : Option (Nat × (Nat → K)))
    (ha : e.simplex = true ∧ e.degree = 1) (hsize : ∀ w ∈ work, e.workingSize d ≤ w.1) (hn : 0 < e.dim) (hA : Affine e.tab e.dim e.tdim) (hJ : Function.Injective (jac e.tab e.dim g d (0 : Fin e.tdim → K)).mulVec)
    (Xs : Nat → Fin e.tdim → K) (hx : pushForwardPy e np e.dim d (fun p => List.ofFn (Xs p)) g = .ok x) :
    ∃ X', pullBack sqrt eps tol maxit e np d e.dim d x g work = .ok X' ∧ ∀ p < np, ∀ i : Fin e.tdim, X' p i = Xs p i := by
  obtain ⟨x', x1, x2⟩ := C83_push e np d Xs g
  rw [hx] at x1
  injection x1 with x1
  subst x1
  have hj : jac e.tab e.dim (fun i j => if j < d then g i j else 0) d (0 : Fin e.tdim → K) = jac e.tab e.dim g d (0 : Fin e.tdim → K) := by
    ext j k; unfold jac; exact Finset.sum_congr rfl (fun i _ => by simp only []; rw [if_pos j.2])
  obtain ⟨m', X', h1, h2, -⟩ := C83_affine sqrt (tol.getD (sqrt eps)) maxit e hs hd g x (work.getD (e.workingSize d, fun _ => 0)).1
    (work.getD (e.workingSize d, fun _ => 0)).2 (np := np) ha (by
      cases work with
      | none => exact Nat.le_refl _
      | some w => exact hsize w rfl) hd3 (by rw [hj]; exact hJ)
  refine ⟨X', by unfold pullBack; simp only [h1], ?_⟩
  intro p hp i
  rw [h2 p hp i, hj]
  have : (fun j : Fin d => x p j - if (j : Nat) < d then g 0 j else 0) = jac e.tab e.dim g d (0 : Fin e.tdim → K) *ᵥ Xs p := by
    funext j
    rw [if_pos j.2, x2 p hp j, place_affine hA hn]
    simp
  rw [this, leastSquares_exact _ hJ]

/-- C83: on cells with an affine map and as many dimensions as the space, `push_forward` undoes `pull_back`, for points inside and outside of the cell. -/
theorem C83_push_pull (sqrt : K → K) (tol : K) (maxit : Int) (e : CElem K) {np : Nat} (hs : ShapeOk e.tdim e.tdim) (g x : Entries K) (size : Nat) (m : Nat → K)
    (ha : e.simplex = true ∧ e.degree = 1) (hsize : e.workingSize e.tdim ≤ size) (hn : 0 < e.dim) (hA : Affine e.tab e.dim e.tdim)
    (hJ : Function.Injective (jac e.tab e.dim g e.tdim (0 : Fin e.tdim → K)).mulVec) :
    ∃ m' X' x', pullBackPy sqrt tol maxit e np e.tdim e.dim e.tdim x g size m = .ok (m', X') ∧
      pushForwardPy e np e.dim e.tdim (fun p => List.ofFn (fun i : Fin e.tdim => X' p i)) g = .ok x' ∧ ∀ p < np, ∀ j : Fin e.tdim, x' p j = x p j := by
  have hj : jac e.tab e.dim (fun i j => if j < e.tdim then g i j else 0) e.tdim (0 : Fin e.tdim → K) = jac e.tab e.dim g e.tdim (0 : Fin e.tdim → K) := by
    ext j k; unfold jac; exact Finset.sum_congr rfl (fun i _ => by simp only []; rw [if_pos j.2])
  have ht : 0 < e.tdim ∧ e.tdim ≤ 3 := by unfold ShapeOk at hs; omega
  obtain ⟨m', X', h1, h2, -⟩ := C83_affine sqrt tol maxit e hs ht.1 g x size m (np := np) ha hsize ht.2 (by rw [hj]; exact hJ)
  obtain ⟨x', x1, x2⟩ := C83_push e np e.tdim (fun p i => X' p i) g
  refine ⟨m', X', x', h1, x1, ?_⟩
  intro p hp j
  have hX : (fun i : Fin e.tdim => X' p i) = leastSquares (jac e.tab e.dim g e.tdim (0 : Fin e.tdim → K)) (fun j => x p j - g 0 j) := by
    funext i
    rw [h2 p hp i, hj]
    congr 1
    funext j; rw [if_pos j.2]
  rw [x2 p hp j, place_affine hA hn, hX, leastSquares_square _ hJ]
  simp

/-- C83: Newton's method finds the point in at most two steps on cells with an affine map whose element is not known to be affine, such as parallelograms. -/
theorem C83_parallelogram (sqrt : K → K) (hsq : sqrt 0 = 0) {tol : K} (htol : 0 < tol) {maxit : Int} (hmax : 2 ≤ maxit) (e : CElem K) {d np : Nat} (hs : ShapeOk d e.tdim) (g x X : Entries K)
    (size : Nat) (m : Nat → K) (ha : e.simplex = false ∨ e.degree ≠ 1) (hsize : e.workingSize d ≤ size) (b : Fin d → K) (J : Matrix (Fin d) (Fin e.tdim) K) (hJ : Function.Injective J.mulVec)
    (hplace : ∀ Y : Fin e.tdim → K, place e.tab e.dim g d Y = b + J *ᵥ Y) (hjac : ∀ Y : Fin e.tdim → K, jac e.tab e.dim g d Y = J)
    (Xs : Nat → Fin e.tdim → K) (hx : ∀ p < np, ∀ j : Fin d, x p j = place e.tab e.dim g d (Xs p) j) :
    ∃ m' X', pullBackNonaffine sqrt tol maxit e np d e.dim d X x g size m = .ok (m', X') ∧ ∀ p < np, ∀ i : Fin e.tdim, X' p i = Xs p i := by
  have hstep : ∀ p < np, ∀ k, iter e.tab e.dim g e.tdim (fun j : Fin d => x p j) (k + 1) = Xs p := by
    intro p hp k
    have hxp : (fun j : Fin d => x p j) = b + J *ᵥ Xs p := by
      funext j; rw [hx p hp j, hplace]
    show iter e.tab e.dim g e.tdim (fun j : Fin d => x p j) k + leastSquares (jac e.tab e.dim g d _) (_ - place e.tab e.dim g d _) = _
    rw [hjac, hplace]
    have : (fun j : Fin d => x p j) - (b + J *ᵥ iter e.tab e.dim g e.tdim (fun j : Fin d => x p j) k) =
        J *ᵥ (Xs p - iter e.tab e.dim g e.tdim (fun j : Fin d => x p j) k) := by
      rw [Matrix.mulVec_sub]
      nth_rewrite 1 [hxp]
      rw [add_sub_add_left_eq_sub]
    rw [this, leastSquares_exact _ hJ, add_sub_cancel]
  have h0 : ∀ p < np, stepSquared e.tab e.dim g e.tdim (fun j : Fin d => x p j) 1 = 0 := by
    intro p hp
    unfold stepSquared
    apply Finset.sum_eq_zero
    intro i _
    rw [hstep p hp 1, hstep p hp 0, sub_self, mul_zero]
  have hreg : ∀ (p k : Nat), RegularTo e.tab e.dim g e.tdim (fun j : Fin d => x p j) k := by
    intro p k j _; rw [hjac]; exact hJ
  classical
  obtain ⟨m', X', h1, h2, -, -⟩ := C83_newton sqrt tol maxit e (np := np) hs g x X size m
    (fun p => if sqrt (stepSquared e.tab e.dim g e.tdim (fun j : Fin d => x p j) 0) < tol then 0 else 1) ha hsize (by
      intro p hp
      by_cases hc : sqrt (stepSquared e.tab e.dim g e.tdim (fun j : Fin d => x p j) 0) < tol
      · simp only [if_pos hc]
        exact ⟨by simp; omega, ⟨hc, fun j hj => absurd hj (by omega)⟩, hreg _ _⟩
      · simp only [if_neg hc]
        refine ⟨by simp; omega, ⟨by rw [h0 p hp, hsq]; exact htol, ?_⟩, hreg _ _⟩
        intro j hj
        obtain rfl : j = 0 := by omega
        exact hc)
  refine ⟨m', X', h1, ?_⟩
  intro p hp i
  rw [h2 p hp i, hstep p hp]

/-- C83: a working array that is too small is refused. -/
theorem C83_refused (sqrt : K → K) (tol : K) (maxit : Int) (e : CElem K) (np gdim nx gcols : Nat) (x g : Entries K) {size : Nat} (m : Nat → K) (h : size < e.workingSize gdim) :
    pullBackPy sqrt tol maxit e np gdim nx gcols x g size m = .error .workspace := by
  unfold pullBackPy; rw [if_pos h]

/-- C83: the determinant is that of the Jacobian, or the root of the Gram determinant. -/
theorem C83_determinant (sqrt : K → K) {d t : Nat} (hs : ShapeOk d t) (J : Entries K) (w : Nat → K) (size : Nat) (hsize : 2 * d * t ≤ size) :
    (∀ h : d = t, computeJacobianDeterminant sqrt d t J w size = .ok (h ▸ view d t J : Matrix (Fin t) (Fin t) K).det) ∧
    (d ≠ t → computeJacobianDeterminant sqrt d t J w size = .ok (sqrt ((view d t J)ᵀ * view d t J).det)) := by
  constructor
  · rintro rfl
    unfold computeJacobianDeterminant
    rw [if_pos rfl, (C34_det d J).1 (by unfold ShapeOk at hs; omega)]
  · intro hdt
    unfold computeJacobianDeterminant
    rw [if_neg hdt, if_neg (by omega)]
    simp only []
    have hQ : t * d = d * t := Nat.mul_comm _ _
    obtain ⟨w1, h1⟩ : ∃ w1, w1 = wr w 0 t d (SmallMatrix.fill t d (fun i j => J j i) (rd w 0 d)) := ⟨_, rfl⟩
    rw [← h1]
    obtain ⟨w2, h2⟩ : ∃ w2, w2 = wr w1 (d * t) t t (fun _ _ => (0 : K)) := ⟨_, rfl⟩
    rw [← h2, (C34_det t _).1 (by unfold ShapeOk at hs; omega)]
    simp only []
    have : view t t (rd (wr w2 (d * t) t t (SmallMatrix.dot t d d t (rd w2 0 d) J (rd w2 (d * t) t) false)) (d * t) t) = (view d t J)ᵀ * view d t J := by
      ext i k
      rw [Matrix.mul_apply]
      unfold view
      rw [rd_wr i.2 k.2]
      unfold SmallMatrix.dot
      rw [if_neg (by decide), accumulate_apply, if_pos ⟨i.2, k.2⟩, h2, rd_wr i.2 k.2, zero_add, Finset.sum_range, ← h2]
      refine Finset.sum_congr rfl (fun j _ => ?_)
      rw [h2, rd_wr_out (r := t) i.2 j.2 (by omega), h1, rd_wr i.2 j.2, smfill_apply, if_pos ⟨i.2, j.2⟩]
      rfl
    rw [this]

/-- C83: a negative bound on the number of iterations is not a failure: the result is the origin of the reference cell for every point. -/
theorem C83_refuted_negative_maxit (sqrt : K → K) (tol : K) {maxit : Int} (hm : maxit < 0) (e : CElem K) (d : Nat) (g x : Entries K) (p : Nat) (s : (Nat → K) × Entries K) :
    ∃ m' X', point sqrt tol maxit e d g x p s = .ok (m', X') ∧ ∀ i : Fin e.tdim, X' p i = 0 := by
  have hn : maxit.toNat = 0 := by omega
  unfold point
  simp only [hn]
  unfold iterate
  simp only []
  rw [if_neg (by omega)]
  refine ⟨_, _, rfl, ?_⟩
  intro i
  simp only []
  rw [if_pos ⟨trivial, i.2⟩, rd_wr (by omega) i.2]

end

/-! ### Cases -/

namespace C83ex

/-- Linear functions on the triangle. -/
def p1 : List ℚ → Nat → Nat → ℚ := fun X d i =>
  match d, i with
  | 0, 0 => 1 - X.getD 0 0 - X.getD 1 0
  | 0, 1 => X.getD 0 0
  | 0, 2 => X.getD 1 0
  | 1, 0 => -1
  | 1, 1 => 1
  | 2, 0 => -1
  | 2, 2 => 1
  | _, _ => 0

/-- A triangle. -/
def tri : CElem ℚ := ⟨true, 1, 2, 3, p1⟩

theorem tri_affine : Affine p1 3 2 where
  origin := by
    intro i hi
    have : i = 0 ∨ i = 1 ∨ i = 2 := by have : i < 3 := hi; omega
    rcases this with rfl | rfl | rfl <;> simp [p1]
  value := by
    intro X i hi
    have h : i = 0 ∨ i = 1 ∨ i = 2 := by have : i < 3 := hi; omega
    obtain ⟨a, b, rfl⟩ : ∃ a b : ℚ, X = ![a, b] := ⟨X (0 : Fin 2), X (1 : Fin 2), by funext k; fin_cases k <;> rfl⟩
    rw [Fin.sum_univ_two]
    rcases h with rfl | rfl | rfl <;> simp [p1, List.ofFn_succ]
    ring

/-- Its nodes in space. -/
def nodes : Entries ℚ := fun i j => ([[1, 1, 0], [3, 1, 1], [1, 5, 2]].getD i []).getD j 0

theorem tri_regular : Function.Injective (jac p1 3 nodes 3 (0 : Fin 2 → ℚ)).mulVec := by
  intro v w h
  have hm : ∀ v : Fin 2 → ℚ, (jac p1 3 nodes 3 (0 : Fin 2 → ℚ)).mulVec v = ![2 * v 0, 4 * v 1, v 0 + 2 * v 1] := by
    intro v
    funext j
    fin_cases j <;> simp [Matrix.mulVec, dotProduct, jac, p1, nodes, Fin.sum_univ_succ] <;> norm_num
  rw [hm v, hm w] at h
  have a := congrFun h 0
  have b := congrFun h 1
  simp at a b
  funext k
  fin_cases k
  · exact a
  · exact b

/-- A triangle in space: two points are found again. -/
example (x : Entries ℚ) (m : Nat → ℚ) (hx : pushForwardPy tri 2 3 3 (fun p => List.ofFn (fun i : Fin 2 => ((p : ℚ) + i + 1) / 3)) nodes = .ok x) :
    ∃ X', pullBack id 0 none 15 tri 2 3 3 3 x nodes (some (23, m)) = .ok X' ∧ ∀ p < 2, ∀ i : Fin 2, X' p i = ((p : ℚ) + i + 1) / 3 :=
  C83_pull_push id 0 none 15 tri (Or.inr (Or.inl ⟨rfl, rfl⟩)) (by decide) (by decide) nodes x (some (23, m)) ⟨rfl, rfl⟩ (by intro w hw; cases hw; exact (by decide : tri.workingSize 3 ≤ 23)) (by decide)
    tri_affine tri_regular (fun p (i : Fin 2) => ((p : ℚ) + i + 1) / 3) hx

/-- Bilinear functions on the square. -/
def q1 : List ℚ → Nat → Nat → ℚ := fun X d i =>
  let a := X.getD 0 0
  let b := X.getD 1 0
  match d, i with
  | 0, 0 => (1 - a) * (1 - b)
  | 0, 1 => a * (1 - b)
  | 0, 2 => (1 - a) * b
  | 0, 3 => a * b
  | 1, 0 => -(1 - b)
  | 1, 1 => 1 - b
  | 1, 2 => -b
  | 1, 3 => b
  | 2, 0 => -(1 - a)
  | 2, 1 => -a
  | 2, 2 => 1 - a
  | 2, 3 => a
  | _, _ => 0

/-- A quadrilateral. -/
def quad : CElem ℚ := ⟨false, 1, 2, 4, q1⟩

/-- The nodes of a parallelogram. -/
def par : Entries ℚ := fun i j => ([[1, 1], [3, 2], [1, 5], [3, 6]].getD i []).getD j 0

/-- Its Jacobian. -/
def parJ : Matrix (Fin 2) (Fin 2) ℚ := !![2, 0; 1, 4]

theorem par_place (Y : Fin 2 → ℚ) : place q1 4 par 2 Y = ![1, 1] + parJ *ᵥ Y := by
  obtain ⟨a, b, rfl⟩ : ∃ a b : ℚ, Y = ![a, b] := ⟨Y (0 : Fin 2), Y (1 : Fin 2), by funext k; fin_cases k <;> rfl⟩
  funext j
  fin_cases j <;> simp [place, q1, par, parJ, Fin.sum_univ_succ, List.ofFn_succ] <;> ring

theorem par_jac (Y : Fin 2 → ℚ) : jac q1 4 par 2 Y = parJ := by
  obtain ⟨a, b, rfl⟩ : ∃ a b : ℚ, Y = ![a, b] := ⟨Y (0 : Fin 2), Y (1 : Fin 2), by funext k; fin_cases k <;> rfl⟩
  ext j k
  fin_cases j <;> fin_cases k <;> simp [jac, q1, par, parJ, Fin.sum_univ_succ, List.ofFn_succ] <;> ring

theorem par_inj : Function.Injective parJ.mulVec := by
  intro v w h
  have hm : ∀ v : Fin 2 → ℚ, parJ.mulVec v = ![2 * v 0, v 0 + 4 * v 1] := by
    intro v
    funext j
    fin_cases j <;> simp [Matrix.mulVec, dotProduct, parJ, Fin.sum_univ_succ]
  rw [hm v, hm w] at h
  have a := congrFun h 0
  have b := congrFun h 1
  simp at a b
  funext k
  fin_cases k
  · exact a
  · simp; linarith

/-- Three points of a parallelogram. -/
example (X x : Entries ℚ) (m : Nat → ℚ) (hx : ∀ p < 3, ∀ j : Fin 2, x p j = place quad.tab quad.dim par 2 (fun i : Fin 2 => ((p : ℚ) + i) / 4) j) :
    ∃ m' X', pullBackNonaffine id (1 / 100 : ℚ) 15 quad 3 2 4 2 X x par 34 m = .ok (m', X') ∧ ∀ p < 3, ∀ i : Fin 2, X' p i = ((p : ℚ) + i) / 4 :=
  C83_parallelogram id rfl (by norm_num) (by decide) quad (Or.inl ⟨rfl, Or.inr (Or.inl rfl)⟩) par x X 34 m (Or.inl rfl) (by decide) ![1, 1] parJ par_inj par_place par_jac
    (fun p (i : Fin 2) => ((p : ℚ) + i) / 4) hx

/-- One iteration is not enough for the point in the middle. -/
example (X : Entries ℚ) (m : Nat → ℚ) : pullBackNonaffine id (1 / 100 : ℚ) 1 quad 1 2 4 2 X (fun _ j => [2, 7 / 2].getD j 0) par 34 m = .error .noConvergence := by
  refine C83_not_converged id (1 / 100 : ℚ) 1 quad (Or.inl ⟨rfl, Or.inr (Or.inl rfl)⟩) par _ X 34 m (fun _ => 0) (by decide) (p0 := 0) (by decide) (fun p hp => absurd hp (by omega)) (by decide) ?_
    (fun j _ => by
      have := par_jac (iter q1 4 par 2 (fun j : Fin 2 => [2, 7 / 2].getD (j : Nat) (0 : ℚ)) j)
      exact (congrArg (fun A : Matrix (Fin 2) (Fin 2) ℚ => Function.Injective A.mulVec) this).mpr par_inj)
  intro j hj
  obtain rfl : j = 0 := by omega
  have h1 : iter q1 4 par 2 (fun j : Fin 2 => [2, 7 / 2].getD (j : Nat) (0 : ℚ)) 1 = ![1 / 2, 1 / 2] := by
    show (0 : Fin 2 → ℚ) + leastSquares (jac q1 4 par 2 (0 : Fin 2 → ℚ)) ((fun j : Fin 2 => [2, 7 / 2].getD (j : Nat) (0 : ℚ)) - place q1 4 par 2 (0 : Fin 2 → ℚ)) = _
    rw [par_jac, par_place]
    have : (fun j : Fin 2 => [2, 7 / 2].getD (j : Nat) (0 : ℚ)) - (![1, 1] + parJ *ᵥ 0) = parJ *ᵥ ![1 / 2, 1 / 2] := by
      funext j
      fin_cases j <;> simp [parJ] <;> norm_num
    rw [this, leastSquares_exact _ par_inj, zero_add]
  have h2 : stepSquared q1 4 par 2 (fun j : Fin 2 => [2, 7 / 2].getD (j : Nat) (0 : ℚ)) 0 = 1 / 2 := by
    unfold stepSquared
    rw [h1]
    simp [iter, Fin.sum_univ_two]
    norm_num
  show ¬ stepSquared q1 4 par 2 (fun j : Fin 2 => [2, 7 / 2].getD (j : Nat) (0 : ℚ)) 0 < 1 / 100
  rw [h2]; norm_num

/-- The nodes of a trapezium. -/
def trap : Entries ℚ := fun i j => ([[0, 0], [2, 0], [0, 1], [1, 1]].getD i []).getD j 0

/-- A corner of a trapezium. -/
example (X : Entries ℚ) (m : Nat → ℚ) : ∃ m' X', pullBackNonaffine id (1 / 100 : ℚ) 15 quad 1 2 4 2 X (fun _ _ => 0) trap 40 m = .ok (m', X') ∧ ∀ i : Fin 2, X' 0 i = 0 := by
  have hj : jac q1 4 trap 2 (0 : Fin 2 → ℚ) = !![2, 0; 0, 1] := by
    ext j k
    fin_cases j <;> fin_cases k <;> simp [jac, q1, trap, Fin.sum_univ_succ, List.ofFn_succ]
  have hp : place q1 4 trap 2 (0 : Fin 2 → ℚ) = 0 := by
    funext j
    fin_cases j <;> simp [place, q1, trap, Fin.sum_univ_succ, List.ofFn_succ]
  have h1 : iter q1 4 trap 2 (fun _ : Fin 2 => (0 : ℚ)) 1 = 0 := by
    show (0 : Fin 2 → ℚ) + leastSquares (jac q1 4 trap 2 (0 : Fin 2 → ℚ)) ((fun _ => 0) - place q1 4 trap 2 (0 : Fin 2 → ℚ)) = _
    rw [hp]
    have : ((fun _ : Fin 2 => (0 : ℚ)) - (0 : Fin 2 → ℚ)) = 0 := by funext j; simp
    rw [this]
    unfold leastSquares
    rw [Matrix.mulVec_zero, Matrix.mulVec_zero, add_zero]
  have h2 : stepSquared q1 4 trap 2 (fun _ : Fin 2 => (0 : ℚ)) 0 = 0 := by
    unfold stepSquared
    rw [h1]
    simp [iter]
  have hinj : Function.Injective (jac q1 4 trap 2 (0 : Fin 2 → ℚ)).mulVec := by
    rw [hj]
    intro v w h
    have hm : ∀ v : Fin 2 → ℚ, (!![2, 0; 0, 1] : Matrix (Fin 2) (Fin 2) ℚ).mulVec v = ![2 * v 0, v 1] := by
      intro v
      funext j
      fin_cases j <;> simp [Matrix.mulVec, dotProduct, Fin.sum_univ_succ]
    rw [hm v, hm w] at h
    have a := congrFun h 0
    have b := congrFun h 1
    simp at a b
    funext k
    fin_cases k
    · exact a
    · exact b
  obtain ⟨m', X', r1, r2, -, -⟩ := C83_newton id (1 / 100 : ℚ) 15 quad (np := 1) (d := 2) (Or.inl ⟨rfl, Or.inr (Or.inl rfl)⟩) trap (fun _ _ => 0) X 40 m (fun _ => 0) (Or.inl rfl) (by decide) (by
    intro p _
    refine ⟨by decide, ⟨?_, fun j hj => absurd hj (by omega)⟩, ?_⟩
    · show stepSquared q1 4 trap 2 (fun _ : Fin 2 => (0 : ℚ)) 0 < 1 / 100
      rw [h2]; norm_num
    · intro j hj'
      obtain rfl : j = 0 := by omega
      exact hinj)
  refine ⟨m', X', r1, fun i => ?_⟩
  have := r2 0 (by omega) i
  rw [this]
  exact congrFun h1 i

example : quad.workingSize 2 = 34 := by decide
example : (layout 2 2 4).basis = 22 := by decide

end C83ex

end Verif.Props
