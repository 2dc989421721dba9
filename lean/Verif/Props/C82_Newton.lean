import Verif.Prelude
import Verif.Spec.Newton
import Mathlib.Algebra.Module.Basic
import Mathlib.Algebra.Order.Field.Rat
import Mathlib.Algebra.BigOperators.Group.Finset.Basic
/-! # C82: the Newton solver -/
namespace Verif.Props
open Verif.Newton Verif.Spec.Newton

variable {V M R : Type} [Field R] [LinearOrder R]

/-- The state after `k` steps. -/
structure AtStep (S : Solver V M R) (F : V → V) (J : V → M) (x dx : V) (k : Nat) (s : State V R) : Prop where
  hx : s.x = (iter S F J (S.system.getD id) x dx k).1
  hdx : s.dx = (iter S F J (S.system.getD id) x dx k).2
  b : s.b = F s.x
  it : s.iteration = k
  krylov : s.krylov = ∑ i ∈ Finset.range k, work S F J (S.system.getD id) x dx i
  r0 : s.residual0 = if k = 0 then 0 else S.norm (iter S F J (S.system.getD id) x dx 1).2

theorem callSystem_eq (S : Solver V M R) (x : V) : callSystem S x = S.system.getD id x := by
  unfold callSystem; cases S.system <;> rfl

theorem newton_step (S : Solver V M R) (F : V → V) (J : V → M) (x dx : V) (k : Nat) (s : State V R) (h : AtStep S F J x dx k s) :
    AtStep S F J x dx (k + 1) (step S F J s).1 ∧ ((step S F J s).2 = true ↔ Stop S F J (S.system.getD id) x dx (k + 1)) := by
  obtain ⟨hx, hdx, hb, hit, hkr, hr0⟩ := h
  have hP : precond S (J s.x) s.x = S.fnP.getD J s.x := by unfold precond; cases S.fnP <;> rfl
  have hx' : callSystem S (S.update (S.lin (J s.x) (S.fnP.getD J s.x) s.dx s.b).1 s.x) = (iter S F J (S.system.getD id) x dx (k + 1)).1 := by
    rw [callSystem_eq, hb, hx, hdx]; rfl
  have hd' : (S.lin (J s.x) (S.fnP.getD J s.x) s.dx s.b).1 = (iter S F J (S.system.getD id) x dx (k + 1)).2 := by
    rw [hb, hx, hdx]; rfl
  have hw' : (S.lin (J s.x) (S.fnP.getD J s.x) s.dx s.b).2 = work S F J (S.system.getD id) x dx k := by
    rw [hb, hx, hdx]; rfl
  have hr' : (if s.iteration + 1 = 1 then S.norm (S.lin (J s.x) (S.fnP.getD J s.x) s.dx s.b).1 else s.residual0) = S.norm (iter S F J (S.system.getD id) x dx 1).2 := by
    rw [hd', hit]
    by_cases hk : k = 0
    · subst hk; rfl
    · rw [if_neg (by omega), hr0, if_neg hk]
  have hkr' : s.krylov + (S.lin (J s.x) (S.fnP.getD J s.x) s.dx s.b).2 = ∑ i ∈ Finset.range (k + 1), work S F J (S.system.getD id) x dx i := by
    rw [Finset.sum_range_succ, hkr, hw']
  unfold step
  simp only [hP]
  by_cases hc : S.criterion = "residual"
  · rw [if_pos hc]
    refine ⟨⟨hx', hd', rfl, by simp only; rw [hit], hkr', by simp only; rw [hr', if_neg (by omega)]⟩, ?_⟩
    unfold Stop
    rw [if_pos hc, if_neg (show ¬ k + 1 = 0 by omega)]
    simp only
    rw [hr', hx', hit]
  · rw [if_neg hc]
    by_cases h1 : s.iteration + 1 = 1
    · rw [if_pos h1]
      refine ⟨⟨hx', hd', rfl, by simp only; rw [hit], hkr', by simp only; rw [hr', if_neg (by omega)]⟩, ?_⟩
      unfold Stop
      rw [if_neg hc]
      simp
      omega
    · rw [if_neg h1]
      refine ⟨⟨hx', hd', rfl, by simp only; rw [hit], hkr', by simp only; rw [hr', if_neg (by omega)]⟩, ?_⟩
      unfold Stop
      rw [if_neg hc]
      simp only
      rw [hr', hd', hit]
      exact ⟨fun h => ⟨by omega, h⟩, fun h => h.2⟩

theorem newton_loop (S : Solver V M R) (F : V → V) (J : V → M) (x dx : V) (m k : Nat) (s : State V R × Bool) (h : AtStep S F J x dx k s.1)
    (hs : s.2 = true ↔ Stop S F J (S.system.getD id) x dx k) (hbefore : ∀ i < k, ¬ Stop S F J (S.system.getD id) x dx i) :
    ∃ n, k ≤ n ∧ n ≤ k + m ∧ AtStep S F J x dx n (loop S F J m s).1 ∧ ((loop S F J m s).2 = true ↔ Stop S F J (S.system.getD id) x dx n) ∧
      (∀ i < n, ¬ Stop S F J (S.system.getD id) x dx i) ∧ ((loop S F J m s).2 = false → n = k + m) := by
  induction m generalizing k s with
  | zero => exact ⟨k, le_refl _, le_refl _, h, hs, hbefore, fun _ => rfl⟩
  | succ m ih =>
    rw [loop]
    by_cases hc : s.2 = true
    · rw [if_pos hc]
      exact ⟨k, le_refl _, by omega, h, hs, hbefore, fun hf => by rw [hc] at hf; cases hf⟩
    · rw [if_neg hc]
      obtain ⟨h1, h2⟩ := newton_step S F J x dx k s.1 h
      obtain ⟨n, a, b, c, d, e, f⟩ := ih (k + 1) (step S F J s.1) h1 h2 (by
        intro i hi
        by_cases hik : i = k
        · subst hik; exact fun hst => hc (hs.mpr hst)
        · exact hbefore i (by omega))
      exact ⟨n, by omega, by omega, c, d, e, fun hf => by rw [f hf]; omega⟩

/-- The solver runs Newton's method until the test holds for the first time, at most `max_it` times; it leaves the solution, residual and counters of that step behind, and returns the number of
steps and whether the test holds, or throws if it does not and this is asked for. -/
theorem C82_solve (S : Solver V M R) (F : V → V) (J : V → M) (hF : S.fnF = some F) (hJ : S.fnJ = some J) (hc : S.criterion = "residual" ∨ S.criterion = "incremental") (x b dx : V) :
    ∃ n, n ≤ S.maxIt.toNat ∧ (solve S x b dx).1.x = (iter S F J (S.system.getD id) x dx n).1 ∧ (solve S x b dx).1.b = F (iter S F J (S.system.getD id) x dx n).1 ∧
      (solve S x b dx).1.iteration = n ∧ (solve S x b dx).1.krylov = ∑ i ∈ Finset.range n, work S F J (S.system.getD id) x dx i ∧
      (∀ i < n, ¬ Stop S F J (S.system.getD id) x dx i) ∧
      ((Stop S F J (S.system.getD id) x dx n ∧ (solve S x b dx).2 = .ok (n, true)) ∨
       (¬ Stop S F J (S.system.getD id) x dx n ∧ n = S.maxIt.toNat ∧
         (solve S x b dx).2 = if S.errorOnNonconvergence then .error (if 0 ≤ S.maxIt then .maxIt else .other) else .ok (n, false))) := by
  have hcrit : ¬ (S.criterion ≠ "residual" ∧ S.criterion ≠ "incremental") := by
    rintro ⟨h1, h2⟩; rcases hc with h | h
    · exact h1 h
    · exact h2 h
  obtain ⟨c, hcdef⟩ : ∃ c, c = if S.criterion = "residual" then S.conv 0 0 (F (callSystem S x)) else (-1, false) := ⟨_, rfl⟩
  obtain ⟨r, hr⟩ : ∃ r, r = loop S F J S.maxIt.toNat (⟨callSystem S x, F (callSystem S x), dx, 0, 0, c.1, 0⟩, c.2) := ⟨_, rfl⟩
  have hsolve : solve S x b dx = if r.2 then (r.1, .ok (r.1.iteration, true))
      else if S.errorOnNonconvergence then (r.1, .error (if (r.1.iteration : Int) = S.maxIt then .maxIt else .other)) else (r.1, .ok (r.1.iteration, false)) := by
    unfold solve
    rw [hF, hJ]
    simp only
    rw [if_neg hcrit, ← hcdef, ← hr]
  have hst : (solve S x b dx).1 = r.1 := by
    rw [hsolve]; split
    · rfl
    · split <;> rfl
  have hloop := newton_loop S F J x dx S.maxIt.toNat 0 (⟨callSystem S x, F (callSystem S x), dx, 0, 0, c.1, 0⟩, c.2)
    ⟨callSystem_eq S x, rfl, rfl, rfl, by simp, rfl⟩ (by
      unfold Stop
      by_cases hres : S.criterion = "residual"
      · rw [if_pos hres] at hcdef ⊢
        rw [hcdef, if_pos rfl, callSystem_eq]; rfl
      · rw [if_neg hres] at hcdef ⊢
        rw [hcdef]; simp) (by intro i hi; omega)
  rw [← hr] at hloop
  obtain ⟨n, _, h2, ⟨ax, adx, ab, ait, akr, ar0⟩, h4, h5, h6⟩ := hloop
  refine ⟨n, by omega, by rw [hst, ax], by rw [hst, ab, ax], by rw [hst, ait], by rw [hst, akr], h5, ?_⟩
  cases hr2 : r.2 with
  | true =>
    left
    exact ⟨h4.mp hr2, by rw [hsolve, if_pos hr2, ait]⟩
  | false =>
    right
    have hn := h6 hr2
    rw [Nat.zero_add] at hn
    refine ⟨fun h => (by rw [h4.mpr h] at hr2; cases hr2), hn, ?_⟩
    rw [hsolve, if_neg (by rw [hr2]; decide)]
    by_cases he : S.errorOnNonconvergence = true
    · rw [if_pos he, if_pos he]
      simp only
      rw [ait]
      by_cases h0 : 0 ≤ S.maxIt
      · rw [if_pos h0, if_pos (by rw [hn]; omega)]
      · rw [if_neg h0, if_neg (by omega)]
    · rw [if_neg he, if_neg he, ait]

/-- Without functions for residual and Jacobian, or with another criterion, there is an exception. -/
theorem C82_refused (S : Solver V M R) (x b dx : V) :
    (S.fnF = none → (solve S x b dx).2 = .error .noF ∧ (solve S x b dx).1.x = x) ∧
    (S.fnF ≠ none → S.fnJ = none → (solve S x b dx).2 = .error .noJ ∧ (solve S x b dx).1.x = x) ∧
    (S.fnF ≠ none → S.fnJ ≠ none → S.criterion ≠ "residual" → S.criterion ≠ "incremental" → (solve S x b dx).2 = .error .criterion) := by
  refine ⟨?_, ?_, ?_⟩
  · intro h; unfold solve; rw [h]; exact ⟨rfl, rfl⟩
  · intro h h'
    obtain ⟨F, hF⟩ := Option.ne_none_iff_exists'.mp h
    unfold solve; rw [hF, h']; exact ⟨rfl, rfl⟩
  · intro h h' h1 h2
    obtain ⟨F, hF⟩ := Option.ne_none_iff_exists'.mp h
    obtain ⟨J, hJ⟩ := Option.ne_none_iff_exists'.mp h'
    unfold solve; rw [hF, hJ]; simp only; rw [if_pos ⟨h1, h2⟩]

/-- Convergence by the residual means what is documented for the absolute tolerance; the relative tolerance is relative to the first increment, not to the first residual. -/
theorem C82_residual (S : Solver V M R) (F : V → V) (J : V → M) (hF : S.fnF = some F) (hJ : S.fnJ = some J) (hc : S.criterion = "residual") (rtol atol : R)
    (hconv : S.conv = converged S.norm rtol atol) (x b dx : V) (n : Nat) (h : (solve S x b dx).2 = .ok (n, true)) :
    S.norm (F (solve S x b dx).1.x) < atol ∨ (0 < n ∧ S.norm (F (solve S x b dx).1.x) / S.norm (iter S F J (S.system.getD id) x dx 1).2 < rtol) := by
  obtain ⟨m, _, hx, _, _, _, _, h1 | h1⟩ := C82_solve S F J hF hJ (Or.inl hc) x b dx
  · obtain ⟨hst, hok⟩ := h1
    rw [hok] at h
    obtain rfl : m = n := by simpa using h
    unfold Stop at hst
    rw [if_pos hc, hconv] at hst
    rw [hx]
    unfold converged at hst
    simp only [decide_eq_true_eq] at hst
    rcases hst with ⟨h1, h2⟩ | h2
    · by_cases hm : m = 0
      · rw [if_pos hm] at h1; exact absurd rfl h1
      · rw [if_neg hm] at h2; exact Or.inr ⟨by omega, h2⟩
    · exact Or.inl h2
  · obtain ⟨_, _, he⟩ := h1
    rw [he] at h
    split at h
    · cases h
    · simp at h

/-- Convergence by the increment: at least two steps, and the last increment is small, or small relative to the first. -/
theorem C82_incremental (S : Solver V M R) (F : V → V) (J : V → M) (hF : S.fnF = some F) (hJ : S.fnJ = some J) (hc : S.criterion = "incremental") (rtol atol : R)
    (hconv : S.conv = converged S.norm rtol atol) (x b dx : V) (n : Nat) (h : (solve S x b dx).2 = .ok (n, true)) :
    2 ≤ n ∧ (S.norm (iter S F J (S.system.getD id) x dx n).2 < atol ∨
      S.norm (iter S F J (S.system.getD id) x dx n).2 / S.norm (iter S F J (S.system.getD id) x dx 1).2 < rtol) := by
  obtain ⟨m, _, hx, _, _, _, _, h1 | h1⟩ := C82_solve S F J hF hJ (Or.inr hc) x b dx
  · obtain ⟨hst, hok⟩ := h1
    rw [hok] at h
    obtain rfl : m = n := by simpa using h
    unfold Stop at hst
    rw [if_neg (by rw [hc]; decide), hconv] at hst
    refine ⟨hst.1, ?_⟩
    have := hst.2
    unfold converged at this
    simp only [decide_eq_true_eq] at this
    rcases this with ⟨_, h⟩ | h
    · exact Or.inr h
    · exact Or.inl h
  · obtain ⟨_, _, he⟩ := h1
    rw [he] at h
    split at h
    · cases h
    · simp at h

/-- For a linear problem with an exact linear solver the first step gives the solution, and by the residual criterion the solver stops there. -/
theorem C82_linear [AddCommGroup V] [Module R V] (S : Solver V M R) (F : V → V) (J : V → M) (A : V → V) (hF : S.fnF = some F) (hJ : S.fnJ = some J)
    (hc : S.criterion = "residual") (hsys : ∀ y, F (S.system.getD id y) = F y) (hup : S.update = updateSolution (R := R) 1) (rtol atol : R) (hpos : 0 < atol)
    (hconv : S.conv = converged S.norm rtol atol) (hnorm : S.norm 0 = 0) (hlin : ∀ y d, F (y - d) = F y - A d)
    (hsol : ∀ y d, A (S.lin (J y) (S.fnP.getD J y) d (F y)).1 = F y) (hmax : 1 ≤ S.maxIt) (x b dx : V) :
    ∃ n, n ≤ 1 ∧ (solve S x b dx).2 = .ok (n, true) ∧ (n = 1 → F (solve S x b dx).1.x = 0) ∧ S.norm (F (solve S x b dx).1.x) < atol := by
  have h1 : F (iter S F J (S.system.getD id) x dx 1).1 = 0 := by
    simp only [iter, hup]
    rw [hsys]
    unfold updateSolution
    rw [neg_smul, one_smul, ← sub_eq_add_neg, hlin, hsol, sub_self]
  have hstop1 : Stop S F J (S.system.getD id) x dx 1 := by
    unfold Stop
    rw [if_pos hc, hconv, h1]
    unfold converged
    simp only [decide_eq_true_eq]
    right; rw [hnorm]; exact hpos
  obtain ⟨n, hn, hx, _, _, _, hbefore, h2⟩ := C82_solve S F J hF hJ (Or.inl hc) x b dx
  have hn1 : n ≤ 1 := by
    by_contra hlt
    exact hbefore 1 (by omega) hstop1
  have hok : (solve S x b dx).2 = .ok (n, true) ∧ Stop S F J (S.system.getD id) x dx n := by
    rcases h2 with ⟨hs, hok⟩ | ⟨hns, hnm, _⟩
    · exact ⟨hok, hs⟩
    · exfalso
      have : n = 1 := by omega
      subst this
      exact hns hstop1
  refine ⟨n, hn1, hok.1, ?_, ?_⟩
  · intro e; subst e; rw [hx]; exact h1
  · rw [hx]
    by_cases h0 : n = 1
    · subst h0; rw [h1, hnorm]; exact hpos
    · have h0 : n = 0 := by omega
      subst h0
      have := hok.2
      unfold Stop at this
      rw [if_pos hc, hconv, if_pos rfl] at this
      unfold converged at this
      simp only [decide_eq_true_eq, ne_eq, not_true_eq_false, false_and, false_or] at this
      exact this

/-- The Python class returns the same and scatters the solution. -/
theorem C82_python (S : Solver V M R) (scatter : V → V) (x b dx : V) :
    (solvePy S scatter x b dx).2 = (solve S x b dx).2 ∧
    ((∃ r, (solve S x b dx).2 = .ok r) → (solvePy S scatter x b dx).1.x = scatter (solve S x b dx).1.x) ∧
    ((∃ e, (solve S x b dx).2 = .error e) → (solvePy S scatter x b dx).1.x = (solve S x b dx).1.x) := by
  unfold solvePy
  cases h : (solve S x b dx).2 with
  | ok r => simp [h]
  | error e => simp [h]

/-- A scalar equation `c y² = 0` with exact derivative and exact linear solver, starting at 1, relative tolerance 1/100, no absolute tolerance. -/
def square (c : ℚ) (maxIt : Int) : Solver ℚ ℚ ℚ where
  fnF := some fun y => c * y ^ 2
  fnJ := some fun y => 2 * c * y
  fnP := none
  system := none
  conv := converged (fun v => |v|) (1 / 100) 0
  update := updateSolution (R := ℚ) 1
  lin := fun A _ _ b => (b / A, 1)
  norm := fun v => |v|
  maxIt := maxIt
  criterion := "residual"
  errorOnNonconvergence := true

/-- The relative tolerance is not relative to the initial residual: with a factor 1/1000 the solver reports convergence after one step that made the residual smaller by a factor of 4 only.
The same equation without the factor takes four steps. -/
theorem C82_refuted_relative :
    (solve (square (1 / 1000) 50) 1 0 0).2 = .ok (1, true) ∧ (solve (square (1 / 1000) 50) 1 0 0).1.b = (1 / 4) * (1 / 1000 * 1 ^ 2) ∧
    ¬ ((solve (square (1 / 1000) 50) 1 0 0).1.b / (1 / 1000 * 1 ^ 2) < 1 / 100) ∧ (solve (square 1 50) 1 0 0).2 = .ok (4, true) := by
  refine ⟨?_, ?_, ?_, ?_⟩ <;> decide +kernel

/-- A solver that starts at the exact solution fails if there is no absolute tolerance: the relative residual is 0/0. -/
theorem C82_refuted_exact_start (maxIt : Int) (hm : 0 ≤ maxIt) (c : ℚ) :
    (solve (square c maxIt) 0 0 0).1.b = 0 ∧ (solve (square c maxIt) 0 0 0).2 = .error .maxIt := by
  have hx : ∀ k, iter (square c maxIt) (fun y => c * y ^ 2) (fun y => 2 * c * y) ((square c maxIt).system.getD id) 0 0 k = (0, 0) := by
    intro k
    induction k with
    | zero => rfl
    | succ k ih => rw [iter, ih]; simp [square, updateSolution]
  have hstop : ∀ k, ¬ Stop (square c maxIt) (fun y => c * y ^ 2) (fun y => 2 * c * y) ((square c maxIt).system.getD id) 0 0 k := by
    intro k h
    unfold Stop at h
    rw [if_pos (show (square c maxIt).criterion = "residual" from rfl), hx, hx] at h
    simp [square, converged] at h
  obtain ⟨n, _, _, hb, _, _, _, h | h⟩ := C82_solve (square c maxIt) _ _ rfl rfl (Or.inl rfl) 0 0 0
  · exact absurd h.1 (hstop n)
  · refine ⟨by rw [hb, hx]; simp, ?_⟩
    rw [h.2.2, if_pos (show (square c maxIt).errorOnNonconvergence = true from rfl), if_pos (show 0 ≤ (square c maxIt).maxIt from hm)]

/-- The hypotheses of `C82_linear` hold for `2 y - 6 = 0`. -/
example : ∃ S : Solver ℚ ℚ ℚ, (solve S 1 0 0).2 = .ok (1, true) ∧ (solve S 1 0 0).1.x = 3 :=
  ⟨⟨some fun y => 2 * y - 6, some fun _ => 2, none, none, converged (fun v => |v|) 0 (1 / 10), updateSolution (R := ℚ) 1, fun A _ _ b => (b / A, 1), fun v => |v|, 5, "residual", true⟩,
    by decide +kernel, by decide +kernel⟩

example := C82_linear (R := ℚ) ⟨some fun y : ℚ => 2 * y - 6, some fun _ => (2 : ℚ), none, none, converged (fun v => |v|) 0 (1 / 10), updateSolution (R := ℚ) 1,
  fun A _ _ b => (b / A, 1), fun v => |v|, 5, "residual", true⟩ _ _ (fun d => 2 * d) rfl rfl rfl (fun _ => rfl) rfl 0 (1 / 10) (by norm_num) rfl (by simp)
  (fun y d => by ring) (fun y d => by simp only; ring) (by decide)

end Verif.Props
