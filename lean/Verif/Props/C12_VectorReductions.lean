import Verif.Lemmas.VectorOps
import Verif.Spec.GlobalVector
/-!
# C12: inner products and norms count each global entry once
-/
namespace Verif.Props
open Verif.World Verif.VectorOps Finset

variable {K : Type} [RCLike K]

/-- Number of global entries. -/
def globalLen (w : World) (bs : Nat) : Nat := bs * ∑ r ∈ range w.P, w.size r

theorem excl_sum (c : Nat → Nat) (P : Nat) : Offsets.excl c P = ∑ r ∈ range P, c r := by
  induction P with
  | zero => simp
  | succ P ih => rw [Offsets.excl_succ, ih, Finset.sum_range_succ]

theorem sum_represents {M : Type} [AddCommMonoid M] (w : World) (bs : Nat) (f : Nat → Nat → M) (F : Nat → M)
    (h : ∀ r, r < w.P → ∀ n, n < bs * w.size r → F (bs * w.r0 r + n) = f r n) :
    ∑ r ∈ range w.P, ∑ n ∈ range (bs * w.size r), f r n = ∑ g ∈ range (globalLen w bs), F g := by
  rw [sum_global (fun r => bs * w.size r) w.P f F]
  · rw [excl_mul, excl_sum]; rfl
  · intro r hr n hn
    rw [excl_mul]; exact h r hr n hn

/-- `inner_product` is the sum of `conj(a_g) b_g` over all global entries; ghost values do
not occur in it. -/
theorem C12_inner_product (w : World) (bs : Nat) (a b : Vec K) (A B : Nat → K)
    (ha : Represents w bs a A) (hb : Represents w bs b B) :
    inner w bs a b = ∑ g ∈ range (globalLen w bs), (starRingEnd K) (A g) * B g := by
  rw [inner_eq]
  apply sum_represents w bs _ (fun g => (starRingEnd K) (A g) * B g)
  intro r hr n hn
  rw [ha r hr n hn, hb r hr n hn]

/-- Vectors of different local length are rejected on the rank where they differ. -/
theorem C12_inner_size_check (w w' : World) (bs bs' : Nat) (a b : Vec K) (r : Nat) :
    (innerChecked w w' bs bs' a b r = none ↔ bs * w.size r ≠ bs' * w'.size r) := by
  unfold innerChecked; split <;> simp_all

/-- The squared 2-norm is the sum of squared moduli of all global entries. -/
theorem C12_squared_norm (w : World) (bs : Nat) (x : Vec K) (X : Nat → K) (hx : Represents w bs x X) :
    squaredNorm w bs x = ∑ g ∈ range (globalLen w bs), ‖X g‖ ^ 2 := by
  unfold squaredNorm
  rw [C12_inner_product w bs x x X X hx hx, map_sum]
  apply Finset.sum_congr rfl
  intro g _
  rw [RCLike.conj_mul]
  norm_cast

/-- The 2-norm is the square root of that sum. -/
theorem C12_l2 (w : World) (bs : Nat) (x : Vec K) (X : Nat → K) (hx : Represents w bs x X) :
    normL2 w bs x = Real.sqrt (∑ g ∈ range (globalLen w bs), ‖X g‖ ^ 2) := by
  unfold normL2; rw [C12_squared_norm w bs x X hx]

/-- The 1-norm is the sum of moduli of all global entries. -/
theorem C12_l1 (w : World) (bs : Nat) (x : Vec K) (X : Nat → K) (hx : Represents w bs x X) :
    normL1 w bs x = ∑ g ∈ range (globalLen w bs), ‖X g‖ := by
  rw [normL1_eq]
  apply sum_represents w bs _ (fun g => ‖X g‖)
  intro r hr n hn
  rw [hx r hr n hn]

/-- Maximum norm, *when every rank owns at least one entry*: the result is the modulus of
some owned entry and no owned entry on any rank exceeds it.  Missing: ranks that own
nothing, see `C12_refuted_linf_reads_ghost`. -/
theorem C12_linf_partial (w : World) (bs : Nat) (x : Vec K) (hP : 0 < w.P)
    (hne : ∀ r, r < w.P → 0 < bs * w.size r) :
    ∃ m, normLinf w bs x = some m ∧
      (∀ r, r < w.P → ∀ n, n < bs * w.size r → ‖x r n‖ ≤ m) ∧
      (∃ r, r < w.P ∧ ∃ n, n < bs * w.size r ∧ ‖x r n‖ = m) := by
  have hloc : ∀ r, r < w.P → localLinf w bs x r = some ‖x r (maxElement (x r) (bs * w.size r))‖ := by
    intro r hr
    unfold localLinf
    obtain ⟨h1, _⟩ := maxElement_spec (x r) _ (hne r hr)
    simp only
    rw [if_pos]
    exact lt_of_lt_of_le h1 (by rw [Nat.mul_add]; omega)
  have key : ∀ k, 0 < k → k ≤ w.P → ∃ m, (List.range k).foldl (fun acc r =>
      match acc, localLinf w bs x r with
      | some m, some v => some (max m v)
      | _, _ => none) (some 0) = some m ∧
      (∀ r, r < k → ∀ n, n < bs * w.size r → ‖x r n‖ ≤ m) ∧
      (∃ r, r < k ∧ ∃ n, n < bs * w.size r ∧ ‖x r n‖ = m) := by
    intro k
    induction k with
    | zero => intro h; omega
    | succ k ih =>
      intro _ hk
      rw [List.range_succ, List.foldl_append]
      obtain ⟨hm1, hm2⟩ := maxElement_spec (x k) _ (hne k (by omega))
      rcases Nat.eq_zero_or_pos k with h0 | h0
      · subst h0
        refine ⟨‖x 0 (maxElement (x 0) (bs * w.size 0))‖, ?_, ?_, ⟨0, by omega, _, hm1, rfl⟩⟩
        · simp [hloc 0 (by omega)]
        · intro r hr n hn
          have : r = 0 := by omega
          subst this; exact hm2 n hn
      · obtain ⟨m, e, h1, r, hr, n, hn, h2⟩ := ih h0 (by omega)
        rw [e]
        simp only [List.foldl_cons, List.foldl_nil, hloc k (by omega)]
        refine ⟨_, rfl, ?_, ?_⟩
        · intro r' hr' n' hn'
          rcases Nat.lt_or_ge r' k with h3 | h3
          · exact le_trans (h1 r' h3 n' hn') (le_max_left _ _)
          · have : r' = k := by omega
            subst this
            exact le_trans (hm2 n' hn') (le_max_right _ _)
        · rcases le_total m ‖x k (maxElement (x k) (bs * w.size k))‖ with h3 | h3
          · exact ⟨k, by omega, _, hm1, (max_eq_right h3).symm⟩
          · exact ⟨r, by omega, n, hn, by rw [h2, max_eq_left h3]⟩
  exact key w.P hP (le_refl _)

/-- Two ranks; rank 0 owns one entry, rank 1 owns none and ghosts that entry. -/
def exLinf : World where
  P := 2
  size r := if r = 0 then 1 else 0
  ghosts r := if r = 1 then [0] else []
  owners r := if r = 1 then [0] else []

/-- The maximum norm is wrong when a rank owns nothing: on rank 1 `max_element` of the empty
range returns the end of the owned part, which is the first ghost.  Its value enters the
result: the norm of a vector whose only global entry is 1 comes out as 5. -/
theorem C12_refuted_linf_reads_ghost :
    ∃ (x : Vec ℝ) (X : Nat → ℝ), Represents exLinf 1 x X ∧ globalLen exLinf 1 = 1 ∧ X 0 = 1 ∧
      normLinf exLinf 1 x = some 5 := by
  refine ⟨fun r _ => if r = 0 then 1 else 5, fun _ => 1, ?_, by decide, rfl, ?_⟩
  · intro r hr n hn
    have : r = 0 ∨ r = 1 := by simp [exLinf] at hr; omega
    rcases this with h | h <;> subst h <;> simp [exLinf] at hn ⊢
  · simp [normLinf, localLinf, maxElement, exLinf, List.range_succ]

/-- If the rank has no ghosts either, the code reads past the end of its array. -/
theorem C12_refuted_linf_out_of_bounds :
    ∃ w : World, w.P = 2 ∧ globalLen w 1 = 1 ∧ ∀ x : Vec ℝ, normLinf w 1 x = none := by
  refine ⟨⟨2, fun r => if r = 0 then 1 else 0, fun _ => [], fun _ => []⟩, rfl, by decide, ?_⟩
  intro x
  simp [normLinf, localLinf, maxElement, List.range_succ]

-- a two-rank vector with block size 2 and stale ghosts meets the hypotheses
example : Represents (R := ℝ) ⟨2, fun r => r + 1, fun _ => [], fun _ => []⟩ 2
    (fun r n => if r = 0 then (if n < 2 then n else 99) else (if n < 4 then 2 + n else 77)) (fun g => g) := by
  intro r hr n hn
  have : r = 0 ∨ r = 1 := by simp at hr; omega
  rcases this with h | h <;> subst h <;> simp [World.r0, Offsets.excl] at hn ⊢
  · omega
  · omega

end Verif.Props
