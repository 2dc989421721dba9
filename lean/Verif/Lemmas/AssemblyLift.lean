import Verif.Lemmas.AssemblyVector
/-! Lifting and boundary values on one rank. -/
namespace Verif.Assembly
open Verif.Spec.Assemble Verif.Spec Verif.World Finset

variable {R : Type} [CommRing R]

/-- What one insertion subtracts from `b`. -/
theorem liftFn_at (bs0 bs1 : Nat) (alpha : R) (values : Nat → R) (markers : List Bool) (x0 b : Nat → R) (c : Call R) (N : Nat)
    (hN : ∀ i ∈ c.rows, ∀ j ∈ c.cols, j < N) (i m : Nat) (hm : m < bs0) :
    liftFn bs0 bs1 alpha values markers x0 b c.rows c.cols c.A (bs0 * i + m) = b (bs0 * i + m) -
      ∑ j ∈ range N, ∑ l ∈ range bs1, if markers.getD (bs1 * j + l) false = true then
        (c.elem bs1).entry bs0 bs1 i m j l * (alpha * (values (bs1 * j + l) - x0 (bs1 * j + l))) else 0 := by
  -- contribution of one column component
  let G : Nat → Nat → Nat → R := fun j y k => if markers.getD (j * bs1 + k) false = true then
    -(∑ a ∈ range c.rows.length, if c.rows[a]? = some i then
        c.A ((a * bs0 + m) * (c.cols.length * bs1) + (y * bs1 + k)) * alpha * (values (j * bs1 + k) - x0 (j * bs1 + k)) else 0) else 0
  have h1 : liftFn bs0 bs1 alpha values markers x0 b c.rows c.cols c.A (bs0 * i + m) = b (bs0 * i + m) +
      (c.cols.zipIdx.map fun x => ∑ k ∈ range bs1, G x.1 x.2 k).sum := by
    -- general position
    let D : Nat × Nat → Nat → Nat → R := fun x k n => if markers.getD (x.1 * bs1 + k) false = true then
      (c.rows.zipIdx.map fun y => ∑ m ∈ range bs0, if n = y.1 * bs0 + m then
        -(c.A ((y.2 * bs0 + m) * (c.cols.length * bs1) + (x.2 * bs1 + k)) * alpha * (values (x.1 * bs1 + k) - x0 (x.1 * bs1 + k))) else 0).sum else 0
    have h2 : liftFn bs0 bs1 alpha values markers x0 b c.rows c.cols c.A (bs0 * i + m) = b (bs0 * i + m) +
      (c.cols.zipIdx.map fun x => ∑ k ∈ range bs1, D x k (bs0 * i + m)).sum := by
      unfold liftFn
      rw [Props.foldl_add_fn _ (fun x n => ∑ k ∈ range bs1, D x k n)]
      intro y x n
      rw [Props.foldl_add_fn _ (fun k n => D x k n), Props.sum_map_range]
      intro y k n
      simp only [D]
      split
      · rw [Props.foldl_add_fn _ (fun z n => ∑ m ∈ range bs0, if n = z.1 * bs0 + m then
          -(c.A ((z.2 * bs0 + m) * (c.cols.length * bs1) + (x.2 * bs1 + k)) * alpha * (values (x.1 * bs1 + k) - x0 (x.1 * bs1 + k))) else 0)]
        intro y z n
        rw [Props.foldl_add_fn _ (fun m n => if n = z.1 * bs0 + m then
          -(c.A ((z.2 * bs0 + m) * (c.cols.length * bs1) + (x.2 * bs1 + k)) * alpha * (values (x.1 * bs1 + k) - x0 (x.1 * bs1 + k))) else 0),
          Props.sum_map_range]
        intro y m n
        beta_reduce
        split
        · rw [sub_eq_add_neg]
        · rw [add_zero]
      · rw [add_zero]
    rw [h2]
    congr 2
    apply List.map_congr_left
    intro x _
    apply sum_congr rfl
    intro k _
    simp only [D, G]
    split
    · rw [← sum_zipIdx_map c.rows i (fun a => c.A ((a * bs0 + m) * (c.cols.length * bs1) + (x.2 * bs1 + k)) * alpha *
        (values (x.1 * bs1 + k) - x0 (x.1 * bs1 + k))), List.sum_neg, List.map_map]
      congr 1
      apply List.map_congr_left
      intro y _
      simp only [Function.comp]
      by_cases hy : y.1 = i
      · subst hy
        rw [if_pos rfl, sum_eq_single m]
        · rw [if_pos (by ring)]
        · intro m' hm' hne
          rw [if_neg]
          intro h
          rw [Nat.mul_comm y.1] at h
          exact hne ((block_eq_iff hm (mem_range.mp hm')).mp h).2.symm
        · intro h; exact absurd (mem_range.mpr hm) h
      · rw [if_neg hy, neg_zero]
        apply sum_eq_zero
        intro m' hm'
        rw [if_neg]
        intro h
        rw [Nat.mul_comm y.1] at h
        exact hy ((block_eq_iff hm (mem_range.mp hm')).mp h).1.symm
    · rfl
  rw [h1, sub_eq_add_neg]
  congr 1
  by_cases hrows : c.rows = []
  · have : ∀ x ∈ c.cols.zipIdx, ∑ k ∈ range bs1, G x.1 x.2 k = 0 := by
      intro x _
      apply sum_eq_zero
      intro k _
      simp [G, hrows]
    rw [List.map_congr_left this]
    simp [Elem.entry, Call.elem, hrows]
  · obtain ⟨i0, hi0⟩ := List.exists_mem_of_ne_nil _ hrows
    rw [sum_zipIdx_all c.cols N (hN i0 hi0) (fun j y => ∑ k ∈ range bs1, G j y k), ← sum_neg_distrib]
    apply sum_congr rfl
    intro j _
    rw [← sum_neg_distrib]
    have : ∀ y ∈ range c.cols.length, (if c.cols[y]? = some j then ∑ k ∈ range bs1, G j y k else 0) =
        ∑ k ∈ range bs1, if c.cols[y]? = some j then G j y k else 0 := by
      intro y _; split <;> simp
    rw [sum_congr rfl this, sum_comm]
    apply sum_congr rfl
    intro l _
    simp only [G, Nat.mul_comm j bs1]
    split
    · unfold Elem.entry Call.elem
      rw [sum_comm, sum_mul, ← sum_neg_distrib]
      apply sum_congr rfl
      intro y _
      split
      · rename_i hy
        congr 1
        rw [sum_mul]
        apply sum_congr rfl
        intro a _
        by_cases ha : c.rows[a]? = some i
        · rw [if_pos ha, if_pos ⟨ha, hy⟩, mul_assoc]
          congr 2
          ring
        · rw [if_neg ha, if_neg (fun h => ha h.1), zero_mul]
      · rename_i hy
        rw [sum_eq_zero, zero_mul, neg_zero]
        intro a _
        rw [if_neg (fun h => hy h.2)]
    · simp

/-- `lift_bc` subtracts the element tensors times the boundary values. -/
theorem liftBc_ok (bs0 bs1 : Nat) (F : Form R) (dm0 dm1 : Nat → Dofmap) (hd0 : DofmapOk bs0 dm0) (hd1 : DofmapOk bs1 dm1) (hF : Accepted F)
    (alpha : R) (values : Nat → R) (markers : List Bool) (x0 b : Nat → R) (N : Nat)
    (hN : ∀ t c, ∀ d ∈ (dm1 t).dofs c, d < N) :
    ∃ b', liftBc F dm0 dm1 alpha values markers x0 b = some b' ∧
      ∀ i m, m < bs0 → b' (bs0 * i + m) = b (bs0 * i + m) -
        ∑ j ∈ range N, ∑ l ∈ range bs1, if markers.getD (bs1 * j + l) false = true then
          localOp bs0 bs1 (elems F dm0 dm1) i m j l * (alpha * (values (bs1 * j + l) - x0 (bs1 * j + l))) else 0 := by
  obtain ⟨cs, h1, h2⟩ := does_matrix true [] markers F dm0 dm1 hd0 hd1 hF
  refine ⟨_, by unfold liftBc; rw [(hd0 0).1, (hd1 0).1]; exact h1 _ _ _, ?_⟩
  intro i m hm
  have key : ∀ ds : List (Call R), (∀ c ∈ ds, c ∈ cs) → ∀ b : Nat → R,
      runCalls (liftFn bs0 bs1 alpha values markers x0) b ds (bs0 * i + m) = b (bs0 * i + m) -
        ∑ j ∈ range N, ∑ l ∈ range bs1, if markers.getD (bs1 * j + l) false = true then
          localOp bs0 bs1 (ds.map (Call.elem bs1)) i m j l * (alpha * (values (bs1 * j + l) - x0 (bs1 * j + l))) else 0 := by
    intro ds
    induction ds with
    | nil => intro _ b; simp [runCalls, localOp]
    | cons c ds ih =>
      intro hc b
      have e1 : runCalls (liftFn bs0 bs1 alpha values markers x0) b (c :: ds) =
        runCalls (liftFn bs0 bs1 alpha values markers x0) (liftFn bs0 bs1 alpha values markers x0 b c.rows c.cols c.A) ds := rfl
      rw [e1, ih (fun d hd => hc d (by simp [hd])), liftFn_at _ _ _ _ _ _ _ _ N _ _ _ hm, sub_sub, ← sum_add_distrib]
      · congr 1
        apply sum_congr rfl
        intro j _
        rw [← sum_add_distrib]
        apply sum_congr rfl
        intro l _
        split
        · rw [List.map_cons, localOp_cons, add_mul]
        · rw [add_zero]
      · intro i' hi' j hj
        obtain ⟨e, he, _, hje⟩ := h2.cover c (hc c (by simp)) i' hi' j hj
        obtain ⟨t, c', h⟩ := (elems_dofs he).2 j hje
        exact hN t c' j h
  rw [key cs (fun _ h => h) b]
  congr 1
  apply sum_congr rfl
  intro j _
  apply sum_congr rfl
  intro l hl
  split
  · rename_i hmk
    rw [h2.sum i m j l hm (mem_range.mp hl) (fun _ => hmk), if_neg (by simp [removed])]
  · rfl

end Verif.Assembly
