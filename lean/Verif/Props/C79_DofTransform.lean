import Verif.Prelude
import Mathlib.Algebra.BigOperators.Group.Finset.Sigma
import Mathlib.Algebra.BigOperators.Intervals
import Verif.Spec.DofTransform

/-!
# C79: dof transformations of blocked and mixed elements transform the dofs of all their sub-elements
-/
namespace Verif.Props
open Verif.DofTrans Verif.Spec.DofTrans

variable {T : Type} [CommRing T]

mutual
theorem spaceDim_eq : ∀ e : TElem T, spaceDim e = numDofs e
  | .base _ => rfl
  | .blocked _ _ => by simp only [spaceDim, numDofs]; ring
  | .mixed subs => by simp only [spaceDim, numDofs]; exact spaceDims_eq subs
theorem spaceDims_eq : ∀ es : List (TElem T), spaceDims es = numDofsL es
  | [] => rfl
  | e :: es => by simp only [spaceDims, numDofsL]; rw [spaceDim_eq e, spaceDims_eq es]
end

theorem dt_sumTo (n : Nat) (g : Nat → T) : Verif.Interp.sumTo n g = ∑ i ∈ Finset.range n, g i := by
  unfold Verif.Interp.sumTo
  induction n with
  | zero => rfl
  | succ n ih => rw [List.range_succ, List.foldl_append, ih, Finset.sum_range_succ]; rfl

/-- Basix's routine on data that may be longer than the dofs. -/
theorem applyLeft_ok (dim : Nat) (M : Nat → Nat → T) (u : List T) (n : Nat) (h : dim * n ≤ u.length) :
    ∃ v, applyLeft dim M u n = some v ∧ LeftMul dim n M u v ∧ ∀ k, dim * n ≤ k → v.getD k 0 = u.getD k 0 := by
  refine ⟨_, if_pos h, ⟨by simp, ?_⟩, ?_⟩
  · intro i hi k hk
    have hlt : i * n + k < dim * n := by
      have : (i + 1) * n ≤ dim * n := Nat.mul_le_mul_right _ hi
      have : (i + 1) * n = i * n + n := by ring
      omega
    have hl : i * n + k < u.length := by omega
    have hdiv : (i * n + k) / n = i := by
      rw [Nat.mul_comm, Nat.mul_add_div (by omega), Nat.div_eq_of_lt hk, Nat.add_zero]
    have hmod : (i * n + k) % n = k := by rw [Nat.mul_comm, Nat.mul_add_mod, Nat.mod_eq_of_lt hk]
    simp only [List.getD_eq_getElem?_getD, List.getElem?_map, List.getElem?_zipIdx, List.getElem?_eq_getElem hl, Option.map_some, Option.getD_some]
    rw [Nat.zero_add, if_pos hlt, hdiv, hmod, dt_sumTo]
  · intro k hk
    by_cases hl : k < u.length
    · simp only [List.getD_eq_getElem?_getD, List.getElem?_map, List.getElem?_zipIdx, List.getElem?_eq_getElem hl, Option.map_some, Option.getD_some]
      rw [Nat.zero_add, if_neg (by omega)]
    · simp [hl]

theorem delta_sum (dim i : Nat) (hi : i < dim) (f : Nat → T) : ∑ j ∈ Finset.range dim, (if i = j then (1 : T) else 0) * f j = f i := by
  rw [Finset.sum_eq_single i]
  · simp
  · intro b _ hb
    rw [if_neg (fun h => hb h.symm), zero_mul]
  · intro h
    exact absurd (Finset.mem_range.mpr hi) h

/-- The function of a Basix element. -/
theorem leftBase_ok (b : Base T) (t : TType) (u : List T) (n : Nat) (h : b.dim * n ≤ u.length) :
    ∃ v, leftBase b t u n = some v ∧ LeftMul b.dim n (baseMat b t) u v ∧ ∀ k, b.dim * n ≤ k → v.getD k 0 = u.getD k 0 := by
  unfold leftBase
  cases hb : b.needs
  · refine ⟨u, by simp, ⟨rfl, ?_⟩, fun _ _ => rfl⟩
    intro i hi k _
    simp only [baseMat, hb, Bool.false_eq_true, if_false]
    rw [delta_sum b.dim i hi (fun j => u.getD (j * n + k) 0)]
  · obtain ⟨v, h1, h2, h3⟩ := applyLeft_ok b.dim (b.mat t) u n h
    refine ⟨v, by simpa using h1, ⟨h2.1, ?_⟩, h3⟩
    intro i hi k hk
    simp only [baseMat, hb, if_true]
    exact h2.2 i hi k hk

/-- Sum over the dofs of a blocked element, copy by copy. -/
theorem sum_copies (dim bs k : Nat) (hk : k < bs) (f g : Nat → T) :
    ∑ j ∈ Finset.range (dim * bs), (if k = j % bs then f (j / bs) else 0) * g j = ∑ j ∈ Finset.range dim, f j * g (j * bs + k) := by
  induction dim with
  | zero => simp
  | succ d ih =>
    rw [Finset.sum_range_succ, ← ih, Nat.succ_mul, Finset.sum_range_add]
    congr 1
    rw [Finset.sum_eq_single k]
    · have h1 : (d * bs + k) % bs = k := by rw [Nat.mul_comm, Nat.mul_add_mod, Nat.mod_eq_of_lt hk]
      have h2 : (d * bs + k) / bs = d := by rw [Nat.mul_comm, Nat.mul_add_div (by omega), Nat.div_eq_of_lt hk, Nat.add_zero]
      rw [h1, h2, if_pos rfl]
    · intro j hj hne
      have hj := Finset.mem_range.mp hj
      have h1 : (d * bs + j) % bs = j := by rw [Nat.mul_comm, Nat.mul_add_mod, Nat.mod_eq_of_lt hj]
      rw [h1, if_neg (fun h => hne h.symm), zero_mul]
    · intro h
      exact absurd (Finset.mem_range.mpr hk) h

/-- A blocked element: copy `k` of the element has its own columns. -/
theorem blocked_mul (dim bs n : Nat) (M : Nat → Nat → T) (u v : List T) (h : LeftMul dim (bs * n) M u v) :
    LeftMul (dim * bs) n (fun i j => if i % bs = j % bs then M (i / bs) (j / bs) else 0) u v := by
  refine ⟨h.1, ?_⟩
  intro i hi k hk
  have hbs : 0 < bs := by
    rcases Nat.eq_zero_or_pos bs with h0 | h0
    · subst h0; omega
    · exact h0
  have hmod := Nat.mod_lt i hbs
  have hdiv : i / bs < dim := by rwa [Nat.div_lt_iff_lt_mul hbs]
  have hpos : ∀ j q, j * (bs * n) + (q * n + k) = (j * bs + q) * n + k := fun j q => by ring
  have hlt : i % bs * n + k < bs * n := by
    have : (i % bs + 1) * n ≤ bs * n := Nat.mul_le_mul_right _ hmod
    have : (i % bs + 1) * n = i % bs * n + n := by ring
    omega
  have h2 := h.2 (i / bs) hdiv (i % bs * n + k) hlt
  rw [hpos, Nat.div_add_mod'] at h2
  rw [h2, sum_copies dim bs (i % bs) hmod (fun j => M (i / bs) j) (fun j => u.getD (j * n + k) 0)]
  refine Finset.sum_congr rfl fun j _ => ?_
  rw [hpos]

theorem getD_split_take (u : List T) (w k : Nat) (hk : k < w) : (u.take w).getD k 0 = u.getD k 0 := by
  simp only [List.getD_eq_getElem?_getD]
  rw [List.getElem?_take_of_lt hk]

theorem getD_app_left (u v : List T) (k : Nat) (h : k < u.length) : (u ++ v).getD k 0 = u.getD k 0 := by
  simp only [List.getD_eq_getElem?_getD]
  rw [List.getElem?_append_left h]

theorem getD_app_right (u v : List T) (k : Nat) (h : u.length ≤ k) : (u ++ v).getD k 0 = v.getD (k - u.length) 0 := by
  simp only [List.getD_eq_getElem?_getD]
  rw [List.getElem?_append_right h]

theorem getD_split_drop (u : List T) (w k : Nat) : (u.drop w).getD k 0 = u.getD (w + k) 0 := by
  simp only [List.getD_eq_getElem?_getD, List.getElem?_drop]

mutual
/-- An element that needs no transformations has the identity as its matrix. -/
theorem elemMat_id (t : TType) : ∀ e : TElem T, needsT e = false → ∀ i < numDofs e, ∀ j < numDofs e, elemMat t i j e = if i = j then 1 else 0
  | .base b, h, i, _, j, _ => by
    have h : b.needs = false := h
    simp [elemMat, baseMat, h]
  | .blocked bs b, h, i, _, j, _ => by
    have h : b.needs = false := h
    simp only [elemMat, baseMat, h, Bool.false_eq_true, if_false]
    by_cases hij : i = j
    · simp [hij]
    · rw [if_neg hij]
      by_cases hm : i % bs = j % bs
      · rw [if_pos hm, if_neg]
        intro hd
        exact hij (by rw [← Nat.div_add_mod i bs, ← Nat.div_add_mod j bs, hd, hm])
      · rw [if_neg hm]
  | .mixed subs, h, i, hi, j, hj => elemMatL_id t subs h i hi j hj
theorem elemMatL_id (t : TType) : ∀ es : List (TElem T), needsAny es = false → ∀ i < numDofsL es, ∀ j < numDofsL es, elemMatL t i j es = if i = j then 1 else 0
  | [], _, i, hi, _, _ => by simp [numDofsL] at hi
  | e :: es, h, i, hi, j, hj => by
    have h : (needsT e || needsAny es) = false := h
    rw [Bool.or_eq_false_iff] at h
    simp only [numDofsL] at hi hj
    simp only [elemMatL]
    by_cases h1 : i < numDofs e
    · rw [if_pos h1]
      by_cases h2 : j < numDofs e
      · rw [if_pos h2, elemMat_id t e h.1 i h1 j h2]
      · rw [if_neg h2, if_neg (by omega)]
    · rw [if_neg h1]
      by_cases h2 : j < numDofs e
      · rw [if_pos h2, if_neg (by omega)]
      · rw [if_neg h2, elemMatL_id t es h.2 _ (by omega) _ (by omega)]
        by_cases h3 : i = j
        · simp [h3]
        · rw [if_neg (by omega), if_neg h3]
end

/-- Doing nothing multiplies by the identity. -/
theorem leftMul_id (dim n : Nat) (M : Nat → Nat → T) (hM : ∀ i < dim, ∀ j < dim, M i j = if i = j then 1 else 0) (u : List T) : LeftMul dim n M u u := by
  refine ⟨rfl, ?_⟩
  intro i hi k _
  rw [← delta_sum dim i hi (fun j => u.getD (j * n + k) 0)]
  refine Finset.sum_congr rfl fun j hj => ?_
  rw [hM i hi j (Finset.mem_range.mp hj)]

mutual
theorem leftFn_ok (t : TType) (n : Nat) : ∀ (e : TElem T) (u : List T), u.length = numDofs e * n →
    ∃ v, leftFn t false u n e = some v ∧ LeftMul (numDofs e) n (fun i j => elemMat t i j e) u v
  | .base b, u, hu => by
    obtain ⟨v, h1, h2, _⟩ := leftBase_ok b t u n (by rw [hu]; exact le_refl _)
    exact ⟨v, by rw [leftFn]; exact h1, h2⟩
  | .blocked bs b, u, hu => by
    have hl : u.length = b.dim * (bs * n) := by rw [hu]; simp only [numDofs]; ring
    obtain ⟨v, h1, h2, _⟩ := leftBase_ok b t u (bs * n) (by rw [hl])
    refine ⟨v, ?_, blocked_mul _ _ _ _ _ _ h2⟩
    rw [leftFn]
    cases hb : b.needs
    · simp only [Bool.not_false, if_true]
      simpa [leftBase, hb] using h1
    · simpa using h1
  | .mixed subs, u, hu => by
    rw [leftFn]
    cases hb : needsAny subs
    · exact ⟨u, by simp, leftMul_id _ _ _ (fun i hi j hj => elemMatL_id t subs hb i hi j hj) _⟩
    · obtain ⟨v, h1, h2⟩ := leftSubs_ok t n subs u hu
      exact ⟨v, by simpa using h1, h2⟩
theorem leftSubs_ok (t : TType) (n : Nat) : ∀ (es : List (TElem T)) (u : List T), u.length = numDofsL es * n →
    ∃ v, leftSubs t u n es = some v ∧ LeftMul (numDofsL es) n (fun i j => elemMatL t i j es) u v
  | [], u, _ => ⟨u, by rw [leftSubs], rfl, fun i hi => by simp [numDofsL] at hi⟩
  | e :: es, u, hu => by
    have hu' : u.length = numDofs e * n + numDofsL es * n := by rw [hu]; simp only [numDofsL]; ring
    obtain ⟨v, h1, h2⟩ := leftFn_ok t n e (u.take (numDofs e * n)) (by rw [List.length_take]; omega)
    obtain ⟨w, g1, g2⟩ := leftSubs_ok t n es (u.drop (numDofs e * n)) (by rw [List.length_drop]; omega)
    have hvl : v.length = numDofs e * n := by rw [h2.1, List.length_take]; omega
    refine ⟨v ++ w, ?_, ?_, ?_⟩
    · rw [leftSubs, spaceDim_eq, if_pos (by omega), h1, Option.bind_some, g1, Option.map_some]
    · rw [List.length_append, h2.1, g2.1, List.length_take, List.length_drop]
      omega
    · intro i hi k hk
      simp only [numDofsL] at hi ⊢
      rw [Finset.sum_range_add]
      by_cases h : i < numDofs e
      · have hlt : i * n + k < numDofs e * n := by
          have : (i + 1) * n ≤ numDofs e * n := Nat.mul_le_mul_right _ h
          have : (i + 1) * n = i * n + n := by ring
          omega
        have hz : ∑ j ∈ Finset.range (numDofsL es), elemMatL t i (numDofs e + j) (e :: es) * u.getD ((numDofs e + j) * n + k) 0 = 0 := by
          refine Finset.sum_eq_zero fun j _ => ?_
          rw [elemMatL, if_pos h, if_neg (by omega), zero_mul]
        rw [hz, add_zero, getD_app_left _ _ _ (by omega), h2.2 i h k hk]
        refine Finset.sum_congr rfl fun j hj => ?_
        have hj := Finset.mem_range.mp hj
        rw [elemMatL, if_pos h, if_pos hj, getD_split_take]
        have : (j + 1) * n ≤ numDofs e * n := Nat.mul_le_mul_right _ hj
        have : (j + 1) * n = j * n + n := by ring
        omega
      · obtain ⟨i', rfl⟩ : ∃ i', i = numDofs e + i' := ⟨i - numDofs e, by omega⟩
        have hz : ∑ j ∈ Finset.range (numDofs e), elemMatL t (numDofs e + i') j (e :: es) * u.getD (j * n + k) 0 = 0 := by
          refine Finset.sum_eq_zero fun j hj => ?_
          rw [elemMatL, if_neg h, if_pos (Finset.mem_range.mp hj), zero_mul]
        have hp : ∀ j, (numDofs e + j) * n + k = numDofs e * n + (j * n + k) := fun j => by ring
        rw [hz, zero_add, hp, getD_app_right _ _ _ (by omega), hvl, Nat.add_sub_cancel_left, g2.2 i' (by omega) k hk]
        refine Finset.sum_congr rfl fun j _ => ?_
        rw [elemMatL, if_neg h, if_neg (by omega), Nat.add_sub_cancel_left, Nat.add_sub_cancel_left, getD_split_drop, hp]
end

/-- **C79.** The function of `dof_transformation_fn` multiplies data of shape `(number of dofs, n)` by the matrix of the element, for any Basix, blocked or mixed element, also nested. -/
theorem C79_left (t : TType) (e : TElem T) (n : Nat) (u : List T) (hu : u.length = numDofs e * n) :
    ∃ v, leftFn t false u n e = some v ∧ LeftMul (numDofs e) n (fun i j => elemMat t i j e) u v :=
  leftFn_ok t n e u hu

/-- **C79.** With `scalar_element`, a blocked element transforms data of shape `(dofs of the Basix element, n)` as its Basix element. -/
theorem C79_left_scalar (t : TType) (bs : Nat) (b : Base T) (n : Nat) (u : List T) (hu : u.length = b.dim * n) :
    ∃ v, leftFn t true u n (.blocked bs b) = some v ∧ LeftMul b.dim n (baseMat b t) u v := by
  obtain ⟨v, h1, h2, _⟩ := leftBase_ok b t u n (by rw [hu])
  refine ⟨v, ?_, h2⟩
  rw [leftFn]
  cases hb : b.needs
  · simpa [leftBase, hb] using h1
  · simpa [leftBase, hb] using h1

/-! ## From the right -/

/-- What is trusted of the `..._apply_right` routines of Basix: on `n` rows of equal length they multiply the first `dim` columns from the right. -/
def BasixRight (b : Base T) : Prop :=
  ∀ (t : TType) (n stride : Nat) (u : List T), b.dim ≤ stride → u.length = n * stride → ∃ v, b.right t u n = some v ∧ RightMul b.dim n stride 0 (b.mat t) u v

/-- A row of a blocked element. -/
theorem blockedRow_ok (b : Base T) (t : TType) (bs : Nat) (u : List T) (h : b.dim * bs ≤ u.length) :
    ∃ v, leftBase b t u bs = some v ∧ v.length = u.length ∧ ∀ c < u.length, v.getD c 0 =
      if c < b.dim * bs then ∑ j ∈ Finset.range (b.dim * bs), u.getD j 0 * (if c % bs = j % bs then baseMat b t (c / bs) (j / bs) else 0) else u.getD c 0 := by
  obtain ⟨v, h1, h2, h3⟩ := leftBase_ok b t u bs h
  refine ⟨v, h1, h2.1, ?_⟩
  intro c hc
  by_cases hlt : c < b.dim * bs
  · have h2' : LeftMul b.dim (bs * 1) (baseMat b t) u v := by rw [Nat.mul_one]; exact h2
    have := (blocked_mul _ _ _ _ _ _ h2').2 c hlt 0 (by omega)
    simp only [Nat.mul_one, Nat.add_zero] at this
    rw [if_pos hlt, this]
    exact Finset.sum_congr rfl fun j _ => mul_comm _ _
  · rw [if_neg hlt, h3 c (by omega)]

theorem rightRows_ok (b : Base T) (t : TType) (bs stride : Nat) (hs : b.dim * bs ≤ stride) : ∀ (n : Nat) (u : List T), u.length = n * stride →
    ∃ v, rightRows bs b t stride n u = some v ∧ v.length = u.length ∧ ∀ r < n, ∀ c < stride, v.getD (r * stride + c) 0 =
      if c < b.dim * bs then ∑ j ∈ Finset.range (b.dim * bs), u.getD (r * stride + j) 0 * (if c % bs = j % bs then baseMat b t (c / bs) (j / bs) else 0)
      else u.getD (r * stride + c) 0
  | 0, u, _ => ⟨u, rfl, rfl, fun r hr => by omega⟩
  | n + 1, u, hu => by
    have hu' : u.length = stride + n * stride := by rw [hu]; ring
    have htl : (u.take stride).length = stride := by rw [List.length_take]; omega
    obtain ⟨v, h1, h2, h3⟩ := blockedRow_ok b t bs (u.take stride) (by omega)
    obtain ⟨w, g1, g2, g3⟩ := rightRows_ok b t bs stride hs n (u.drop stride) (by rw [List.length_drop]; omega)
    refine ⟨v ++ w, ?_, ?_, ?_⟩
    · rw [rightRows, if_pos (by omega), h1, Option.bind_some, g1, Option.map_some]
    · rw [List.length_append, h2, g2, List.length_take, List.length_drop]
      omega
    · intro r hr c hc
      cases r with
      | zero =>
        simp only [Nat.zero_mul, Nat.zero_add]
        rw [getD_app_left _ _ _ (by omega), h3 c (by omega)]
        by_cases hlt : c < b.dim * bs
        · rw [if_pos hlt, if_pos hlt]
          refine Finset.sum_congr rfl fun j hj => ?_
          rw [getD_split_take _ _ _ (by have := Finset.mem_range.mp hj; omega)]
        · rw [if_neg hlt, if_neg hlt, getD_split_take _ _ _ hc]
      | succ r =>
        have hp : ∀ c, (r + 1) * stride + c = stride + (r * stride + c) := fun c => by ring
        rw [hp, getD_app_right _ _ _ (by omega), h2, htl, Nat.add_sub_cancel_left, g3 r (by omega) c hc]
        simp only [getD_split_drop, ← hp]

/-- **C79.** For a blocked element, the function of `dof_transformation_right_fn` multiplies the rows by the *transpose* of the matrix of the element. -/
theorem C79_right_blocked (t : TType) (bs : Nat) (b : Base T) (n stride : Nat) (u : List T) (hn : 0 < n) (hs : b.dim * bs ≤ stride) (hu : u.length = n * stride) :
    ∃ v, rightFn t u n (.blocked bs b) = some v ∧ RightMul (b.dim * bs) n stride 0 (fun j i => elemMat t i j (.blocked bs b)) u v := by
  rw [rightFn]
  cases hb : b.needs
  · refine ⟨u, by simp, rfl, ?_⟩
    intro r _ c hc
    by_cases hlt : c < b.dim * bs
    · rw [if_pos ⟨by omega, by omega⟩]
      have := fun j hj => elemMat_id t (.blocked bs b) hb c hlt j hj
      rw [← delta_sum (b.dim * bs) c hlt (fun j => u.getD (r * stride + j) 0)]
      refine Finset.sum_congr rfl fun j hj => ?_
      simp only [Nat.sub_zero, Nat.zero_add]
      rw [this j (Finset.mem_range.mp hj), mul_comm]
    · rw [if_neg (by omega)]
  · have hdiv : u.length / n = stride := by rw [hu, Nat.mul_div_cancel_left _ hn]
    obtain ⟨v, h1, h2, h3⟩ := rightRows_ok b t bs stride hs n u hu
    refine ⟨v, ?_, h2, ?_⟩
    · rw [hdiv]
      simpa [Nat.pos_iff_ne_zero.mp hn] using h1
    · intro r hr c hc
      rw [h3 r hr c hc]
      simp only [Nat.zero_le, true_and, Nat.zero_add, Nat.sub_zero, elemMat]

/-- An element for which the functions from the right are right: Basix elements, and blocked elements with symmetric matrices. -/
def RightGood (t : TType) : TElem T → Prop
  | .base b => BasixRight b
  | .blocked _ b => ∀ i < b.dim, ∀ j < b.dim, b.mat t i j = b.mat t j i
  | .mixed _ => False

/-- **C79 (partial).** The function of `dof_transformation_right_fn` multiplies rows, that may be longer than the number of dofs, by the matrix of the element from the right, if the
element is not mixed and, for a blocked element, the matrix is symmetric. -/
theorem C79_right_partial (t : TType) (e : TElem T) (he : RightGood t e) (n stride : Nat) (u : List T) (hn : 0 < n) (hs : numDofs e ≤ stride) (hu : u.length = n * stride) :
    ∃ v, rightFn t u n e = some v ∧ RightMul (numDofs e) n stride 0 (fun i j => elemMat t i j e) u v := by
  cases e with
  | base b =>
    rw [rightFn]
    cases hb : b.needs
    · refine ⟨u, by simp, rfl, ?_⟩
      intro r _ c hc
      by_cases hlt : c < b.dim
      · rw [if_pos ⟨by omega, by simp only [numDofs]; omega⟩]
        rw [← delta_sum b.dim c hlt (fun j => u.getD (r * stride + j) 0)]
        refine Finset.sum_congr rfl fun j _ => ?_
        simp only [elemMat, baseMat, hb, Bool.false_eq_true, if_false, Nat.zero_add, Nat.sub_zero]
        rw [mul_comm]
        simp only [eq_comm]
      · rw [if_neg (by simp only [numDofs]; omega)]
    · obtain ⟨v, h1, h2⟩ := he t n stride u hs hu
      refine ⟨v, by simpa using h1, h2.1, ?_⟩
      intro r hr c hc
      rw [h2.2 r hr c hc]
      simp only [elemMat, baseMat, hb, if_true, numDofs]
  | blocked bs b =>
    obtain ⟨v, h1, h2⟩ := C79_right_blocked t bs b n stride u hn hs hu
    refine ⟨v, h1, h2.1, ?_⟩
    intro r hr c hc
    rw [h2.2 r hr c hc]
    simp only [numDofs, Nat.zero_add, Nat.sub_zero]
    by_cases hlt : 0 ≤ c ∧ c < b.dim * bs
    · rw [if_pos hlt, if_pos hlt]
      refine Finset.sum_congr rfl fun j hj => ?_
      have hj := Finset.mem_range.mp hj
      congr 1
      have hbs : 0 < bs := by
        rcases Nat.eq_zero_or_pos bs with h0 | h0
        · subst h0; omega
        · exact h0
      simp only [elemMat, baseMat]
      have hc' : c / bs < b.dim := by rw [Nat.div_lt_iff_lt_mul hbs]; omega
      have hj' : j / bs < b.dim := by rwa [Nat.div_lt_iff_lt_mul hbs]
      rw [he _ hc' _ hj']
      by_cases hm : c % bs = j % bs
      · rw [if_pos hm, if_pos hm.symm]
        by_cases hd : c / bs = j / bs
        · simp [hd]
        · simp only [hd, Ne.symm hd, if_false]
      · rw [if_neg hm, if_neg (fun h => hm h.symm)]
    · rw [if_neg hlt, if_neg hlt]
  | mixed subs => exact he.elim

/-! ## Where it fails -/

namespace C79ex

/-- Two dofs, as on a face that is rotated by a quarter turn, where functions change their sign. -/
def rot (t : TType) (i j : Nat) : Int :=
  match t with
  | .standard | .inverseTranspose => if i = 0 ∧ j = 1 then -1 else if i = 1 ∧ j = 0 then 1 else 0
  | _ => if i = 0 ∧ j = 1 then 1 else if i = 1 ∧ j = 0 then -1 else 0
/-- One dof that changes its sign. -/
def neg (_ : TType) (_ _ : Nat) : Int := -1

def rotB : Base Int := ⟨2, true, rot, fun _ _ _ => none⟩
def negB (right : TType → List Int → Nat → Option (List Int)) : Base Int := ⟨1, true, neg, right⟩
/-- Dofs without transformations. -/
def plain (d : Nat) : Base Int := ⟨d, false, fun _ _ _ => 0, fun _ _ _ => none⟩

end C79ex
open C79ex

/-- **C79 refuted, blocked elements from the right.** A matrix that is not symmetric is applied as its transpose. -/
theorem C79_refuted_right_blocked : ∃ (e : TElem Int) (u : List Int), u.length = 1 * numDofs e ∧
    ¬ ∃ v, rightFn .transpose u 1 e = some v ∧ RightMul (numDofs e) 1 (numDofs e) 0 (fun i j => elemMat .transpose i j e) u v := by
  refine ⟨.blocked 2 rotB, [1, 2, 3, 4], rfl, ?_⟩
  rintro ⟨v, h1, h2⟩
  have h : rightFn TType.transpose [1, 2, 3, 4] 1 (TElem.blocked 2 rotB) = some [3, 4, -1, -2] := by decide +kernel
  rw [h] at h1
  injection h1 with h1
  subst h1
  have := h2.2 0 (by decide) 0 (by decide)
  revert this
  decide +kernel

/-- **C79 refuted, mixed elements with a blocked sub-element from the right.** Rows of the sub-element are looked for in the wrong places, although its matrix is symmetric. -/
theorem C79_refuted_right_mixed_blocked : ∃ (e : TElem Int) (u : List Int), u.length = 2 * numDofs e ∧
    ¬ ∃ v, rightFn .transpose u 2 e = some v ∧ RightMul (numDofs e) 2 (numDofs e) 0 (fun i j => elemMat .transpose i j e) u v := by
  refine ⟨.mixed [.base (plain 1), .blocked 2 (negB fun _ _ _ => none)], [1, 2, 3, 4, 5, 6], rfl, ?_⟩
  rintro ⟨v, h1, h2⟩
  have h : rightFn TType.transpose [1, 2, 3, 4, 5, 6] 2 (TElem.mixed [.base (plain 1), .blocked 2 (negB fun _ _ _ => none)]) = some [1, -2, -3, -4, -5, 6] := by decide +kernel
  rw [h] at h1
  injection h1 with h1
  subst h1
  have := h2.2 1 (by decide) 0 (by decide)
  revert this
  decide +kernel

theorem ite_some_eq {α : Type} {p : Prop} [Decidable p] {a : Option α} {v : α} (h : (if p then a else none) = some v) : a = some v := by
  by_cases q : p
  · rwa [if_pos q] at h
  · rw [if_neg q] at h
    exact absurd h (by simp)

/-- **C79 refuted, mixed elements from the right.** Whatever Basix's routine does: if it is right for one mixed element, then it is wrong for another, since it gets the same data and
number of rows for rows of different length. -/
theorem C79_refuted_right_mixed : ¬ ∃ right : TType → List Int → Nat → Option (List Int),
    ∀ e ∈ [TElem.mixed [.base (negB right), .base (plain 1)], TElem.mixed [.base (plain 2), .base (negB right)]], ∀ u : List Int, u.length = 2 * numDofs e →
      ∃ v, rightFn .transpose u 2 e = some v ∧ RightMul (numDofs e) 2 (numDofs e) 0 (fun i j => elemMat .transpose i j e) u v := by
  rintro ⟨right, h⟩
  obtain ⟨v, h1, h2⟩ := h (TElem.mixed [.base (negB right), .base (plain 1)]) (by simp) [1, 2, 3, 4] rfl
  obtain ⟨w, g1, g2⟩ := h (TElem.mixed [.base (plain 2), .base (negB right)]) (by simp) [0, 0, 1, 2, 3, 4] rfl
  have a1 := h2.2 1 (by decide) 1 (show 1 < 2 by decide)
  have a2 := g2.2 1 (by decide) 2 (show 2 < 3 by decide)
  simp only [rightFn, rightSubs, needsAny, needsT, negB, plain, spaceDim] at h1 g1
  cases hx : right TType.transpose [1, 2, 3, 4] 2 with
  | none => simp [hx] at h1
  | some x =>
    have hv : v = x := by
      simp only [hx, Bool.not_true, Bool.or_false, Bool.not_false, Bool.false_eq_true, if_false, if_true, Option.bind_some] at h1
      obtain ⟨y, hy, hy'⟩ := Option.map_eq_some_iff.mp (ite_some_eq h1)
      have hy := ite_some_eq hy
      simp only [Option.map_some, Option.some.injEq, List.take_append_drop] at hy
      rw [← hy', ← hy, List.take_append_drop]
    have hw : w = 0 :: 0 :: x := by
      simp only [List.length_cons, List.length_nil, Nat.reduceLeDiff, Nat.reduceAdd, List.drop_succ_cons, List.drop_zero, List.take_succ_cons, List.take_zero, hx, Bool.not_true,
        Bool.or_false, Bool.or_true, Bool.not_false, Bool.false_eq_true, if_false, if_true, Option.bind_some] at g1
      obtain ⟨y, hy, hy'⟩ := Option.map_eq_some_iff.mp g1
      have hy := ite_some_eq hy
      simp only [Option.map_some, Option.some.injEq, List.take_append_drop] at hy
      rw [← hy', ← hy]
      rfl
    subst hv hw
    have b1 : v.getD 3 0 = 4 := a1.trans (by simp [numDofs, numDofsL, elemMat, elemMatL, baseMat, negB, plain, Finset.sum_range_succ])
    have b2 : v.getD 3 0 = -4 := a2.trans (by simp [numDofs, numDofsL, elemMat, elemMatL, baseMat, negB, plain, C79ex.neg, Finset.sum_range_succ])
    omega

/-- **C79, refuted for callers.** `Function::eval`, interpolation between different maps and `interpolation_matrix` pass the basis functions of the scalar element to the function of the
whole element.  If the element is blocked and needs transformations, then that reaches beyond the values of the point. -/
theorem C79_refuted_eval (bs : Nat) (b : Base T) (hbs : 1 < bs) (hn : b.needs = true) (hd : 0 < b.dim) (rvs : Nat) (hr : 0 < rvs) (vals : List T)
    (hv : vals.length = scalarDim (.blocked bs b) * rvs) : transformBasis (.blocked bs b) vals rvs = none := by
  unfold transformBasis
  rw [if_pos hv, leftFn]
  simp only [hn, Bool.not_true, Bool.not_false, Bool.false_eq_true, if_false, if_true, leftBase, applyLeft]
  rw [if_neg]
  rw [hv]
  simp only [scalarDim]
  have h1 : 0 < b.dim * rvs := Nat.mul_pos hd hr
  have h2 : b.dim * (bs * rvs) = bs * (b.dim * rvs) := by ring
  have h3 : 2 * (b.dim * rvs) ≤ bs * (b.dim * rvs) := Nat.mul_le_mul_right _ hbs
  omega

/-- **C79.** Otherwise they get the transformed basis functions. -/
theorem C79_eval (e : TElem T) (he : ∀ bs b, e = .blocked bs b → bs = 1 ∨ b.needs = false) (rvs : Nat) (vals : List T) (hv : vals.length = scalarDim e * rvs) :
    ∃ v, transformBasis e vals rvs = some v ∧ LeftMul (scalarDim e) rvs (fun i j => basisMat .standard i j e) vals v := by
  unfold transformBasis
  rw [if_pos hv]
  cases e with
  | base b => exact C79_left .standard (.base b) rvs vals hv
  | mixed subs =>
    obtain ⟨v, h1, h2⟩ := C79_left .standard (.mixed subs) rvs vals (by rw [hv]; simp only [scalarDim, numDofs]; rw [spaceDims_eq])
    refine ⟨v, h1, ?_⟩
    have h : scalarDim (.mixed subs) = numDofs (.mixed subs) := spaceDims_eq subs
    rw [h]
    exact h2
  | blocked bs b =>
    obtain ⟨v, h1, h2, _⟩ := leftBase_ok b .standard vals rvs (by rw [hv]; exact le_refl _)
    refine ⟨v, ?_, h2⟩
    rw [leftFn]
    rcases he bs b rfl with h | h
    · subst h
      cases hb : b.needs
      · simpa [leftBase, hb] using h1
      · simpa using h1
    · simpa [leftBase, h] using h1

/-! ## Cases that meet the hypotheses -/

/-- The assumption on Basix can be met, for any matrices. -/
theorem basixRight_meets (dim : Nat) (mat : TType → Nat → Nat → T) :
    BasixRight ⟨dim, true, mat, fun t u n => rightRows 1 ⟨dim, true, fun t i j => mat t j i, fun _ _ _ => none⟩ t (u.length / n) n u⟩ := by
  intro t n stride u hs hu
  rcases Nat.eq_zero_or_pos n with h0 | hn
  · subst h0
    exact ⟨u, rfl, rfl, fun r hr => by omega⟩
  · have hdiv : u.length / n = stride := by rw [hu, Nat.mul_div_cancel_left _ hn]
    obtain ⟨v, h1, h2, h3⟩ := rightRows_ok (⟨dim, true, fun t i j => mat t j i, fun _ _ _ => none⟩ : Base T) t 1 stride (by simpa using hs) n u hu
    refine ⟨v, by simpa only [hdiv] using h1, h2, ?_⟩
    intro r hr c hc
    rw [h3 r hr c hc]
    simp [baseMat, Nat.mod_one]

/-- A mixed element with a blocked and a mixed sub-element. -/
example : ∃ v, leftFn .standard false [1, 2, 3, 4, 5, 6, 7] 1 (.mixed [.base (plain 1), .blocked 2 rotB, .mixed [.base (plain 1), .base (negB fun _ _ _ => none)]]) = some v ∧
    v = [1, -4, -5, 2, 3, 6, -7] :=
  ⟨_, by decide +kernel, rfl⟩

example : ∃ v, leftFn .standard false [1, 2, 3, 4, 5, 6, 7, 8] 2 (.blocked 2 rotB) = some v ∧
    LeftMul 4 2 (fun i j => elemMat .standard i j (.blocked 2 rotB)) [1, 2, 3, 4, 5, 6, 7, 8] v :=
  C79_left .standard (.blocked 2 rotB) 2 _ rfl

/-- Rows of an interior facet: the dofs of the first cell are half of a row. -/
example : ∃ v, rightFn .transpose [1, 2, 3, 4, 5, 6, 7, 8] 2 (.blocked 2 (negB fun _ _ _ => none)) = some v ∧
    RightMul 2 2 4 0 (fun i j => elemMat .transpose i j (.blocked 2 (negB fun _ _ _ => none))) [1, 2, 3, 4, 5, 6, 7, 8] v :=
  C79_right_partial .transpose (.blocked 2 (negB fun _ _ _ => none)) (fun _ _ _ _ => rfl) 2 4 _ (by decide) (by decide) rfl

example : transformBasis (.blocked 2 rotB) [1, 2] 1 = none := C79_refuted_eval 2 rotB (by decide) rfl (by decide) 1 (by decide) _ rfl

example : ∃ v, transformBasis (.base rotB) [1, 2, 3, 4] 2 = some v ∧ v = [-3, -4, 1, 2] := ⟨_, by decide +kernel, rfl⟩

end Verif.Props
