import Verif.Model.SpMV
import Verif.Spec.GlobalVector
import Verif.Props.C10_C11_Scatter
import Verif.Lemmas.VectorOps
import Mathlib.Algebra.BigOperators.Group.Finset.Piecewise
/-!
# C19: matrix-vector products equal the dense products
-/
namespace Verif.Props
open Verif.World Verif.SpMV Verif.Scatterer Verif.VectorOps Finset

variable {R : Type} [CommSemiring R]

/-- Layout of the owned rows on rank `r`: each row is split at `offDiag` into entries in
owned columns and entries in ghost columns. -/
structure MatOk (w : World) (r : Nat) (A : Mat R) : Prop where
  split : ∀ i, i < A.nrows → A.rowPtr i ≤ A.offDiag i ∧ A.offDiag i ≤ A.rowPtr (i + 1)
  diag : ∀ i, i < A.nrows → ∀ j, A.rowPtr i ≤ j → j < A.offDiag i → A.cols j < w.size r
  off : ∀ i, i < A.nrows → ∀ j, A.offDiag i ≤ j → j < A.rowPtr (i + 1) →
    w.size r ≤ A.cols j ∧ A.cols j < w.size r + (w.ghosts r).length

/-- Entry `(k0, k1)` of the block in local row `i` and *global* block column `G`: sum of the
stored values of that row whose column has global index `G`. -/
def entry (w : World) (bs0 bs1 r : Nat) (A : Mat R) (i k0 G k1 : Nat) : R :=
  ∑ j ∈ Ico (A.rowPtr i) (A.rowPtr (i + 1)),
    if (w.map r).localToGlobal (A.cols j) = some G then A.values (j * bs0 * bs1 + k0 * bs1 + k1) else 0

theorem foldl_add_fn {α : Type} (step : (Nat → R) → α → (Nat → R)) (d : α → Nat → R)
    (h : ∀ y e n, step y e n = y n + d e n) (l : List α) (y : Nat → R) (n : Nat) :
    l.foldl step y n = y n + (l.map (fun e => d e n)).sum := by
  induction l generalizing y with
  | nil => simp
  | cons e l ih => rw [List.foldl_cons, ih, h, List.map_cons, List.sum_cons, add_assoc]

theorem sum_map_range (f : Nat → R) (n : Nat) : ((List.range n).map f).sum = ∑ i ∈ range n, f i := by
  induction n with
  | zero => simp
  | succ n ih => rw [List.range_succ, List.map_append, List.sum_append, ih, Finset.sum_range_succ]; simp

theorem addAt_eq (y : Nat → R) (p : Nat) (v : R) (n : Nat) :
    addAt y p v n = y n + (if n = p then v else 0) := by
  unfold addAt; split <;> simp

theorem spmv_eq (values : Nat → R) (rb re indices : Nat → Nat) (x : Nat → R) (bs0 bs1 nrows : Nat)
    (y : Nat → R) (n : Nat) :
    spmv values rb re indices x bs0 bs1 nrows y n = y n + ∑ k0 ∈ range bs0, ∑ i ∈ range nrows,
      if n = i * bs0 + k0 then ∑ j ∈ Ico (rb i) (re i), ∑ k1 ∈ range bs1,
        values (j * bs0 * bs1 + k0 * bs1 + k1) * x (indices j * bs1 + k1) else 0 := by
  unfold spmv
  simp only [foldl_range_sum, zero_add]
  rw [foldl_add_fn _ (fun k0 n => ∑ i ∈ range nrows,
      if n = i * bs0 + k0 then ∑ j ∈ Ico (rb i) (re i), ∑ k1 ∈ range bs1,
        values (j * bs0 * bs1 + k0 * bs1 + k1) * x (indices j * bs1 + k1) else 0), sum_map_range]
  intro y k0 n
  rw [foldl_add_fn _ (fun i n => 
      if n = i * bs0 + k0 then ∑ j ∈ Ico (rb i) (re i), ∑ k1 ∈ range bs1,
        values (j * bs0 * bs1 + k0 * bs1 + k1) * x (indices j * bs1 + k1) else 0), sum_map_range]
  intro y i n
  rw [addAt_eq]
  simp only [Finset.sum_Ico_eq_sum_range]

theorem spmvT_eq (values : Nat → R) (rb re indices : Nat → Nat) (x : Nat → R) (bs0 bs1 nrows : Nat)
    (y : Nat → R) (n : Nat) :
    spmvT values rb re indices x bs0 bs1 nrows y n = y n + ∑ k0 ∈ range bs0, ∑ i ∈ range nrows,
      ∑ j ∈ Ico (rb i) (re i), ∑ k1 ∈ range bs1,
        if n = indices j * bs1 + k1 then values (j * bs0 * bs1 + k0 * bs1 + k1) * x (i * bs0 + k0) else 0 := by
  unfold spmvT
  rw [foldl_add_fn _ (fun k0 n => ∑ i ∈ range nrows, ∑ j ∈ Ico (rb i) (re i), ∑ k1 ∈ range bs1,
        if n = indices j * bs1 + k1 then values (j * bs0 * bs1 + k0 * bs1 + k1) * x (i * bs0 + k0) else 0),
    sum_map_range]
  intro y k0 n
  rw [foldl_add_fn _ (fun i n => ∑ j ∈ Ico (rb i) (re i), ∑ k1 ∈ range bs1,
        if n = indices j * bs1 + k1 then values (j * bs0 * bs1 + k0 * bs1 + k1) * x (i * bs0 + k0) else 0),
    sum_map_range]
  intro y i n
  simp only
  rw [foldl_add_fn _ (fun t n => ∑ k1 ∈ range bs1,
        if n = indices (rb i + t) * bs1 + k1 then
          values ((rb i + t) * bs0 * bs1 + k0 * bs1 + k1) * x (i * bs0 + k0) else 0),
    sum_map_range, Finset.sum_Ico_eq_sum_range]
  intro y t n
  rw [foldl_add_fn _ (fun k1 n => 
        if n = indices (rb i + t) * bs1 + k1 then
          values ((rb i + t) * bs0 * bs1 + k0 * bs1 + k1) * x (i * bs0 + k0) else 0),
    sum_map_range]
  intro y k1 n
  rw [addAt_eq]

/-- Picking one (row, component) out of the double sum. -/
theorem pick_sum (bs0 nrows i0 k00 : Nat) (hi : i0 < nrows) (hk : k00 < bs0) (f : Nat → Nat → R) :
    ∑ k0 ∈ range bs0, ∑ i ∈ range nrows, (if i0 * bs0 + k00 = i * bs0 + k0 then f k0 i else 0) = f k00 i0 := by
  rw [Finset.sum_eq_single k00, Finset.sum_eq_single i0]
  · simp
  · intro i _ hne
    rw [if_neg]
    intro h
    exact hne ((Csr.digits2 hk hk h).1.symm)
  · intro h; exact absurd (Finset.mem_range.mpr hi) h
  · intro k hk' hne
    apply Finset.sum_eq_zero
    intro i _
    rw [if_neg]
    intro h
    exact hne ((Csr.digits2 hk (Finset.mem_range.mp hk') h).2.symm)
  · intro h; exact absurd (Finset.mem_range.mpr hk) h

omit [CommSemiring R] in
/-- The local value read for column `c` after the refresh is the global value. -/
theorem refreshed (w : World) (hw : w.Valid) (bs1 : Nat) (x : Nat → Nat → R) (X : Nat → R)
    (hX : Represents w bs1 x X) (r : Nat) (hr : r < w.P) (c k1 : Nat) (hk : k1 < bs1)
    (hc : c < w.size r + (w.ghosts r).length) :
    ∃ G, (w.map r).localToGlobal c = some G ∧ G < ∑ q ∈ range w.P, w.size q ∧
      scatterFwd w bs1 x r (c * bs1 + k1) = X (bs1 * G + k1) := by
  obtain ⟨hg, ho⟩ := C10_forward_scatter w hw bs1 x r hr
  have hsl : (w.map r).sizeLocal = w.size r := by simp [World.map, IndexMap.build, IndexMap.Map.sizeLocal]
  have htot : ∀ q, q < w.P → w.r0 q + w.size q ≤ ∑ q ∈ range w.P, w.size q := by
    intro q hq
    have : ∀ c : Nat → Nat, ∀ P, Offsets.excl c P = ∑ r ∈ range P, c r := by
      intro c P
      induction P with
      | zero => simp
      | succ P ih => rw [Offsets.excl_succ, ih, Finset.sum_range_succ]
    rw [← this]
    unfold World.r0
    rw [← Offsets.excl_succ]
    exact Offsets.excl_mono w.size (by omega)
  unfold IndexMap.Map.localToGlobal
  rw [hsl]
  by_cases h : c < w.size r
  · rw [if_pos h]
    refine ⟨_, rfl, ?_, ?_⟩
    · have := htot r hr
      show w.r0 r + c < _
      omega
    · have hlt : c * bs1 + k1 < bs1 * w.size r := by
        have : (c + 1) * bs1 ≤ w.size r * bs1 := Nat.mul_le_mul_right _ h
        rw [Nat.add_mul, Nat.one_mul] at this
        rw [Nat.mul_comm bs1]; omega
      rw [ho _ hlt, ← hX r hr _ hlt]
      congr 1
      show _ = bs1 * (w.r0 r + c) + k1
      ring
  · rw [if_neg h]
    have hl : c - w.size r < (w.ghosts r).length := by omega
    have hlo := hw.len r hr
    have e1 : (w.ghosts r)[c - w.size r]? = some (w.ghosts r)[c - w.size r] := List.getElem?_eq_getElem hl
    have e2 : (w.owners r)[c - w.size r]? = some (w.owners r)[c - w.size r] :=
      List.getElem?_eq_getElem (by omega)
    obtain ⟨hq, _, hlo, hhi⟩ := hw.owner r hr _ _ _ e2 e1
    refine ⟨_, e1, lt_of_lt_of_le hhi (htot _ hq), ?_⟩
    have := hg _ _ _ e2 e1 k1 hk
    have hpos : c * bs1 + k1 = bs1 * w.size r + ((c - w.size r) * bs1 + k1) := by
      obtain ⟨d, rfl⟩ : ∃ d, c = w.size r + d := ⟨c - w.size r, by omega⟩
      rw [Nat.add_sub_cancel_left]; ring
    rw [hpos, this]
    set G := (w.ghosts r)[c - w.size r]
    set q := (w.owners r)[c - w.size r]
    have hlt : (G - w.r0 q) * bs1 + k1 < bs1 * w.size q := by
      have : (G - w.r0 q + 1) * bs1 ≤ w.size q * bs1 := Nat.mul_le_mul_right _ (by omega)
      rw [Nat.add_mul, Nat.one_mul] at this
      rw [Nat.mul_comm bs1]; omega
    rw [← hX q hq _ hlt]
    congr 1
    obtain ⟨d, hd⟩ : ∃ d, G = w.r0 q + d := ⟨G - w.r0 q, by omega⟩
    rw [hd, Nat.add_sub_cancel_left]; ring

/-- C19, `mult`: on owned rows `y' = y + A X`, where `X` is the global vector stored in the
owned parts of `x` (whatever its ghosts were); other entries of `y` are unchanged. -/
theorem C19_mult (w : World) (hw : w.Valid) (bs0 bs1 : Nat) (A : Nat → Mat R) (x y : Nat → Nat → R)
    (X : Nat → R) (hX : Represents w bs1 x X) (r : Nat) (hr : r < w.P) (hA : MatOk w r (A r)) :
    (∀ i, i < (A r).nrows → ∀ k0, k0 < bs0 →
      mult w bs0 bs1 A x y r (i * bs0 + k0) = y r (i * bs0 + k0) +
        ∑ G ∈ range (∑ q ∈ range w.P, w.size q), ∑ k1 ∈ range bs1,
          entry w bs0 bs1 r (A r) i k0 G k1 * X (bs1 * G + k1)) ∧
    (∀ n, bs0 * (A r).nrows ≤ n → mult w bs0 bs1 A x y r n = y r n) := by
  constructor
  · intro i hi k0 hk0
    unfold mult
    rw [spmv_eq, spmv_eq, pick_sum bs0 _ i k0 hi hk0
        (fun k0 i => ∑ j ∈ Ico ((A r).offDiag i) ((A r).rowPtr (i + 1)), ∑ k1 ∈ range bs1,
          (A r).values (j * bs0 * bs1 + k0 * bs1 + k1) * scatterFwd w bs1 x r ((A r).cols j * bs1 + k1)),
      pick_sum bs0 _ i k0 hi hk0
        (fun k0 i => ∑ j ∈ Ico ((A r).rowPtr i) ((A r).offDiag i), ∑ k1 ∈ range bs1,
          (A r).values (j * bs0 * bs1 + k0 * bs1 + k1) * x r ((A r).cols j * bs1 + k1)), add_assoc]
    congr 1
    -- the diagonal stage may equally read the refreshed array
    have hd : ∑ j ∈ Ico ((A r).rowPtr i) ((A r).offDiag i), ∑ k1 ∈ range bs1,
          (A r).values (j * bs0 * bs1 + k0 * bs1 + k1) * x r ((A r).cols j * bs1 + k1) =
        ∑ j ∈ Ico ((A r).rowPtr i) ((A r).offDiag i), ∑ k1 ∈ range bs1,
          (A r).values (j * bs0 * bs1 + k0 * bs1 + k1) * scatterFwd w bs1 x r ((A r).cols j * bs1 + k1) := by
      apply Finset.sum_congr rfl; intro j hj
      apply Finset.sum_congr rfl; intro k1 hk1
      rw [Finset.mem_Ico] at hj
      rw [Finset.mem_range] at hk1
      have hc := hA.diag i hi j hj.1 hj.2
      rw [(C10_forward_scatter w hw bs1 x r hr).2]
      have : ((A r).cols j + 1) * bs1 ≤ w.size r * bs1 := Nat.mul_le_mul_right _ hc
      rw [Nat.add_mul, Nat.one_mul] at this
      rw [Nat.mul_comm bs1]; omega
    rw [hd, Finset.sum_Ico_consecutive _ (hA.split i hi).1 (hA.split i hi).2]
    -- sum over global columns
    unfold entry
    simp only [Finset.sum_mul]
    have hsw : ∑ G ∈ range (∑ q ∈ range w.P, w.size q), ∑ k1 ∈ range bs1,
        ∑ j ∈ Ico ((A r).rowPtr i) ((A r).rowPtr (i + 1)),
          (if (w.map r).localToGlobal ((A r).cols j) = some G then
            (A r).values (j * bs0 * bs1 + k0 * bs1 + k1) else 0) * X (bs1 * G + k1) =
        ∑ j ∈ Ico ((A r).rowPtr i) ((A r).rowPtr (i + 1)), ∑ k1 ∈ range bs1,
          ∑ G ∈ range (∑ q ∈ range w.P, w.size q),
          (if (w.map r).localToGlobal ((A r).cols j) = some G then
            (A r).values (j * bs0 * bs1 + k0 * bs1 + k1) else 0) * X (bs1 * G + k1) := by
      rw [Finset.sum_comm]
      simp only [Finset.sum_comm (s := range (∑ q ∈ range w.P, w.size q))]
      rw [Finset.sum_comm]
    rw [hsw]
    apply Finset.sum_congr rfl; intro j hj
    apply Finset.sum_congr rfl; intro k1 hk1
    rw [Finset.mem_Ico] at hj
    rw [Finset.mem_range] at hk1
    have hc : (A r).cols j < w.size r + (w.ghosts r).length := by
      rcases Nat.lt_or_ge j ((A r).offDiag i) with h | h
      · have := hA.diag i hi j hj.1 h; omega
      · exact (hA.off i hi j h hj.2).2
    obtain ⟨G, e1, e2, e3⟩ := refreshed w hw bs1 x X hX r hr _ k1 hk1 hc
    rw [Finset.sum_eq_single G]
    · rw [if_pos e1, e3]
    · intro G' _ hne
      rw [if_neg (by rw [e1]; simpa using hne.symm), zero_mul]
    · intro h; exact absurd (Finset.mem_range.mpr e2) h
  · intro n hn
    unfold mult
    have hz : ∀ f : Nat → Nat → R, ∑ k0 ∈ range bs0, ∑ i ∈ range (A r).nrows,
        (if n = i * bs0 + k0 then f k0 i else 0) = 0 := by
      intro f
      apply Finset.sum_eq_zero; intro k0 hk
      apply Finset.sum_eq_zero; intro i hi
      rw [Finset.mem_range] at hk hi
      rw [if_neg]
      have : (i + 1) * bs0 ≤ (A r).nrows * bs0 := Nat.mul_le_mul_right _ hi
      rw [Nat.add_mul, Nat.one_mul] at this
      rw [Nat.mul_comm] at hn
      omega
    rw [spmv_eq, spmv_eq, hz, hz, add_zero, add_zero]

/-- `spmvT` at component `k1` of local column `c`. -/
theorem spmvT_at (values : Nat → R) (rb re indices : Nat → Nat) (x : Nat → R) (bs0 bs1 nrows : Nat)
    (y : Nat → R) (c k1 : Nat) (hk1 : k1 < bs1) :
    spmvT values rb re indices x bs0 bs1 nrows y (c * bs1 + k1) = y (c * bs1 + k1) +
      ∑ i ∈ range nrows, ∑ k0 ∈ range bs0, ∑ j ∈ Ico (rb i) (re i),
        if indices j = c then values (j * bs0 * bs1 + k0 * bs1 + k1) * x (i * bs0 + k0) else 0 := by
  rw [spmvT_eq, Finset.sum_comm]
  congr 1
  apply Finset.sum_congr rfl; intro i _
  apply Finset.sum_congr rfl; intro k0 _
  apply Finset.sum_congr rfl; intro j _
  rw [Finset.sum_eq_single k1]
  · apply if_congr _ rfl rfl
    constructor
    · intro h; exact ((Csr.digits2 hk1 hk1 h).1).symm
    · intro h; rw [h]
  · intro k hk hne
    rw [if_neg]
    intro h
    exact hne ((Csr.digits2 hk1 (Finset.mem_range.mp hk) h).2).symm
  · intro h; exact absurd (Finset.mem_range.mpr hk1) h

/-- Part of the transposed product from entries `[rb i, re i)` of the rows of rank `q` whose
column has global index `G`. -/
def part (w : World) (bs0 bs1 q : Nat) (A : Mat R) (x : Nat → R) (rb re : Nat → Nat) (G k1 : Nat) : R :=
  ∑ i ∈ range A.nrows, ∑ k0 ∈ range bs0, ∑ j ∈ Ico (rb i) (re i),
    if (w.map q).localToGlobal (A.cols j) = some G then
      A.values (j * bs0 * bs1 + k0 * bs1 + k1) * x (i * bs0 + k0) else 0

theorem l2g_owned (w : World) (q c : Nat) (h : c < w.size q) :
    (w.map q).localToGlobal c = some (w.r0 q + c) := by
  simp [World.map, IndexMap.build, IndexMap.Map.localToGlobal, IndexMap.Map.sizeLocal, h, World.r0]

theorem l2g_ghost (w : World) (q c : Nat) (h : w.size q ≤ c) :
    (w.map q).localToGlobal c = (w.ghosts q)[c - w.size q]? := by
  simp [World.map, IndexMap.build, IndexMap.Map.localToGlobal, IndexMap.Map.sizeLocal, Nat.not_lt.mpr h]

/-- C19, `multT`: the owned entry of block column `i`, component `k1` on rank `r` receives
`A^T x` summed over the owned rows of *all* ranks, exactly once. -/
theorem C19_multT (w : World) (hw : w.Valid) (bs0 bs1 : Nat) (A : Nat → Mat R) (x y : Nat → Nat → R)
    (hA : ∀ q, q < w.P → MatOk w q (A q)) (r : Nat) (hr : r < w.P)
    (i : Nat) (hi : i < w.size r) (k1 : Nat) (hk1 : k1 < bs1) :
    multT w bs0 bs1 A x y r (i * bs1 + k1) = y r (i * bs1 + k1) +
      ∑ q ∈ range w.P, ∑ i' ∈ range (A q).nrows, ∑ k0 ∈ range bs0,
        entry w bs0 bs1 q (A q) i' k0 (w.r0 r + i) k1 * x q (i' * bs0 + k0) := by
  -- the right-hand side by diagonal and off-diagonal parts
  have hsplit : ∀ q ∈ range w.P, ∑ i' ∈ range (A q).nrows, ∑ k0 ∈ range bs0,
        entry w bs0 bs1 q (A q) i' k0 (w.r0 r + i) k1 * x q (i' * bs0 + k0) =
      part w bs0 bs1 q (A q) (x q) (A q).rowPtr (A q).offDiag (w.r0 r + i) k1 +
      part w bs0 bs1 q (A q) (x q) (A q).offDiag (fun i => (A q).rowPtr (i + 1)) (w.r0 r + i) k1 := by
    intro q hq
    rw [Finset.mem_range] at hq
    unfold part entry
    rw [← Finset.sum_add_distrib]
    apply Finset.sum_congr rfl; intro i' hi'
    rw [Finset.mem_range] at hi'
    rw [← Finset.sum_add_distrib]
    apply Finset.sum_congr rfl; intro k0 _
    rw [Finset.sum_Ico_consecutive _ ((hA q hq).split i' hi').1 ((hA q hq).split i' hi').2, Finset.sum_mul]
    apply Finset.sum_congr rfl; intro j _
    rw [ite_mul, zero_mul]
  rw [Finset.sum_congr rfl hsplit, Finset.sum_add_distrib]
  -- diagonal parts of other ranks vanish
  have hdiag : ∑ q ∈ range w.P, part w bs0 bs1 q (A q) (x q) (A q).rowPtr (A q).offDiag (w.r0 r + i) k1 =
      part w bs0 bs1 r (A r) (x r) (A r).rowPtr (A r).offDiag (w.r0 r + i) k1 := by
    apply Finset.sum_eq_single r
    · intro q hq hne
      rw [Finset.mem_range] at hq
      unfold part
      apply Finset.sum_eq_zero; intro i' hi'
      apply Finset.sum_eq_zero; intro k0 _
      apply Finset.sum_eq_zero; intro j hj
      rw [Finset.mem_Ico] at hj
      rw [Finset.mem_range] at hi'
      have hc := (hA q hq).diag i' hi' j hj.1 hj.2
      rw [l2g_owned w q _ hc, if_neg]
      intro h
      have h' : w.r0 q + (A q).cols j = w.r0 r + i := Option.some.inj h
      exact hne (range_unique w (g := w.r0 r + i) (by omega) (by omega))
    · intro h; exact absurd (Finset.mem_range.mpr hr) h
  -- value of the ghost contribution of rank q
  have hghost : ∀ q ∈ range w.P, ((ghostAt w q (w.r0 r + i)).map (fun k =>
        multTGhost w bs0 bs1 A x y q (bs1 * w.size q + (k * bs1 + k1)))).getD 0 =
      part w bs0 bs1 q (A q) (x q) (A q).offDiag (fun i => (A q).rowPtr (i + 1)) (w.r0 r + i) k1 := by
    intro q hq
    rw [Finset.mem_range] at hq
    cases hf : ghostAt w q (w.r0 r + i) with
    | none =>
      simp only [Option.map_none, Option.getD_none]
      symm
      unfold part
      apply Finset.sum_eq_zero; intro i' hi'
      apply Finset.sum_eq_zero; intro k0 _
      apply Finset.sum_eq_zero; intro j hj
      rw [Finset.mem_Ico] at hj
      rw [Finset.mem_range] at hi'
      have hc := (hA q hq).off i' hi' j hj.1 hj.2
      rw [l2g_ghost w q _ hc.1, if_neg]
      intro h
      rw [ghostAt_of w q _ _ (hw.nodup q hq) h] at hf
      cases hf
    | some k =>
      have hk := ghostAt_some w q _ k hf
      simp only [Option.map_some, Option.getD_some]
      have hpos : bs1 * w.size q + (k * bs1 + k1) = (w.size q + k) * bs1 + k1 := by ring
      unfold multTGhost
      rw [hpos, spmvT_at _ _ _ _ _ _ _ _ _ _ _ hk1, if_neg, zero_add]
      · unfold part
        apply Finset.sum_congr rfl; intro i' hi'
        apply Finset.sum_congr rfl; intro k0 _
        apply Finset.sum_congr rfl; intro j hj
        rw [Finset.mem_Ico] at hj
        rw [Finset.mem_range] at hi'
        have hc := (hA q hq).off i' hi' j hj.1 hj.2
        apply if_congr _ rfl rfl
        rw [l2g_ghost w q _ hc.1]
        constructor
        · intro h; rw [h, Nat.add_sub_cancel_left]; exact hk
        · intro h
          have h1 := ghostAt_of w q _ _ (hw.nodup q hq) h
          rw [hf] at h1
          have := Option.some.inj h1
          omega
      · have : w.size q * bs1 ≤ (w.size q + k) * bs1 := Nat.mul_le_mul_right _ (by omega)
        omega
  -- the off-diagonal stage does not write owned entries of rank r
  have hown : multTGhost w bs0 bs1 A x y r (i * bs1 + k1) = y r (i * bs1 + k1) := by
    unfold multTGhost
    rw [spmvT_at _ _ _ _ _ _ _ _ _ _ _ hk1, if_pos]
    · rw [Finset.sum_eq_zero, add_zero]
      intro i' hi'
      apply Finset.sum_eq_zero; intro k0 _
      apply Finset.sum_eq_zero; intro j hj
      rw [Finset.mem_Ico] at hj
      rw [Finset.mem_range] at hi'
      have hc := (hA r hr).off i' hi' j hj.1 hj.2
      rw [if_neg (by omega)]
    · have : (i + 1) * bs1 ≤ w.size r * bs1 := Nat.mul_le_mul_right _ hi
      rw [Nat.add_mul, Nat.one_mul] at this
      omega
  unfold multT
  rw [spmvT_at _ _ _ _ _ _ _ _ _ _ _ hk1, C11_reverse_scatter w hw bs1 (· + ·) _ r i k1 hi hk1, foldl_add_eq,
    sum_filterMap_range, Finset.sum_congr rfl hghost, hown, hdiag, add_assoc, add_comm (∑ q ∈ range w.P, _)]
  congr 2
  unfold part
  apply Finset.sum_congr rfl; intro i' hi'
  apply Finset.sum_congr rfl; intro k0 _
  apply Finset.sum_congr rfl; intro j hj
  rw [Finset.mem_Ico] at hj
  rw [Finset.mem_range] at hi'
  have hc := (hA r hr).diag i' hi' j hj.1 hj.2
  apply if_congr _ rfl rfl
  rw [l2g_owned w r _ hc]
  constructor
  · intro h; rw [h]
  · intro h; have := Option.some.inj h; omega

/-- A matrix over the column map `exWorld`: every rank has one row with an entry in its first
owned column and, on ranks 0 and 2, one in its second ghost column; 1x2 blocks. -/
def exMat (r : Nat) : Mat Int where
  nrows := 1
  rowPtr := fun i => if i = 0 then 0 else if r = 1 then 1 else 2
  offDiag := fun _ => 1
  cols := fun j => if j = 0 then 0 else 3
  values := fun n => (n : Int) + 1

example : ∀ r, r < exWorld.P → MatOk exWorld r (exMat r) := by
  intro r hr
  have hr' : r = 0 ∨ r = 1 ∨ r = 2 := by simp [exWorld] at hr; omega
  rcases hr' with h | h | h <;> subst h <;> constructor <;>
    intro i hi <;> (have : i = 0 := by simp [exMat] at hi; exact hi) <;> subst this <;>
    simp [exMat, exWorld] <;> intro j h1 h2 <;> try omega
  all_goals (have : j = 1 := by omega); subst this; simp

end Verif.Props
