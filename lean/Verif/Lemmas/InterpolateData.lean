import Verif.Lemmas.Interpolate
/-!
# Lemmas on interpolation of values
-/
namespace Verif.Interp
open Verif.Spec.Interp

variable {T : Type} [CommRing T]

/-! ## Entries of a lower triangle -/

theorem rowOf_succ (k : Nat) : rowOf (k + 1) = rowStep (rowOf k) (k + 1) := by
  rw [rowOf, List.range_succ, List.foldl_append]
  rfl

theorem rowOf_spec (k : Nat) : 2 * (rowOf k).2 = (rowOf k).1 * ((rowOf k).1 + 1) ∧ (rowOf k).2 ≤ k ∧ k ≤ (rowOf k).2 + (rowOf k).1 := by
  induction k with
  | zero => decide
  | succ k ih =>
    obtain ⟨h1, h2, h3⟩ := ih
    rw [rowOf_succ, rowStep]
    split
    · simp only
      refine ⟨?_, by omega, by omega⟩
      have : k + 1 = (rowOf k).2 + (rowOf k).1 + 1 := by omega
      rw [this]
      nlinarith
    · exact ⟨h1, by omega, by omega⟩

theorem matrixSize_sq (ms : Nat) : matrixSize (ms * ms) = ms := by
  unfold matrixSize
  have : (List.range (ms * ms + 1)).find? (fun m => decide (ms * ms ≤ m * m)) = some ms := by
    rw [List.find?_eq_some_iff_getElem]
    have hl : ms < (List.range (ms * ms + 1)).length := by
      rw [List.length_range]
      rcases Nat.eq_zero_or_pos ms with h | h
      · subst h; decide
      · nlinarith
    refine ⟨by simp, ms, hl, List.getElem_range .., ?_⟩
    · intro j hj
      simp only [List.getElem_range, Bool.not_eq_eq_eq_not, Bool.not_true, decide_eq_false_iff_not, not_le]
      nlinarith
  rw [this]
  rfl

theorem tri_lt {r s k ms bs : Nat} (h1 : 2 * s = r * (r + 1)) (h2 : s ≤ k) (h3 : k < bs) (h4 : 2 * bs = ms * (ms + 1)) : r < ms := by
  by_contra h
  have h : ms ≤ r := by omega
  have : ms * (ms + 1) ≤ r * (r + 1) := Nat.mul_le_mul h (by omega)
  omega

/-- The component of a block. -/
theorem pointRow_comp {e : Elem T} (h : ElemOk e) (hr : e.rvs = 1) {k : Nat} (hk : k < e.bs) : IsComp e k 0 (pointRow e e.vs k) ∧ pointRow e e.vs k < e.vs := by
  cases hs : e.symmetric with
  | false =>
    have hvs := h.vs hs
    simp only [IsComp, pointRow, hs, Bool.false_eq_true, if_false]
    refine ⟨by omega, ?_⟩
    rw [hvs, hr]
    omega
  | true =>
    obtain ⟨_, ms, hvs, hbs⟩ := h.sym hs
    obtain ⟨h1, h2, h3⟩ := rowOf_spec k
    have hlt := tri_lt h1 h2 hk hbs
    have hrow : pointRow e e.vs k = (rowOf k).1 * ms + (k - (rowOf k).2) := by
      rw [pointRow, if_pos hs, hvs, matrixSize_sq]
      omega
    rw [hrow]
    refine ⟨?_, ?_⟩
    · simp only [IsComp, hs, if_true]
      exact ⟨(rowOf k).1, k - (rowOf k).2, ms, by omega, hlt, hvs, by omega, trivial, rfl⟩
    · rw [hvs]
      have : k - (rowOf k).2 < ms := by omega
      nlinarith

/-! ## Sums and segments -/

theorem sum_split (n m : Nat) (g : Nat → T) : ∑ j ∈ Finset.range (n * m), g j = ∑ a ∈ Finset.range m, ∑ b ∈ Finset.range n, g (a * n + b) := by
  induction m with
  | zero => simp
  | succ m ih =>
    rw [Nat.mul_succ, Finset.sum_range_add, ih, Finset.sum_range_succ]
    congr 1
    refine Finset.sum_congr rfl fun b _ => ?_
    rw [mul_comm n m]

omit [CommRing T] in
theorem copySeg_ok {f : List T} {s n : Nat} (h : s + n ≤ f.length) : copySeg f s n = some ((f.drop s).take n) := if_pos h

theorem seg_getD (f : List T) (s n i : Nat) (hi : i < n) : ((f.drop s).take n).getD i 0 = f.getD (s + i) 0 := by
  simp only [List.getD_eq_getElem?_getD]
  rw [List.getElem?_take_of_lt hi, List.getElem?_drop]

theorem flatten_range_getD (r n : Nat) (g : Nat → List T) (hg : ∀ i < r, (g i).length = n) (m p : Nat) (hm : m < r) (hp : p < n) :
    (((List.range r).map g).flatten).getD (m * n + p) 0 = (g m).getD p 0 := by
  induction r with
  | zero => omega
  | succ r ih =>
    have hlen : ∀ r' ≤ r, (((List.range r').map g).flatten).length = r' * n := by
      intro r' hr'
      induction r' with
      | zero => simp
      | succ r' ih' =>
        rw [List.range_succ, List.map_append, List.flatten_append, List.length_append, ih' (by omega)]
        simp [hg r' (by omega), Nat.succ_mul]
    rw [List.range_succ, List.map_append, List.flatten_append, List.getD_eq_getElem?_getD]
    rcases Nat.lt_or_ge m r with h | h
    · rw [List.getElem?_append_left (by rw [hlen r le_rfl]; nlinarith), ← List.getD_eq_getElem?_getD]
      exact ih (fun i hi => hg i (by omega)) h
    · have hmr : m = r := by omega
      subst hmr
      rw [List.getElem?_append_right (by rw [hlen m le_rfl]; omega), hlen m le_rfl, Nat.add_sub_cancel_left]
      simp [List.getD_eq_getElem?_getD]

/-- Entries of values of `cells` cells with `npts` points. -/
theorem entry_lt {vs cells npts m n p : Nat} (hm : m < vs) (hn : n < cells) (hp : p < npts) : m * (cells * npts) + n * npts + p < vs * (cells * npts) := by
  have h1 : n * npts + p < cells * npts := by nlinarith
  have h2 : (m + 1) * (cells * npts) ≤ vs * (cells * npts) := Nat.mul_le_mul_right _ hm
  nlinarith

theorem seg_le {vs cells npts m n : Nat} (hm : m < vs) (hn : n < cells) : m * (cells * npts) + n * npts + npts ≤ vs * (cells * npts) := by
  have h1 : n * npts + npts ≤ cells * npts := by nlinarith
  have h2 : (m + 1) * (cells * npts) ≤ vs * (cells * npts) := Nat.mul_le_mul_right _ hm
  nlinarith

/-! ## The three kinds of elements -/

/-- Value of component `m` at point `p` of the `n`-th cell. -/
def DataVal (f : List T) (N npts n p m : Nat) (y : T) : Prop := f[m * N + n * npts + p]? = some y

variable {e : Elem T} (he : ElemOk e) {dm : DMap} {cells : List Nat} {f u : List T}

theorem zipIdx_get {l : List Nat} {n : Nat} {a : Nat × Nat} (h : l.zipIdx[n]? = some a) : l[n]? = some a.1 ∧ a.2 = n := by
  rw [List.getElem?_zipIdx] at h
  obtain ⟨x, hx, rfl⟩ := Option.map_eq_some_iff.mp h
  exact ⟨hx, by simp⟩

theorem zipIdx_mem {l : List Nat} {a : Nat × Nat} (h : a ∈ l.zipIdx) : l[a.2]? = some a.1 ∧ a.2 < l.length := by
  obtain ⟨n, hn⟩ := List.mem_iff_getElem?.mp h
  obtain ⟨h1, h2⟩ := zipIdx_get hn
  rw [h2]
  exact ⟨h1, (List.getElem?_eq_some_iff.mp h1).1⟩

/-- From the loop over cells to the statement on the result. -/
theorem sets_of {N : Nat} (step : List T → Nat × Nat → Option (List T)) (v : Nat × Nat → Nat → T) (val : Nat → Nat → Nat → T → Prop)
    (hu : u.length = N)
    (hstep : ∀ a ∈ cells.zipIdx, ∀ u : List T, u.length = N → ∃ u', step u a = some u' ∧ u'.length = N ∧
      (∀ g, (∀ j, flat dm a.1 j ≠ some g) → u'[g]? = u[g]?) ∧ ∀ j g, flat dm a.1 j = some g → u'[g]? = some (v a j))
    (hval : ∀ a ∈ cells.zipIdx, ∀ j g, flat dm a.1 j = some g → val a.2 a.1 j (v a j)) :
    ∃ u', cells.zipIdx.foldlM step u = some u' ∧ Sets dm cells id u u' val := by
  obtain ⟨u', h1, h2, h3, h4⟩ := cells_result (dm := dm) cells.zipIdx Prod.fst step v hstep u hu
  refine ⟨u', h1, h2.trans hu.symm, ?_, ?_⟩
  · intro g hg
    exact h3 g fun a ha j => hg a.1 (List.mem_of_getElem? (zipIdx_mem ha).1) j
  · intro n c j g hc hg hl
    have hz : cells.zipIdx[n]? = some (c, n) := by simp [List.getElem?_zipIdx, hc]
    refine ⟨v (c, n) j, hval (c, n) (List.mem_of_getElem? hz) j g hg, h4 n (c, n) j g hz hg ?_⟩
    intro n' a' j' hn ha
    exact hl n' a'.1 j' hn (zipIdx_get ha).1

omit [CommRing T] in
theorem flat_total {n c : Nat} (h : DofsOk dm (e.bs * e.dim) n c) (hb : 0 < e.bs) {j g : Nat} (hg : flat dm c j = some g) : j % e.bs < e.bs ∧ j / e.bs < e.dim := by
  have := (flat_some h).mpr ⟨g, hg⟩
  exact ⟨Nat.mod_lt _ hb, by rwa [Nat.div_lt_iff_lt_mul hb, mul_comm]⟩

include he

theorem pointEvaluation_ok (hm : e.mapType = 0) (hi : e.interpIdent = true) (hd : ∀ c ∈ cells, DofsOk dm (e.bs * e.dim) u.length c)
    (hf : f.length = e.vs * (cells.length * e.npts)) :
    ∃ u', pointEvaluation e dm cells f e.vs (cells.length * e.npts) u = some u' ∧
      Sets dm cells id u u' (fun n c j y => IsDof e c c (DataVal f (cells.length * e.npts) e.npts n) j y) := by
  obtain ⟨hn, hr, hPi⟩ := he.point hi
  refine sets_of _ (fun a j => e.invTransT a.1 (fun i => f.getD (pointRow e e.vs (j % e.bs) * (cells.length * e.npts) + a.2 * e.npts + i) 0) (j / e.bs)) _ rfl ?_ ?_
  · intro a ha u1 hu1
    obtain ⟨hc, hlt⟩ := zipIdx_mem ha
    have hdc := hd a.1 (List.mem_of_getElem? hc)
    obtain ⟨ds, hds, _⟩ := hdc.2
    rw [hds, Option.bind_some]
    obtain ⟨u', h1, h2, h3, h4⟩ := blocks_result e hdc hds he.bs
      (fun u k => (copySeg f (pointRow e e.vs k * (cells.length * e.npts) + a.2 * e.dim) e.dim).bind fun seg => writeBlock e dm ds k (e.invTransT a.1 fun i => seg.getD i 0) u)
      (fun k => e.invTransT a.1 fun i => ((f.drop (pointRow e e.vs k * (cells.length * e.npts) + a.2 * e.dim)).take e.dim).getD i 0) (by
        intro k hk u
        have := seg_le (npts := e.npts) (pointRow_comp he hr hk).2 hlt
        rw [copySeg_ok (by rw [hf, ← hn]; exact this), Option.bind_some]) u1 hu1
    refine ⟨u', h1, h2, h3, ?_⟩
    intro j g hg
    rw [h4 j g hg]
    congr 1
    refine he.transLocal _ _ _ ?_ _ (flat_total hdc he.bs hg).2
    intro i hi
    rw [seg_getD _ _ _ _ hi, hn]
  · intro a ha j g hg
    obtain ⟨hc, hlt⟩ := zipIdx_mem ha
    have hdc := hd a.1 (List.mem_of_getElem? hc)
    obtain ⟨hk, hj⟩ := flat_total hdc he.bs hg
    obtain ⟨q1, q2⟩ := pointRow_comp he hr hk
    refine ⟨fun p _ => f.getD (pointRow e e.vs (j % e.bs) * (cells.length * e.npts) + a.2 * e.npts + p) 0, ?_, ?_⟩
    · intro p hp m' hm'
      have hm0 : m' = 0 := by omega
      subst hm0
      refine ⟨_, q1, ?_⟩
      have := entry_lt q2 hlt hp
      rw [← hf] at this
      simp [DataVal, this]
    · refine he.transLocal _ _ _ ?_ _ hj
      intro i hi
      rw [hr, Finset.sum_range_one, Finset.sum_eq_single i]
      · rw [he.ident hm, Nat.zero_mul, Nat.zero_add, hPi i hi i hi, if_pos rfl, one_mul]
      · intro p hp hne
        have hp := Finset.mem_range.mp hp
        rw [Nat.zero_mul, Nat.zero_add, hPi i hi p (by omega), if_neg (Ne.symm hne), zero_mul]
      · intro h
        exact absurd (Finset.mem_range.mpr (by omega)) h

omit he in
theorem apply_one (e : Elem T) (ext0 ext1 n : Nat) (data : Nat → Nat → T) (h0 : ext0 * ext1 = e.piCols) (h1 : e.dim ≤ n) :
    interpolationApply e ext0 ext1 data 1 n = some fun i => ∑ k ∈ Finset.range ext1, ∑ j ∈ Finset.range ext0, e.Pi i (k * ext0 + j) * data j k := by
  rw [interpolationApply, if_pos rfl, if_pos ⟨h0, h1⟩]
  congr 1
  funext i
  rw [foldl_sumTo, zero_add]

omit he in
theorem apply_block (e : Elem T) (ext0 n : Nat) (data : Nat → Nat → T) (hb : e.bs ≠ 1) (h0 : ext0 = e.piCols) (h1 : e.bs * e.dim ≤ n) :
    interpolationApply e ext0 e.bs data e.bs n = some fun q => ∑ j ∈ Finset.range ext0, e.Pi (q / e.bs) j * data j (q % e.bs) := by
  rw [interpolationApply, if_neg hb, if_pos ⟨h0, rfl, h1⟩]
  congr 1
  funext i
  rw [sumTo_eq, zero_add, h0]

theorem comp_lt (hs : e.symmetric = false) {k m : Nat} (hk : k < e.bs) (hm : m < e.rvs) : m * e.bs + k < e.vs := by
  rw [he.vs hs]
  nlinarith

theorem identityMapped_ok (hm : e.mapType = 0) (hs : e.symmetric = false) (hd : ∀ c ∈ cells, DofsOk dm (e.bs * e.dim) u.length c)
    (hf : f.length = e.vs * (cells.length * e.npts)) :
    ∃ u', identityMapped e dm cells f (cells.length * e.npts) u = some u' ∧
      Sets dm cells id u u' (fun n c j y => IsDof e c c (DataVal f (cells.length * e.npts) e.npts n) j y) := by
  have hdiv : e.piCols / e.rvs = e.npts := by rw [he.cols, Nat.mul_div_cancel _ he.rvs]
  have hdiv2 : ∀ n, n * e.piCols / e.rvs = n * e.npts := fun n => by rw [he.cols, ← mul_assoc, Nat.mul_div_cancel _ he.rvs]
  have hcomp : ∀ k m, k < e.bs → m < e.rvs → m + k = m * e.bs + k := by
    intro k m hk hm
    rcases he.block with h | h
    · rw [h, mul_one]
    · have : m = 0 := by omega
      subst this; simp
  unfold identityMapped
  rw [if_neg (by simp [hs]), if_neg (by rcases he.block with h | h <;> omega)]
  simp only [hdiv, hdiv2]
  refine sets_of _ (fun a j => dofOf e a.1 a.1 (fun p m => f.getD ((m * e.bs + j % e.bs) * (cells.length * e.npts) + a.2 * e.npts + p) 0) (j / e.bs)) _ rfl ?_ ?_
  · intro a ha u1 hu1
    obtain ⟨hc, hlt⟩ := zipIdx_mem ha
    have hdc := hd a.1 (List.mem_of_getElem? hc)
    obtain ⟨ds, hds, _⟩ := hdc.2
    rw [hds, Option.bind_some]
    obtain ⟨u', h1, h2, h3, h4⟩ := blocks_result e hdc hds he.bs
      (fun u k => ((List.range e.rvs).mapM fun i => copySeg f ((i + k) * (cells.length * e.npts) + a.2 * e.npts) e.npts).bind fun segs =>
        (interpolationApply e e.piCols 1 (fun j _ => segs.flatten.getD j 0) 1 e.dim).bind fun co => writeBlock e dm ds k (e.invTransT a.1 co) u)
      (fun k => e.invTransT a.1 fun i => ∑ k' ∈ Finset.range 1, ∑ j ∈ Finset.range e.piCols, e.Pi i (k' * e.piCols + j) *
        (((List.range e.rvs).map fun i => (f.drop ((i + k) * (cells.length * e.npts) + a.2 * e.npts)).take e.npts).flatten.getD j 0)) (by
        intro k hk u
        rw [mapM_eq_map _ _ (fun i => (f.drop ((i + k) * (cells.length * e.npts) + a.2 * e.npts)).take e.npts) (by
          intro i hi
          have hi := List.mem_range.mp hi
          refine copySeg_ok ?_
          rw [hf, hcomp k i hk hi]
          exact seg_le (comp_lt he hs hk hi) hlt), Option.bind_some, apply_one e _ _ _ _ (by simp) le_rfl, Option.bind_some]) u1 hu1
    refine ⟨u', h1, h2, h3, ?_⟩
    intro j g hg
    rw [h4 j g hg]
    congr 1
    obtain ⟨hk, hj⟩ := flat_total hdc he.bs hg
    refine he.transLocal _ _ _ ?_ _ hj
    intro i hi
    rw [Finset.sum_range_one, he.cols, sum_split]
    refine Finset.sum_congr rfl fun m hm' => Finset.sum_congr rfl fun p hp => ?_
    have hm' := Finset.mem_range.mp hm'
    have hp := Finset.mem_range.mp hp
    rw [flatten_range_getD e.rvs e.npts _ ?_ m p hm' hp, seg_getD _ _ _ _ hp, he.ident hm, Nat.zero_mul, Nat.zero_add, hcomp _ _ hk hm']
    intro i hi
    rw [List.length_take, List.length_drop]
    have := seg_le (npts := e.npts) (comp_lt he hs hk hi) hlt
    rw [← hf, ← hcomp _ _ hk hi] at this
    omega
  · intro a ha j g hg
    obtain ⟨hc, hlt⟩ := zipIdx_mem ha
    have hdc := hd a.1 (List.mem_of_getElem? hc)
    obtain ⟨hk, hj⟩ := flat_total hdc he.bs hg
    refine ⟨_, ?_, rfl⟩
    intro p hp m' hm'
    refine ⟨m' * e.bs + j % e.bs, by simp [IsComp, hs], ?_⟩
    have := entry_lt (comp_lt he hs hk hm') hlt hp
    rw [← hf] at this
    simp [DataVal, this]

theorem piolaMapped_ok (hb : e.bs = 1) (hs : e.symmetric = false) (hp0 : e.npts ≠ 0) (hd : ∀ c ∈ cells, DofsOk dm (e.bs * e.dim) u.length c)
    (hf : f.length = e.vs * (cells.length * e.npts)) :
    ∃ u', piolaMapped e dm cells f (cells.length * e.npts) u = some u' ∧
      Sets dm cells id u u' (fun n c j y => IsDof e c c (DataVal f (cells.length * e.npts) e.npts n) j y) := by
  unfold piolaMapped
  rw [if_neg (by simp [hs, hp0])]
  refine sets_of _ (fun a j => dofOf e a.1 a.1 (fun p m => f.getD ((m * e.bs + j % e.bs) * (cells.length * e.npts) + a.2 * e.npts + p) 0) (j / e.bs)) _ rfl ?_ ?_
  · intro a ha u1 hu1
    obtain ⟨hc, hlt⟩ := zipIdx_mem ha
    have hdc := hd a.1 (List.mem_of_getElem? hc)
    obtain ⟨ds, hds, _⟩ := hdc.2
    rw [hds, Option.bind_some]
    have hk0 : ∀ k, k < e.bs → k = 0 := by omega
    obtain ⟨u', h1, h2, h3, h4⟩ := blocks_result e hdc hds he.bs
      (fun u k => ((List.range e.rvs).mapM fun m => copySeg f (cells.length * e.npts * (k * e.rvs + m) + a.2 * e.npts) e.npts).bind fun vals =>
        (interpolationApply e e.npts e.rvs (fun p m => e.pull a.1 p (fun m' => (vals.getD m' []).getD p 0) m) e.bs e.dim).bind fun co =>
        writeBlock e dm ds k (e.invTransT a.1 co) u)
      (fun k => e.invTransT a.1 fun i => ∑ m ∈ Finset.range e.rvs, ∑ p ∈ Finset.range e.npts, e.Pi i (m * e.npts + p) *
        e.pull a.1 p (fun m' => ((((List.range e.rvs).map fun m => (f.drop (cells.length * e.npts * (k * e.rvs + m) + a.2 * e.npts)).take e.npts)).getD m' []).getD p 0) m) (by
        intro k hk u
        have hk' := hk0 k hk
        subst hk'
        rw [mapM_eq_map _ _ (fun m => (f.drop (cells.length * e.npts * (0 * e.rvs + m) + a.2 * e.npts)).take e.npts) (by
          intro m hm
          have hm := List.mem_range.mp hm
          refine copySeg_ok ?_
          have := seg_le (npts := e.npts) (comp_lt he hs he.bs hm) hlt
          rw [hb] at this
          rw [hf]
          simpa [mul_comm] using this), Option.bind_some]
        rw [show interpolationApply e e.npts e.rvs _ e.bs e.dim = interpolationApply e e.npts e.rvs _ 1 e.dim from by rw [hb],
          apply_one e _ _ _ _ he.cols.symm le_rfl, Option.bind_some]) u1 hu1
    refine ⟨u', h1, h2, h3, ?_⟩
    intro j g hg
    rw [h4 j g hg]
    congr 1
    obtain ⟨hk, hj⟩ := flat_total hdc he.bs hg
    refine he.transLocal _ _ _ ?_ _ hj
    intro i hi
    refine Finset.sum_congr rfl fun m hm => Finset.sum_congr rfl fun p hp => ?_
    have hm := Finset.mem_range.mp hm
    have hp := Finset.mem_range.mp hp
    congr 1
    refine he.pullLocal _ _ _ _ ?_ _ hm
    intro m' hm'
    rw [hk0 _ hk, hb, show (((List.range e.rvs).map fun m => (f.drop (cells.length * e.npts * (0 * e.rvs + m) + a.2 * e.npts)).take e.npts)).getD m' [] =
      (f.drop (cells.length * e.npts * (0 * e.rvs + m') + a.2 * e.npts)).take e.npts by simp [hm'], seg_getD _ _ _ _ hp]
    congr 1
    ring
  · intro a ha j g hg
    obtain ⟨hc, hlt⟩ := zipIdx_mem ha
    have hdc := hd a.1 (List.mem_of_getElem? hc)
    obtain ⟨hk, hj⟩ := flat_total hdc he.bs hg
    refine ⟨_, ?_, rfl⟩
    intro p hp m' hm'
    refine ⟨m' * e.bs + j % e.bs, by simp [IsComp, hs], ?_⟩
    have := entry_lt (comp_lt he hs hk hm') hlt hp
    rw [← hf] at this
    simp [DataVal, this]

end Verif.Interp
