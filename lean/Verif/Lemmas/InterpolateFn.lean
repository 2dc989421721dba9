import Mathlib.Algebra.BigOperators.Ring.Finset
import Mathlib.Algebra.BigOperators.Group.Finset.Sigma
import Verif.Lemmas.InterpolateData
/-!
# Lemmas on interpolation of functions
-/
namespace Verif.Interp
open Verif.Spec.Interp

variable {T : Type} [CommRing T]

theorem zipIdx_range {l : List Nat} : l.zipIdx = (List.range l.length).map fun i => (l.getD i 0, i) := by
  refine List.ext_getElem? ?_
  intro i
  rw [List.getElem?_zipIdx, List.getElem?_map]
  by_cases hi : i < l.length
  · simp [hi]
  · simp [hi]

theorem flat_block {dm : DMap} {c : Nat} {ds : List Nat} (hb : 0 < dm.bs) (hds : dm.dofs[c]? = some ds) {i k : Nat} (hi : i < ds.length) (hk : k < dm.bs) :
    flat dm c (dm.bs * i + k) = some (dm.bs * ds.getD i 0 + k) := by
  simp only [flat, hds, Option.bind_some]
  rw [Nat.mul_add_div hb, Nat.div_eq_of_lt hk, Nat.add_zero, List.getElem?_eq_getElem hi, Nat.mul_add_mod, Nat.mod_eq_of_lt hk]
  simp [hi]

/-- From the loop over pairs of cells to the statement on the result. -/
theorem sets_of_pairs {N : Nat} {dm : DMap} {L : List (Nat × Nat)} {u : List T} (step : List T → Nat × Nat → Option (List T)) (v : Nat × Nat → Nat → T)
    (val : Nat → Nat × Nat → Nat → T → Prop) (hu : u.length = N)
    (hstep : ∀ a ∈ L, ∀ u : List T, u.length = N → ∃ u', step u a = some u' ∧ u'.length = N ∧
      (∀ g, (∀ j, flat dm a.2 j ≠ some g) → u'[g]? = u[g]?) ∧ ∀ j g, flat dm a.2 j = some g → u'[g]? = some (v a j))
    (hval : ∀ n, ∀ a ∈ L, ∀ j g, flat dm a.2 j = some g → val n a j (v a j)) :
    ∃ u', L.foldlM step u = some u' ∧ Sets dm L Prod.snd u u' val := by
  obtain ⟨u', h1, h2, h3, h4⟩ := cells_result (dm := dm) L Prod.snd step v hstep u hu
  refine ⟨u', h1, h2.trans hu.symm, h3, ?_⟩
  intro n c j g hc hg hl
  exact ⟨v c j, hval n c (List.mem_of_getElem? hc) j g hg, h4 n c j g hc hg hl⟩

/-! ## Copies -/

theorem interpolateSame_ok {dm0 dm1 : DMap} {cells0 cells1 : List Nat} {u0 u1 : List T} {total : Nat}
    (h : ∀ c ∈ cells0.zip cells1, DofsOk dm0 total u0.length c.1 ∧ DofsOk dm1 total u1.length c.2) :
    ∃ u1', interpolateSame dm1 cells1 u0 dm0 cells0 u1 = some u1' ∧
      Sets dm1 (cells0.zip cells1) Prod.snd u1 u1' (fun _ c j y => ∃ g, flat dm0 c.1 j = some g ∧ u0[g]? = some y) := by
  refine sets_of_pairs _ (fun c j => u0.getD ((flat dm0 c.1 j).getD 0) 0) _ rfl ?_ ?_
  · intro c hc u hu
    obtain ⟨h0, h1⟩ := h c hc
    obtain ⟨hb0, ds0, hds0, ht0, _, _⟩ := id h0
    obtain ⟨hb1, ds1, hds1, ht1, _, _⟩ := id h1
    rw [hds0, Option.bind_some, hds1, Option.bind_some, if_neg (by rw [ht0, ht1]; simp)]
    have hw : ∀ u : List T, ds0.zipIdx.foldlM (fun u (d : Nat × Nat) => (List.range dm0.bs).foldlM (fun u k =>
        (ds1[(dm0.bs * d.2 + k) / dm1.bs]?).bind fun d1 => (u0[dm0.bs * d.1 + k]?).bind fun y =>
          setAt u (dm1.bs * d1 + (dm0.bs * d.2 + k) % dm1.bs) y) u) u =
        writes ((List.range total).map fun j => ((flat dm1 c.2 j).getD 0, u0.getD ((flat dm0 c.1 j).getD 0) 0)) u := by
      intro u
      rw [zipIdx_range, foldlM_map', ← ht0, ← flatOrder_eq _ _ hb0, List.map_flatMap, writes, foldlM_flatMap']
      refine foldlM_congr' _ _ _ ?_ u
      intro i hi s
      have hi := List.mem_range.mp hi
      simp only
      rw [List.map_map, foldlM_map']
      refine foldlM_congr' _ _ _ ?_ s
      intro k hk s'
      have hk := List.mem_range.mp hk
      have hf0 := flat_block hb0 hds0 hi hk
      obtain ⟨g, hg⟩ := (flat_some h1).mp (show dm0.bs * i + k < total by rw [← ht0]; nlinarith)
      have hg' := hg
      simp only [flat, hds1, Option.bind_some] at hg'
      obtain ⟨d, hd, rfl⟩ := Option.map_eq_some_iff.mp hg'
      have hl := flat_lt h0 hf0
      simp only [Function.comp, hf0, hg, Option.getD_some, hd, Option.bind_some]
      rw [List.getElem?_eq_getElem hl, Option.bind_some, List.getD_eq_getElem?_getD (l := u0), List.getElem?_eq_getElem hl, Option.getD_some]
    rw [hw]
    exact writes_cell h1 _ List.nodup_range (fun j => List.mem_range) _ u hu
  · intro _ c hc j g hg
    obtain ⟨h0, h1⟩ := h c hc
    obtain ⟨g0, hg0⟩ := (flat_some h0).mp ((flat_some h1).mpr ⟨g, hg⟩)
    refine ⟨g0, hg0, ?_⟩
    have := flat_lt h0 hg0
    simp [hg0, this]

/-! ## Functions of other elements -/

theorem expansion_eq (e : Elem T) (phi : Nat → Nat → T) (co : Nat → T) (m : Nat) : expansion e phi co m = expand e co phi m := by
  rw [expansion, sumTo_eq, zero_add, expand]

theorem operator_eq {e1 e0 : Elem T} (h1 : ElemOk e1) {B : Nat → Nat → Nat → T} {op : Nat → Nat → T} (hbs : e1.bs = 1 ∨ e0.bs = 1 ∨ e0.bs = e1.bs)
    (hop : if e1.bs = 1 ∨ e0.bs = 1 then op = basixOp e1 B e1.bs e0.bs else op = basixOp e1 B 1 1) :
    interpolationOperator e1 e0 op = some (basixOp e1 B e1.bs e0.bs, e1.bs * e1.dim, e0.bs * e0.dim) := by
  unfold interpolationOperator
  by_cases hb : e1.bs = 1 ∨ e0.bs = 1
  · rw [if_pos hb] at hop ⊢
    rw [hop]
  · rw [if_neg hb] at hop ⊢
    have he : e0.bs = e1.bs := by tauto
    rw [if_pos he, he, hop, mul_comm e1.dim, mul_comm e0.dim]
    congr 2
    funext i j
    have hr : e1.rvs = 1 := by rcases h1.block with h | h <;> tauto
    have hm : i % e1.bs % e1.bs = i % e1.bs := Nat.mod_mod _ _
    have hd : i % e1.bs / e1.bs = 0 := Nat.div_eq_of_lt (Nat.mod_lt _ h1.bs)
    simp only [basixOp, hr, Finset.sum_range_one, Nat.zero_mul, Nat.zero_add, hm, hd, Nat.div_one, Nat.mod_one, if_true]
    by_cases hij : i % e1.bs = j % e1.bs
    · simp only [if_pos hij]
    · simp only [if_neg hij, mul_zero, Finset.sum_const_zero]

/-- The sum over all dofs of a block element that are in block `c % b`. -/
theorem sum_block (b dim : Nat) (hb : 0 < b) (c : Nat) (g : Nat → T) :
    ∑ q ∈ Finset.range (b * dim), (if c % b = q % b then g q else 0) = ∑ i ∈ Finset.range dim, g (b * i + c % b) := by
  rw [sum_split]
  refine Finset.sum_congr rfl fun i _ => ?_
  rw [Finset.sum_eq_single (c % b)]
  · rw [mul_comm i b, Nat.mul_add_mod, Nat.mod_mod, if_pos rfl]
  · intro k hk hne
    rw [mul_comm i b, Nat.mul_add_mod, Nat.mod_eq_of_lt (Finset.mem_range.mp hk), if_neg (Ne.symm hne)]
  · intro h
    exact absurd (Finset.mem_range.mpr (Nat.mod_lt _ hb)) h

theorem op_sum (e1 e0 : Elem T) (hb : 0 < e0.bs) (B : Nat → Nat → Nat → T) (co : Nat → T) (i : Nat) :
    ∑ q ∈ Finset.range (e0.bs * e0.dim), basixOp e1 B e1.bs e0.bs i q * co q =
      ∑ m ∈ Finset.range e1.rvs, ∑ p ∈ Finset.range e1.npts, e1.Pi (i / e1.bs) (m * e1.npts + p) * expand e0 co (B p) (m * e1.bs + i % e1.bs) := by
  simp only [basixOp, Finset.sum_mul]
  rw [Finset.sum_comm]
  refine Finset.sum_congr rfl fun m _ => ?_
  rw [Finset.sum_comm]
  refine Finset.sum_congr rfl fun p _ => ?_
  rw [expand, Finset.mul_sum]
  have := sum_block e0.bs e0.dim hb (m * e1.bs + i % e1.bs) (fun q => e1.Pi (i / e1.bs) (m * e1.npts + p) * (co q * B p (q / e0.bs) ((m * e1.bs + i % e1.bs) / e0.bs)))
  refine Eq.trans ?_ (this.trans ?_)
  · refine Finset.sum_congr rfl fun q _ => ?_
    split
    · ring
    · simp
  · refine Finset.sum_congr rfl fun i' _ => ?_
    rw [Nat.mul_add_div hb, Nat.div_eq_of_lt (Nat.mod_lt _ hb), Nat.add_zero]

/-- The coefficients of a cell give values of the function. -/
theorem value_of {e : Elem T} (he : ElemOk e) {dm : DMap} {x l : List T} {c : Nat} (hd : DofsOk dm (e.bs * e.dim) x.length c)
    (hl : ∀ j g, flat dm c j = some g → x[g]? = l[j]? ∧ j < e.bs * e.dim) (hlen : l.length = e.bs * e.dim) (phi : Nat → Nat → T) (k j m : Nat) (hk : k < e.bs) (hj : j < e.rvs)
    (hm : IsComp e k j m) : IsValue e dm x c phi m (expand e (fun q => l.getD q 0) phi (j * e.bs + k)) := by
  refine ⟨k, hk, j, hj, Or.inl hm, fun i => l.getD (e.bs * i + k) 0, ?_, ?_⟩
  · intro i hi
    have hlt : e.bs * i + k < e.bs * e.dim := by nlinarith
    obtain ⟨g, hg⟩ := (flat_some hd).mp hlt
    refine ⟨g, hg, ?_⟩
    simp only
    rw [(hl _ _ hg).1, List.getD_eq_getElem?_getD, List.getElem?_eq_getElem (by omega), Option.getD_some]
  · rw [expand]
    refine Finset.sum_congr rfl fun i _ => ?_
    rw [mul_comm j, Nat.mul_add_mod, Nat.mod_eq_of_lt hk, Nat.mul_add_div he.bs, Nat.div_eq_of_lt hk, Nat.add_zero]

/-- The components of two elements with the same value shape. -/
theorem same_comp {e1 e0 : Elem T} (h1 : ElemOk e1) (h0 : ElemOk e0) (hv : e0.vs = e1.vs) (hs : e0.symmetric = e1.symmetric) {k m' : Nat} (hk : k < e1.bs) (hm : m' < e1.rvs) :
    ∃ m, IsComp e1 k m' m ∧ IsComp e0 ((m' * e1.bs + k) % e0.bs) ((m' * e1.bs + k) / e0.bs) m ∧ (m' * e1.bs + k) / e0.bs < e0.rvs := by
  cases hs1 : e1.symmetric with
  | false =>
    have hs0 : e0.symmetric = false := by rw [hs, hs1]
    refine ⟨m' * e1.bs + k, by simp [IsComp, hs1], ?_, ?_⟩
    · simp only [IsComp, hs0, Bool.false_eq_true, if_false]
      rw [mul_comm _ e0.bs]
      exact (Nat.div_add_mod _ _).symm
    · rw [Nat.div_lt_iff_lt_mul h0.bs, mul_comm e0.rvs, ← h0.vs hs0, hv, h1.vs hs1]
      nlinarith
  | true =>
    have hs0 : e0.symmetric = true := by rw [hs, hs1]
    obtain ⟨hr1, ms1, hvs1, hb1⟩ := h1.sym hs1
    obtain ⟨hr0, ms0, hvs0, hb0⟩ := h0.sym hs0
    have hms : ms0 = ms1 := by
      have : ms0 * ms0 = ms1 * ms1 := by rw [← hvs0, hv, hvs1]
      exact Nat.mul_self_inj.mp this
    subst hms
    have hbs : e0.bs = e1.bs := by omega
    have hm0 : m' = 0 := by omega
    subst hm0
    obtain ⟨q, _⟩ := pointRow_comp h1 hr1 hk
    refine ⟨_, q, ?_, ?_⟩
    · rw [Nat.zero_mul, Nat.zero_add, hbs, Nat.mod_eq_of_lt hk, Nat.div_eq_of_lt hk]
      simp only [IsComp, hs1, hs0, if_true] at q ⊢
      obtain ⟨r, s, ms, a1, a2, a3, a4, a5, a6⟩ := q
      exact ⟨r, s, ms, a1, a2, by rw [hv, a3], a4, a5, a6⟩
    · rw [Nat.zero_mul, Nat.zero_add, hbs, Nat.div_eq_of_lt hk]
      omega

theorem sameMap_ok {e1 e0 : Elem T} (h1 : ElemOk e1) (h0 : ElemOk e0) (hv : e0.vs = e1.vs) (hs : e0.symmetric = e1.symmetric) {dm0 dm1 : DMap} {cells0 cells1 : List Nat}
    {u0 u1 : List T} (hd : ∀ c ∈ cells0.zip cells1, DofsOk dm0 (e0.bs * e0.dim) u0.length c.1 ∧ DofsOk dm1 (e1.bs * e1.dim) u1.length c.2)
    {B : Nat → Nat → Nat → T} {phi : Nat → Nat → Nat → Nat → T} {op : Nat → Nat → T} (hbs : e1.bs = 1 ∨ e0.bs = 1 ∨ e0.bs = e1.bs)
    (hop : if e1.bs = 1 ∨ e0.bs = 1 then op = basixOp e1 B e1.bs e0.bs else op = basixOp e1 B 1 1) (hB : ∀ c ∈ cells0, PullsBack e1 e0 c (phi c) B) :
    ∃ u1', interpolateSameMap e1 dm1 cells1 e0 u0 dm0 cells0 op u1 = some u1' ∧
      Sets dm1 (cells0.zip cells1) Prod.snd u1 u1' (fun _ c j y => IsDof e1 c.1 c.2 (fun p => IsValue e0 dm0 u0 c.1 (phi c.1 p)) j y) := by
  unfold interpolateSameMap
  rw [operator_eq h1 hbs hop, Option.bind_some]
  have hread : ∀ c : Nat × Nat, ∃ l : List T, c ∈ cells0.zip cells1 → ∃ ds, dm0.dofs[c.1]? = some ds ∧ readCell dm0 ds u0 = some l ∧ l.length = e0.bs * e0.dim ∧
      ∀ j g, flat dm0 c.1 j = some g → u0[g]? = l[j]? ∧ j < e0.bs * e0.dim := by
    intro c
    by_cases hc : c ∈ cells0.zip cells1
    · obtain ⟨_, ds, hds, _⟩ := (hd c hc).1
      obtain ⟨l, q⟩ := readCell_ok (hd c hc).1 hds u0 rfl
      exact ⟨l, fun _ => ⟨ds, hds, q⟩⟩
    · exact ⟨[], fun h => absurd h hc⟩
  choose l hl using hread
  refine sets_of_pairs _ (fun c j => dofOf e1 c.1 c.2 (fun p m' => expand e0 (fun q => (l c).getD q 0) (phi c.1 p) (m' * e1.bs + j % e1.bs)) (j / e1.bs)) _ rfl ?_ ?_
  · intro c hc u hu
    obtain ⟨ds, hds, q1, q2, q3⟩ := hl c hc
    obtain ⟨ds1, hds1, _⟩ := (hd c hc).2.2
    rw [hds, Option.bind_some, q1, Option.bind_some, if_neg (by simp [q2]), hds1, Option.bind_some]
    obtain ⟨u', r1, r2, r3, r4⟩ := writeCell_result (hd c hc).2 hds1 (blocked e1.bs (e1.invTransT c.2) fun i => sumTo (e0.bs * e0.dim) fun j =>
      basixOp e1 B e1.bs e0.bs i j * blocked e0.bs (e0.transT c.1) (fun q => (l c).getD q 0) j) u hu
    refine ⟨u', r1, r2, r3, ?_⟩
    intro j g hg
    rw [r4 j g hg]
    congr 1
    obtain ⟨hk, hj⟩ := flat_total (hd c hc).2 h1.bs hg
    rw [blocked, dofOf]
    refine h1.transLocal _ _ _ ?_ _ hj
    intro i hi
    rw [sumTo_eq, zero_add, op_sum e1 e0 h0.bs]
    refine Finset.sum_congr rfl fun m hm => Finset.sum_congr rfl fun p hp => ?_
    rw [Nat.mul_add_div h1.bs, Nat.div_eq_of_lt hk, Nat.add_zero, Nat.mul_add_mod, Nat.mod_eq_of_lt hk,
      hB c.1 (List.of_mem_zip hc).1 p (Finset.mem_range.mp hp) _ _ hk m (Finset.mem_range.mp hm)]
    rfl
  · intro _ c hc j g hg
    obtain ⟨ds, hds, q1, q2, q3⟩ := hl c hc
    obtain ⟨hk, hj⟩ := flat_total (hd c hc).2 h1.bs hg
    refine ⟨_, ?_, rfl⟩
    intro p hp m' hm'
    obtain ⟨m, c1, c2, c3⟩ := same_comp h1 h0 hv hs hk hm'
    refine ⟨m, c1, ?_⟩
    have := value_of h0 (hd c hc).1 q3 q2 (phi c.1 p) _ _ m (Nat.mod_lt _ h0.bs) c3 c2
    rwa [mul_comm (_ / e0.bs), Nat.div_add_mod] at this

theorem otherMap_ok {e1 e0 : Elem T} (h1 : ElemOk e1) (h0 : ElemOk e0) (hv : e0.vs = e1.vs) (hs1 : e1.symmetric = false) (hs0 : e0.symmetric = false) {dm0 dm1 : DMap}
    {cells0 cells1 : List Nat} {u0 u1 : List T} (hd : ∀ c ∈ cells0.zip cells1, DofsOk dm0 (e0.bs * e0.dim) u0.length c.1 ∧ DofsOk dm1 (e1.bs * e1.dim) u1.length c.2)
    (phi : Nat → Nat → Nat → Nat → T) :
    ∃ u1', interpolateOtherMap e1 dm1 cells1 e0 u0 dm0 cells0 phi u1 = some u1' ∧
      Sets dm1 (cells0.zip cells1) Prod.snd u1 u1' (fun _ c j y => IsDof e1 c.1 c.2 (fun p => IsValue e0 dm0 u0 c.1 (phi c.1 p)) j y) := by
  unfold interpolateOtherMap
  have hv0 := h0.vs hs0
  have hv1 := h1.vs hs1
  rw [if_neg (by omega)]
  have hread : ∀ c : Nat × Nat, ∃ l : List T, c ∈ cells0.zip cells1 → ∃ ds, dm0.dofs[c.1]? = some ds ∧ readCell dm0 ds u0 = some l ∧ l.length = e0.bs * e0.dim ∧
      ∀ j g, flat dm0 c.1 j = some g → u0[g]? = l[j]? ∧ j < e0.bs * e0.dim := by
    intro c
    by_cases hc : c ∈ cells0.zip cells1
    · obtain ⟨_, ds, hds, _⟩ := (hd c hc).1
      obtain ⟨l, q⟩ := readCell_ok (hd c hc).1 hds u0 rfl
      exact ⟨l, fun _ => ⟨ds, hds, q⟩⟩
    · exact ⟨[], fun h => absurd h hc⟩
  choose l hl using hread
  refine sets_of_pairs _ (fun c j => dofOf e1 c.1 c.2 (fun p m' => expand e0 (fun q => (l c).getD q 0) (phi c.1 p) (m' * e1.bs + j % e1.bs)) (j / e1.bs)) _ rfl ?_ ?_
  · intro c hc u hu
    obtain ⟨ds, hds, q1, q2, q3⟩ := hl c hc
    obtain ⟨ds1, hds1, _⟩ := (hd c hc).2.2
    rw [hds, Option.bind_some, q1, Option.bind_some, if_neg (by simp [q2])]
    obtain ⟨co, hco, hcv⟩ : ∃ co, interpolationApply e1 e1.npts e1.vs (fun p m => e1.pull c.1 p
          ((fun p m => if m < e0.bs * e0.rvs then expansion e0 (phi c.1 p) (fun q => (l c).getD q 0) m else 0) p) m) e1.bs (e1.bs * e1.dim) = some co ∧
        ∀ i < e1.dim, ∀ k < e1.bs, co (e1.bs * i + k) = ∑ m ∈ Finset.range e1.rvs, ∑ p ∈ Finset.range e1.npts, e1.Pi i (m * e1.npts + p) *
          e1.pull c.1 p (fun m' => expand e0 (fun q => (l c).getD q 0) (phi c.1 p) (m' * e1.bs + k)) m := by
      by_cases hb : e1.bs = 1
      · have hr : e1.vs = e1.rvs := by rw [hv1, hb, one_mul]
        refine ⟨_, by rw [hb]; exact apply_one e1 _ _ _ _ (by rw [hr, h1.cols]) (by omega), ?_⟩
        intro i hi k hk
        have hk0 : k = 0 := by omega
        subst hk0
        rw [hr]
        refine Finset.sum_congr rfl fun m hm => Finset.sum_congr rfl fun p hp => ?_
        rw [hb, one_mul, Nat.add_zero]
        congr 1
        refine h1.pullLocal _ _ _ _ ?_ _ (Finset.mem_range.mp hm)
        intro m' hm'
        simp only
        rw [if_pos (by rw [← hv0, hv, hr]; exact hm'), expansion_eq, mul_one, Nat.add_zero]
      · have hr : e1.rvs = 1 := by rcases h1.block with h | h <;> tauto
        have hvb : e1.vs = e1.bs := by rw [hv1, hr, mul_one]
        refine ⟨_, by rw [hvb]; exact apply_block e1 _ _ _ hb (by rw [h1.cols, hr, mul_one]) le_rfl, ?_⟩
        intro i hi k hk
        rw [hr, Finset.sum_range_one]
        refine Finset.sum_congr rfl fun p hp => ?_
        rw [Nat.mul_add_div h1.bs, Nat.div_eq_of_lt hk, Nat.add_zero, Nat.mul_add_mod, Nat.mod_eq_of_lt hk, Nat.zero_mul, Nat.zero_add, h1.pullBlock hb]
        congr 1
        refine h1.pullLocal _ _ _ _ ?_ _ (by omega)
        intro m' hm'
        have hm0 : m' = 0 := by omega
        subst hm0
        simp only
        rw [if_pos (by rw [← hv0, hv, hvb]; exact hk), expansion_eq, Nat.zero_mul, Nat.zero_add]
    simp only at hco ⊢
    rw [hco, Option.bind_some, hds1, Option.bind_some]
    obtain ⟨u', r1, r2, r3, r4⟩ := writeCell_result (hd c hc).2 hds1 (blocked e1.bs (e1.invTransT c.2) co) u hu
    refine ⟨u', r1, r2, r3, ?_⟩
    intro j g hg
    rw [r4 j g hg]
    congr 1
    obtain ⟨hk, hj⟩ := flat_total (hd c hc).2 h1.bs hg
    rw [blocked, dofOf]
    refine h1.transLocal _ _ _ ?_ _ hj
    intro i hi
    exact hcv i hi _ hk
  · intro _ c hc j g hg
    obtain ⟨ds, hds, q1, q2, q3⟩ := hl c hc
    obtain ⟨hk, hj⟩ := flat_total (hd c hc).2 h1.bs hg
    refine ⟨_, ?_, rfl⟩
    intro p hp m' hm'
    obtain ⟨m, c1, c2, c3⟩ := same_comp h1 h0 hv (by rw [hs0, hs1]) hk hm'
    refine ⟨m, c1, ?_⟩
    have := value_of h0 (hd c hc).1 q3 q2 (phi c.1 p) _ _ m (Nat.mod_lt _ h0.bs) c3 c2
    rwa [mul_comm (_ / e0.bs), Nat.div_add_mod] at this

end Verif.Interp
