import Verif.Lemmas.AssemblyCalls
import Verif.Props.C16_C17_CsrInsert
import Verif.Props.C18_MatrixScatter
/-! Insertions into a CSR matrix, and the matrix in global indices. -/
namespace Verif.Assembly
open Verif.Spec.Assemble Verif.Spec Verif.World Finset

variable {R : Type} [CommRing R]

/-! ## Sums over lists -/

theorem sum_zipIdx {β : Type} [AddCommMonoid β] (l : List Nat) (i : Nat) (g : Nat → List β) :
    (l.zipIdx.flatMap fun x => if x.1 = i then g x.2 else []).sum =
      ∑ a ∈ range l.length, if l[a]? = some i then (g a).sum else 0 := by
  induction l using List.reverseRecOn with
  | nil => simp
  | append_singleton l x ih =>
    rw [List.zipIdx_append, List.flatMap_append, List.sum_append, ih, List.length_append, List.length_singleton,
      sum_range_succ]
    congr 1
    · apply sum_congr rfl
      intro a ha
      rw [List.getElem?_append_left (mem_range.mp ha)]
    · simp only [List.zipIdx_singleton, Nat.zero_add, List.flatMap_cons, List.flatMap_nil, List.append_nil,
        List.getElem?_append_right (Nat.le_refl _), Nat.sub_self, List.getElem?_cons_zero, Option.some.injEq]
      split <;> simp

theorem contribs_sum (B0 B1 : Nat) (c : Call R) (I J : Nat) :
    (contribs B0 B1 c.A c.rows c.cols I J).sum = (c.elem B1).entry B0 B1 (I / B0) (I % B0) (J / B1) (J % B1) := by
  unfold contribs Elem.entry Call.elem
  have h1 : (c.rows.zipIdx.flatMap fun (x : Nat × Nat) => c.cols.zipIdx.flatMap fun (y : Nat × Nat) =>
      if x.1 = I / B0 ∧ y.1 = J / B1 then
        [c.A ((x.2 * B0 + I % B0) * (c.cols.length * B1) + (y.2 * B1 + J % B1))] else []) =
      c.rows.zipIdx.flatMap fun (x : Nat × Nat) => if x.1 = I / B0 then (c.cols.zipIdx.flatMap fun (y : Nat × Nat) =>
        if y.1 = J / B1 then [c.A ((x.2 * B0 + I % B0) * (c.cols.length * B1) + (y.2 * B1 + J % B1))] else []) else [] := by
    apply List.flatMap_congr
    intro x _
    by_cases hx : x.1 = I / B0
    · simp [hx]
    · simp [hx]
  refine Eq.trans (congrArg List.sum h1) ?_
  rw [sum_zipIdx c.rows (I / B0) (fun a => c.cols.zipIdx.flatMap fun (y : Nat × Nat) =>
        if y.1 = J / B1 then [c.A ((a * B0 + I % B0) * (c.cols.length * B1) + (y.2 * B1 + J % B1))] else [])]
  apply sum_congr rfl
  intro a _
  by_cases ha : c.rows[a]? = some (I / B0)
  · rw [if_pos ha, sum_zipIdx c.cols (J / B1) (fun b => [c.A ((a * B0 + I % B0) * (c.cols.length * B1) + (b * B1 + J % B1))])]
    apply sum_congr rfl
    intro b _
    simp only [ha, true_and, List.sum_cons, List.sum_nil, add_zero]
    congr 2
    ring
  · rw [if_neg ha]
    symm
    apply sum_eq_zero
    intro b _
    rw [if_neg (fun h => ha h.1)]

/-! ## Adding -/

/-- The pattern holds all pairs of dofs of a call. -/
def Fits (P : Csr.Pattern) (n : Nat) (rows cols : List Nat) : Prop :=
  ∀ i ∈ rows, ∀ j ∈ cols, i < n ∧ j ∈ P.row i

theorem mem_row (P : Csr.Pattern) {n i j : Nat} (hP : PatternOk P n) (hi : i < n) :
    j ∈ P.row i ↔ ∃ d, P.rowPtr i ≤ d ∧ d < P.rowPtr (i + 1) ∧ P.cols[d]? = some j := by
  unfold Csr.Pattern.row
  constructor
  · intro h
    obtain ⟨t, ht⟩ := List.getElem?_of_mem h
    rw [List.getElem?_take] at ht
    split at ht
    · rename_i hlt
      rw [List.getElem?_drop] at ht
      exact ⟨P.rowPtr i + t, by omega, by omega, ht⟩
    · cases ht
  · rintro ⟨d, h1, h2, h3⟩
    apply List.mem_of_getElem? (i := d - P.rowPtr i)
    rw [List.getElem?_take, if_pos (by omega), List.getElem?_drop]
    rw [show P.rowPtr i + (d - P.rowPtr i) = d by omega]
    exact h3

theorem fits_present {P : Csr.Pattern} {n bs0 bs1 : Nat} (hP : PatternOk P n) (h0 : 0 < bs0) (h1 : 0 < bs1)
    {rows cols : List Nat} (h : Fits P n rows cols) : Props.AllPresent P bs0 bs1 bs0 bs1 rows cols := by
  intro row hrow col hcol i hi j hj
  obtain ⟨d, hd1, hd2, hd3⟩ := (mem_row P hP (h row hrow col hcol).1).mp (h row hrow col hcol).2
  have e1 : (row * bs0 + i) / bs0 = row := by
    rw [Nat.mul_comm, Nat.mul_add_div h0, Nat.div_eq_of_lt hi, Nat.add_zero]
  have e2 : (col * bs1 + j) / bs1 = col := by
    rw [Nat.mul_comm, Nat.mul_add_div h1, Nat.div_eq_of_lt hj, Nat.add_zero]
  exact ⟨_, d, by rw [e1]; exact hd1, by rw [e1]; exact hd2, by rw [e2]; exact hd3, rfl⟩

/-- Adding all blocks succeeds and adds to each stored entry the values of the blocks. -/
theorem runCalls_add {P : Csr.Pattern} {n bs0 bs1 : Nat} (hP : PatternOk P n) (h0 : 0 < bs0) (h1 : 0 < bs1)
    (cs : List (Call R)) : ∀ (data : Nat → R), (∀ c ∈ cs, Fits P n c.rows c.cols) →
    ∃ data', runCalls (matInsert (· + ·) P bs0 bs1 bs0 bs1) (data, true) cs = (data', true) ∧
      ∀ I J p, I / bs0 < n → Stored P bs0 bs1 I J p →
        data' p = data p + localOp bs0 bs1 (cs.map (Call.elem bs1)) (I / bs0) (I % bs0) (J / bs1) (J % bs1) := by
  induction cs with
  | nil => intro data _; exact ⟨data, rfl, by intros; simp [localOp]⟩
  | cons c cs ih =>
    intro data h
    by_cases hne : c.cols = []
    · obtain ⟨data', e, hd⟩ := ih data (fun d hd => h d (by simp [hd]))
      refine ⟨data', ?_, ?_⟩
      · rw [← e]
        unfold runCalls
        rw [List.foldl_cons]
        congr 1
        have hnil : (c.rows.zipIdx.flatMap fun _ => ([] : List (Csr.Ev R))) = [] := by simp
        simp [matInsert, Csr.dispatch, Csr.insertCsr, hne, hnil, Csr.run]
      · intro I J p hI hs
        rw [hd I J p hI hs, List.map_cons, localOp_cons, entry_nil_rows _ _ _ _ _ (Or.inr hne), zero_add]
    have hfit : Props.BlocksFit P n bs0 bs1 bs0 bs1 := fun _ hne => absurd ⟨rfl, rfl⟩ hne
    have hes : Csr.dispatch P bs0 bs1 bs0 bs1 c.A c.rows c.cols = some (Csr.insertCsr P bs0 bs1 c.A c.rows c.cols) := by
      simp [Csr.dispatch]
    have hrows : Props.RowsOk n bs0 bs0 c.rows := by
      intro row hrow i hi
      rw [Nat.mul_comm, Nat.mul_add_div h0, Nat.div_eq_of_lt hi, Nat.add_zero]
      obtain ⟨j, hj⟩ := List.exists_mem_of_ne_nil _ hne
      exact (h c (by simp) row hrow j hj).1
    have hok : (Csr.run (· + ·) data (Csr.insertCsr P bs0 bs1 c.A c.rows c.cols)).2 = true :=
      (Props.C16_error_iff_missing_partial hP h0 h1 h0 h1 hfit c.A c.rows c.cols hrows _ hes _ data).mpr
        (fits_present hP h0 h1 (h c (by simp)))
    obtain ⟨data', e, hd⟩ := ih (Csr.run (· + ·) data (Csr.insertCsr P bs0 bs1 c.A c.rows c.cols)).1
      (fun d hd => h d (by simp [hd]))
    refine ⟨data', ?_, ?_⟩
    · rw [← e]
      unfold runCalls
      rw [List.foldl_cons]
      congr 1
      simp only [matInsert, if_true, hes]
      exact Prod.ext rfl hok
    · intro I J p hI hs
      rw [hd I J p hI hs, Props.C16_add_partial hP h0 h1 h0 h1 hfit c.A c.rows c.cols hrows _ hes data hok I J p hI hs,
        contribs_sum, List.map_cons, localOp_cons, add_assoc]

/-! ## Setting the diagonal -/

/-- Scalar dof `d` has a diagonal entry. -/
def HasDiag (P : Csr.Pattern) (bs : Nat) (d : Nat) : Prop := d / bs ∈ P.row (d / bs)

theorem diag_present {P : Csr.Pattern} {n bs : Nat} (hP : PatternOk P n) (d : Nat) (hd : d / bs < n) :
    Props.AllPresent P bs bs 1 1 [d] [d] ↔ HasDiag P bs d := by
  unfold Props.AllPresent HasDiag
  rw [mem_row P hP hd]
  constructor
  · intro h
    obtain ⟨p, e, h1, h2, h3, _⟩ := h d (by simp) d (by simp) 0 (by omega) 0 (by omega)
    simp only [Nat.mul_one, Nat.add_zero] at h1 h2 h3
    exact ⟨e, h1, h2, h3⟩
  · rintro ⟨e, h1, h2, h3⟩ row hrow col hcol i hi j hj
    rw [List.mem_singleton] at hrow hcol
    obtain rfl : i = 0 := by omega
    obtain rfl : j = 0 := by omega
    rw [hrow, hcol, Nat.mul_one, Nat.add_zero]
    exact ⟨_, e, h1, h2, h3, rfl⟩

theorem matInsert_sticky (op : R → R → R) (P : Csr.Pattern) (b0 b1 B0 B1 : Nat) (data : Nat → R) (rows cols : List Nat)
    (A : Nat → R) : matInsert op P b0 b1 B0 B1 (data, false) rows cols A = (data, false) := by
  simp [matInsert]

theorem setDiagonal_sticky (P : Csr.Pattern) (b0 b1 B0 B1 : Nat) (rows : List Nat) (diag : R) (data : Nat → R) :
    setDiagonal (matInsert Csr.setOp P b0 b1 B0 B1) rows diag (data, false) = (data, false) := by
  unfold setDiagonal
  induction rows with
  | nil => rfl
  | cons d rows ih => rw [List.foldl_cons, matInsert_sticky, ih]

open Classical in
/-- `set_diagonal` raises exactly when a diagonal entry is missing; otherwise it writes `diag` to these entries
and changes nothing else. -/
theorem setDiagonal_spec {P : Csr.Pattern} {n bs : Nat} (hP : PatternOk P n) (h0 : 0 < bs) (diag : R) (rows : List Nat) :
    ∀ (data : Nat → R), (∀ d ∈ rows, d / bs < n) →
    ((setDiagonal (matInsert Csr.setOp P bs bs 1 1) rows diag (data, true)).2 = true ↔ ∀ d ∈ rows, HasDiag P bs d) ∧
    ((setDiagonal (matInsert Csr.setOp P bs bs 1 1) rows diag (data, true)).2 = true →
      ∀ I J p, I / bs < n → Stored P bs bs I J p →
        (setDiagonal (matInsert Csr.setOp P bs bs 1 1) rows diag (data, true)).1 p =
          if I = J ∧ I ∈ rows then diag else data p) := by
  induction rows with
  | nil => intro data _; simp [setDiagonal]
  | cons d rows ih =>
    intro data h
    have hdn := h d (by simp)
    have hfit : Props.BlocksFit P n bs bs 1 1 := fun hb hne => absurd hb hne
    obtain ⟨es, hes⟩ : ∃ es, Csr.dispatch P bs bs 1 1 (fun _ => diag) [d] [d] = some es := by
      unfold Csr.dispatch
      split
      · exact ⟨_, rfl⟩
      · rename_i hne
        rw [if_pos ⟨rfl, rfl⟩]
        exact ⟨_, rfl⟩
    have hrows : Props.RowsOk n bs 1 [d] := by
      intro row hrow i hi
      rw [List.mem_singleton] at hrow
      obtain rfl : i = 0 := by omega
      rw [hrow, Nat.mul_one, Nat.add_zero]
      exact hdn
    have hstep : setDiagonal (matInsert Csr.setOp P bs bs 1 1) (d :: rows) diag (data, true) =
        setDiagonal (matInsert Csr.setOp P bs bs 1 1) rows diag (Csr.run Csr.setOp data es) := by
      unfold setDiagonal
      rw [List.foldl_cons]
      congr 1
      simp only [matInsert, if_true, hes]
    have hiff := Props.C16_error_iff_missing_partial hP h0 h0 Nat.one_pos Nat.one_pos hfit (fun _ => diag) [d] [d] hrows es hes
      Csr.setOp data
    rw [diag_present hP d hdn] at hiff
    rw [hstep]
    cases hok : (Csr.run Csr.setOp data es).2
    · have hr : Csr.run Csr.setOp data es = ((Csr.run Csr.setOp data es).1, false) := Prod.ext rfl hok
      rw [hr, setDiagonal_sticky]
      have hno : ¬ HasDiag P bs d := by rw [← hiff, hok]; simp
      refine ⟨?_, by simp⟩
      simp only [Bool.false_eq_true, List.mem_cons, forall_eq_or_imp, false_iff]
      exact fun hh => hno hh.1
    · have hr : Csr.run Csr.setOp data es = ((Csr.run Csr.setOp data es).1, true) := Prod.ext rfl hok
      have hyes : HasDiag P bs d := hiff.mp hok
      obtain ⟨i1, i2⟩ := ih (Csr.run Csr.setOp data es).1 (fun e he => h e (by simp [he]))
      rw [← hr] at i1 i2
      refine ⟨?_, ?_⟩
      · rw [i1]
        simp only [List.mem_cons, forall_eq_or_imp]
        exact ⟨fun hh => ⟨hyes, hh⟩, fun hh => hh.2⟩
      · intro hall I J p hI hs
        rw [i2 hall I J p hI hs]
        have hset := Props.C16_set_partial hP h0 h0 Nat.one_pos Nat.one_pos hfit (fun _ => diag) [d] [d] hrows es hes
          data hok I J p hI hs
        have hc : contribs 1 1 (fun _ => diag) [d] [d] I J = if d = I ∧ d = J then [diag] else [] := by
          simp [contribs]
        rw [hc] at hset
        rw [hset]
        by_cases hm : I = J ∧ I ∈ rows
        · rw [if_pos hm, if_pos ⟨hm.1, List.mem_cons_of_mem _ hm.2⟩]
        · rw [if_neg hm]
          by_cases hd : d = I ∧ d = J
          · rw [if_pos hd, if_pos ⟨hd.1.symm.trans hd.2, by rw [← hd.1]; simp⟩]; simp
          · rw [if_neg hd, if_neg]
            · simp
            · rintro ⟨a1, a2⟩
              rcases List.mem_cons.mp a2 with a2 | a2
              · exact hd ⟨a2.symm, by rw [← a1, a2]⟩
              · exact hm ⟨a1, a2⟩

/-- All rows to which the conditions apply. -/
def ownedDofs (bs size : Nat) (bcs : List (BC R × Bool)) : List Nat :=
  bcs.flatMap fun c => if c.2 then c.1.dofs.take (numOwned bs size c.1.dofs) else []

omit [CommRing R] in
theorem setDiagonalBcs_eq {σ : Type} (ms : MatSet σ R) (bs size : Nat) (bcs : List (BC R × Bool)) (diag : R) (s : σ) :
    setDiagonalBcs ms bs size bcs diag s = setDiagonal ms (ownedDofs bs size bcs) diag s := by
  unfold setDiagonalBcs setDiagonal ownedDofs
  rw [List.foldl_flatMap]
  congr 1
  funext s c
  split
  · rfl
  · rfl

/-! ## Markers -/

omit [CommRing R] in
theorem foldl_mark (dofs : List Nat) : ∀ (m : List Bool),
    (dofs.foldl (fun m d => m.set d true) m).length = m.length ∧
    ∀ p, marked (dofs.foldl (fun m d => m.set d true) m) p ↔ marked m p ∨ (p ∈ dofs ∧ p < m.length) := by
  induction dofs with
  | nil => intro m; simp
  | cons d dofs ih =>
    intro m
    obtain ⟨h1, h2⟩ := ih (m.set d true)
    rw [List.foldl_cons]
    refine ⟨by rw [h1, List.length_set], ?_⟩
    intro p
    rw [h2, List.length_set]
    have : marked (m.set d true) p ↔ marked m p ∨ (p = d ∧ p < m.length) := by
      unfold marked
      rw [List.getD_eq_getElem?_getD, List.getElem?_set]
      by_cases hp : d = p
      · subst hp
        by_cases hl : d < m.length
        · simp [hl]
        · simp only [if_true, if_neg hl, Option.getD_none, Bool.false_eq_true, false_iff, not_or]
          rw [List.getD_eq_getElem?_getD, List.getElem?_eq_none (by omega)]
          simp
          omega
      · rw [if_neg hp, ← List.getD_eq_getElem?_getD]
        exact ⟨Or.inl, fun h => h.elim id (fun h => absurd h.1.symm hp)⟩
    rw [this, List.mem_cons]
    tauto

omit [CommRing R] in
theorem matrixMarkers_iff (dim : Nat) (bcs : List (BC R × Bool)) (p : Nat) :
    marked (matrixMarkers dim bcs) p ↔ p < dim ∧ Constrained bcs p := by
  have key : ∀ (bcs : List (BC R × Bool)) (m : List Bool), (m = [] ∨ m.length = dim) →
      (let m' := bcs.foldl (fun m c => if c.2 then c.1.markDofs (m ++ List.replicate (dim - m.length) false) else m) m
       (m' = [] ∨ m'.length = dim) ∧ ∀ p, marked m' p ↔ marked m p ∨ (p < dim ∧ Constrained bcs p)) := by
    intro bcs
    induction bcs with
    | nil => intro m hm; simpa [Constrained] using hm
    | cons c bcs ih =>
      intro m hm
      simp only [List.foldl_cons]
      by_cases hc : c.2 = true
      · rw [if_pos hc]
        obtain ⟨f1, f2⟩ := foldl_mark c.1.dofs (m ++ List.replicate (dim - m.length) false)
        have hlen : (m ++ List.replicate (dim - m.length) false).length = dim := by
          rw [List.length_append, List.length_replicate]
          rcases hm with rfl | hm <;> simp_all
        have hext : ∀ p, marked (m ++ List.replicate (dim - m.length) false) p ↔ marked m p := by
          intro p
          unfold marked
          rw [List.getD_eq_getElem?_getD, List.getD_eq_getElem?_getD]
          by_cases hp : p < m.length
          · rw [List.getElem?_append_left hp]
          · rw [List.getElem?_append_right (by omega), List.getElem?_eq_none (l := m) (by omega), List.getElem?_replicate]
            split <;> simp
        obtain ⟨i1, i2⟩ := ih (c.1.markDofs (m ++ List.replicate (dim - m.length) false))
          (Or.inr (by unfold BC.markDofs; rw [f1, hlen]))
        refine ⟨i1, ?_⟩
        intro p
        rw [i2]
        unfold BC.markDofs
        rw [f2, hext, hlen]
        unfold Constrained
        simp only [List.mem_cons, exists_eq_or_imp, hc, true_and]
        tauto
      · rw [if_neg hc]
        obtain ⟨i1, i2⟩ := ih m hm
        refine ⟨i1, ?_⟩
        intro p
        rw [i2]
        unfold Constrained
        simp [hc]
  have := (key bcs [] (Or.inl rfl)).2 p
  unfold matrixMarkers
  rw [this]
  simp [not_marked_nil]

/-! ## The pattern -/

theorem cellElems_pattern (dm0 dm1 : Dofmap) (I : Integral R) (stride : Nat) (cells : List Int → List Int)
    (hc : ∀ l c, c < l.length / stride → (cells l)[c]? = some (l.getD (stride * c) 0)) (hlen : I.dom1.length = I.dom0.length)
    (e : Elem R) (he : e ∈ cellElems dm0 dm1 stride I) :
    (e.rows, e.cols) ∈ patternCells dm0 dm1 (cells I.dom0) (cells I.dom1) := by
  unfold cellElems at he
  obtain ⟨c, hc', rfl⟩ := List.mem_map.mp he
  have hcl := List.mem_range.mp hc'
  unfold patternCells
  refine List.mem_map.mpr ⟨(I.dom0.getD (stride * c) 0, I.dom1.getD (stride * c) 0), ?_, rfl⟩
  apply List.mem_of_getElem? (i := c)
  rw [List.getElem?_zip_eq_some]
  exact ⟨hc _ c hcl, hc _ c (by rw [hlen]; exact hcl)⟩

theorem extractCells_get (l : List Int) (c : Nat) (h : c < l.length / 2) : (extractCells l)[c]? = some (l.getD (2 * c) 0) := by
  unfold extractCells
  rw [List.getElem?_map, List.getElem?_range h]; rfl

theorem facetElems_pattern (dm0 dm1 : Dofmap) (I : Integral R) (hlen : I.dom1.length = I.dom0.length)
    (e : Elem R) (he : e ∈ facetElems dm0 dm1 I) :
    (e.rows, e.cols) ∈ patternInterior dm0 dm1 (extractCells I.dom0) (extractCells I.dom1) := by
  unfold facetElems at he
  obtain ⟨f, hf, he⟩ := List.mem_flatMap.mp he
  have hfl := List.mem_range.mp hf
  obtain ⟨s, hs, rfl⟩ := List.mem_map.mp he
  have hx : ∀ (l : List Int) k, k < 2 → l.length = I.dom0.length →
      (extractCells l).getD (2 * f + k) 0 = l.getD (4 * f + 2 * k) 0 := by
    intro l k hk hl
    rw [List.getD_eq_getElem?_getD, extractCells_get l _ (by omega), Option.getD_some]
    congr 1
    ring
  have hxl : (extractCells I.dom0).length / 2 = I.dom0.length / 4 := by
    unfold extractCells
    rw [List.length_map, List.length_range, Nat.div_div_eq_div_mul]
  unfold patternInterior
  refine List.mem_flatMap.mpr ⟨f, by rw [hxl]; exact hf, ?_⟩
  simp only [cellDofs_eq]
  have a0 := hx I.dom0 0 (by omega) rfl
  have a1 := hx I.dom0 1 (by omega) rfl
  have b0 := hx I.dom1 0 (by omega) hlen
  have b1 := hx I.dom1 1 (by omega) hlen
  rw [Nat.add_zero] at a0 b0
  rw [a0, a1, b0, b1]
  simp only [List.mem_cons, List.not_mem_nil, or_false] at hs
  rcases hs with rfl | rfl | rfl | rfl <;> simp

theorem mem_elems {F : Form R} {dm0 dm1 : Nat → Dofmap} {e : Elem R} :
    e ∈ elems F dm0 dm1 ↔ ∃ t, t < F.numTypes ∧ ∃ ty, ∃ I ∈ F.ints ty t, e ∈ intElems ty (dm0 t) (dm1 t) I := by
  unfold elems
  simp only [List.mem_flatMap, List.mem_range]
  constructor
  · rintro ⟨t, ht, ty, _, I, hI, he⟩; exact ⟨t, ht, ty, I, hI, he⟩
  · rintro ⟨t, ht, ty, I, hI, he⟩; exact ⟨t, ht, ty, by cases ty <;> simp, I, hI, he⟩

/-- Every element of the form is inserted in the pattern. -/
theorem elems_pattern (F : Form R) (dm0 dm1 : Nat → Dofmap) (hF : Accepted F) (hok : FormOk F) (e : Elem R)
    (he : e ∈ elems F dm0 dm1) : (e.rows, e.cols) ∈ patternCalls F dm0 dm1 := by
  obtain ⟨t, ht, ty, I, hI, he⟩ := mem_elems.mp he
  have hlen := (hok ty t I hI).1
  have htype : (if ty = .cell then t else 0) = t := by
    split
    · rfl
    · rename_i hne
      rcases hF with hF | hF
      · omega
      · rw [hF t ht ty hne] at hI; cases hI
  obtain ⟨i, hi⟩ := List.getElem?_of_mem hI
  unfold patternCalls
  refine List.mem_flatMap.mpr ⟨t, List.mem_range.mpr ht, List.mem_flatMap.mpr ⟨ty, by cases ty <;> simp [allTypes], ?_⟩⟩
  refine List.mem_flatMap.mpr ⟨i, List.mem_range.mpr (List.getElem?_eq_some_iff.mp hi).1, ?_⟩
  rw [htype]
  simp only [hi]
  have hid : ∀ (l : List Int) c, c < l.length / 1 → l[c]? = some (l.getD (1 * c) 0) := by
    intro l c hc
    rw [Nat.div_one] at hc
    rw [Nat.one_mul, List.getD_eq_getElem?_getD, List.getElem?_eq_getElem hc]; rfl
  cases ty
  · exact cellElems_pattern _ _ I 1 id hid hlen e he
  · exact cellElems_pattern _ _ I 2 extractCells extractCells_get hlen e he
  · exact facetElems_pattern _ _ I hlen e he
  · exact cellElems_pattern _ _ I 2 extractCells extractCells_get hlen e he
  · exact cellElems_pattern _ _ I 2 extractCells extractCells_get hlen e he

theorem pattern_cellElems (dm0 dm1 : Dofmap) (I : Integral R) (stride : Nat) (cells : List Int → List Int)
    (hc : ∀ l c, c < l.length / stride → (cells l)[c]? = some (l.getD (stride * c) 0))
    (hcl : ∀ l, (cells l).length = l.length / stride) (hlen : I.dom1.length = I.dom0.length)
    (x : List Nat × List Nat) (hx : x ∈ patternCells dm0 dm1 (cells I.dom0) (cells I.dom1)) :
    ∃ e ∈ cellElems dm0 dm1 stride I, x = (e.rows, e.cols) := by
  unfold patternCells at hx
  obtain ⟨y, hy, rfl⟩ := List.mem_map.mp hx
  obtain ⟨c, hc'⟩ := List.getElem?_of_mem hy
  rw [List.getElem?_zip_eq_some] at hc'
  have hlt : c < I.dom0.length / stride := by rw [← hcl]; exact (List.getElem?_eq_some_iff.mp hc'.1).1
  rw [hc _ c hlt, hc _ c (by rw [hlen]; exact hlt)] at hc'
  unfold cellElems
  refine ⟨_, List.mem_map.mpr ⟨c, List.mem_range.mpr hlt, rfl⟩, ?_⟩
  rw [Option.some.inj hc'.1, Option.some.inj hc'.2]

theorem pattern_facetElems (dm0 dm1 : Dofmap) (I : Integral R) (hlen : I.dom1.length = I.dom0.length)
    (x : List Nat × List Nat) (hx : x ∈ patternInterior dm0 dm1 (extractCells I.dom0) (extractCells I.dom1)) :
    ∃ e ∈ facetElems dm0 dm1 I, x = (e.rows, e.cols) := by
  unfold patternInterior at hx
  obtain ⟨f, hf, hx⟩ := List.mem_flatMap.mp hx
  have hxl : (extractCells I.dom0).length / 2 = I.dom0.length / 4 := by
    unfold extractCells
    rw [List.length_map, List.length_range, Nat.div_div_eq_div_mul]
  rw [hxl] at hf
  have hfl := List.mem_range.mp hf
  have hex : ∀ (l : List Int) k, k < 2 → l.length = I.dom0.length →
      (extractCells l).getD (2 * f + k) 0 = l.getD (4 * f + 2 * k) 0 := by
    intro l k hk hl
    rw [List.getD_eq_getElem?_getD, extractCells_get l _ (by omega), Option.getD_some]
    congr 1
    ring
  have a0 := hex I.dom0 0 (by omega) rfl
  have a1 := hex I.dom0 1 (by omega) rfl
  have b0 := hex I.dom1 0 (by omega) hlen
  have b1 := hex I.dom1 1 (by omega) hlen
  rw [Nat.add_zero] at a0 b0
  simp only [cellDofs_eq, a0, a1, b0, b1] at hx
  have hmem : ∀ s ∈ [(0, 0), (0, 1), (1, 0), (1, 1)],
      x = (dofsOf dm0 (I.dom0.getD (4 * f + 2 * s.1) 0), dofsOf dm1 (I.dom1.getD (4 * f + 2 * s.2) 0)) →
      ∃ e ∈ facetElems dm0 dm1 I, x = (e.rows, e.cols) := by
    intro s hs hxs
    unfold facetElems
    exact ⟨_, List.mem_flatMap.mpr ⟨f, hf, List.mem_map.mpr ⟨s, hs, rfl⟩⟩, hxs⟩
  simp only [List.mem_cons, List.not_mem_nil, or_false] at hx
  rcases hx with hx | hx | hx | hx
  · exact hmem (0, 0) (by simp) hx
  · exact hmem (0, 1) (by simp) hx
  · exact hmem (1, 0) (by simp) hx
  · exact hmem (1, 1) (by simp) hx

/-- The pattern holds exactly the elements of the form. -/
theorem patternCalls_iff (F : Form R) (dm0 dm1 : Nat → Dofmap) (hF : Accepted F) (hok : FormOk F)
    (x : List Nat × List Nat) : x ∈ patternCalls F dm0 dm1 ↔ ∃ e ∈ elems F dm0 dm1, x = (e.rows, e.cols) := by
  constructor
  · intro hx
    unfold patternCalls at hx
    obtain ⟨t, ht, hx⟩ := List.mem_flatMap.mp hx
    obtain ⟨ty, _, hx⟩ := List.mem_flatMap.mp hx
    obtain ⟨i, hi, hx⟩ := List.mem_flatMap.mp hx
    have ht := List.mem_range.mp ht
    have hil := List.mem_range.mp hi
    have htype : (if ty = .cell then t else 0) = t := by
      split
      · rfl
      · rename_i hne
        rcases hF with hF | hF
        · omega
        · rw [hF t ht ty hne] at hil; cases hil
    rw [htype, List.getElem?_eq_getElem hil] at hx
    simp only at hx
    have hI : (F.ints ty t)[i] ∈ F.ints ty t := List.getElem_mem hil
    have hlen := (hok ty t _ hI).1
    have hid : ∀ (l : List Int) c, c < l.length / 1 → l[c]? = some (l.getD (1 * c) 0) := by
      intro l c hc
      rw [Nat.div_one] at hc
      rw [Nat.one_mul, List.getD_eq_getElem?_getD, List.getElem?_eq_getElem hc]; rfl
    have hel : ∀ l, (extractCells l).length = l.length / 2 := by intro l; simp [extractCells]
    have hmk : (∃ e ∈ intElems ty (dm0 t) (dm1 t) (F.ints ty t)[i], x = (e.rows, e.cols)) →
        ∃ e ∈ elems F dm0 dm1, x = (e.rows, e.cols) := by
      rintro ⟨e, he, hx⟩
      exact ⟨e, mem_elems.mpr ⟨t, ht, ty, _, hI, he⟩, hx⟩
    apply hmk
    cases ty
    · exact pattern_cellElems _ _ _ 1 id hid (fun l => (Nat.div_one _).symm) hlen x hx
    · exact pattern_cellElems _ _ _ 2 extractCells extractCells_get hel hlen x hx
    · exact pattern_facetElems _ _ _ hlen x hx
    · exact pattern_cellElems _ _ _ 2 extractCells extractCells_get hel hlen x hx
    · exact pattern_cellElems _ _ _ 2 extractCells extractCells_get hel hlen x hx
  · rintro ⟨e, he, rfl⟩
    exact elems_pattern F dm0 dm1 hF hok e he

end Verif.Assembly
