import Verif.Props.C105_PetscLinear
import Verif.Spec.PetscBlock
/-!
# C106: what `fem.petsc.LinearProblem` with several fields hands to its solver and returns
-/
namespace Verif.Props
open Verif.Spec.Assemble Verif.Spec Verif.World Verif.Assembly Finset

variable {R : Type} [CommRing R]

/-! ## Blocks of the matrix -/

theorem block_calls (w0 w1 : World) (bs0 bs1 q : Nat) (cs : List (Assembly.Call R)) (A : Nat → Nat → R) (I k J l : Nat) (hk : k < bs0) (hl : l < bs1) :
    runCalls (PetscBlock.addBlock w0 w1 bs0 bs1 q) A cs (bs0 * I + k) (bs1 * J + l) =
      A (bs0 * I + k) (bs1 * J + l) + rankOp w0 w1 bs0 bs1 q (cs.map (Assembly.Call.elem bs1)) I k J l := by
  have hd : ∀ bs a c : Nat, c < bs → (bs * a + c) / bs = a ∧ (bs * a + c) % bs = c := by
    intro bs a c hc
    rw [Nat.mul_add_div (by omega), Nat.div_eq_of_lt hc, Nat.mul_add_mod, Nat.mod_eq_of_lt hc]
    exact ⟨rfl, rfl⟩
  induction cs generalizing A with
  | nil => simp [runCalls, rankOp]
  | cons c cs ih =>
    have e : runCalls (PetscBlock.addBlock w0 w1 bs0 bs1 q) A (c :: cs) =
      runCalls (PetscBlock.addBlock w0 w1 bs0 bs1 q) (PetscBlock.addBlock w0 w1 bs0 bs1 q A c.rows c.cols c.A) cs := rfl
    rw [e, ih]
    have e2 : rankOp w0 w1 bs0 bs1 q ((c :: cs).map (Assembly.Call.elem bs1)) I k J l =
      rankOp w0 w1 bs0 bs1 q [Assembly.Call.elem bs1 c] I k J l + rankOp w0 w1 bs0 bs1 q (cs.map (Assembly.Call.elem bs1)) I k J l := by
      simp [rankOp]
    rw [e2, ← add_assoc]
    congr 1
    unfold PetscBlock.addBlock
    rw [(hd bs0 I k hk).1, (hd bs0 I k hk).2, (hd bs1 J l hl).1, (hd bs1 J l hl).2]
    congr 1
    unfold rankOp
    rw [List.map_cons, List.map_nil, List.sum_cons, List.sum_nil, add_zero]
    rw [sum_zipIdx c.rows (fun x a => (c.cols.zipIdx.map fun b =>
      if (NonlinProb.l2g w0 q)[x]? = some I ∧ (NonlinProb.l2g w1 q)[b.1]? = some J then
        c.A ((bs0 * a + k) * (bs1 * c.cols.length) + (bs1 * b.2 + l)) else 0).sum) 0]
    apply sum_congr rfl
    intro a ha
    have ha : a < c.rows.length := mem_range.mp ha
    rw [sum_zipIdx c.cols (fun y b => if (NonlinProb.l2g w0 q)[c.rows.getD a 0]? = some I ∧ (NonlinProb.l2g w1 q)[y]? = some J then
        c.A ((bs0 * (0 + a) + k) * (bs1 * c.cols.length) + (bs1 * b + l)) else 0) 0]
    apply sum_congr rfl
    intro b hb
    have hb : b < c.cols.length := mem_range.mp hb
    have h1 : ((Assembly.Call.elem bs1 c).rows[a]?).bind (globalOf w0 q) = globalOf w0 q (c.rows.getD a 0) := by
      show (c.rows[a]?).bind _ = _
      rw [List.getD_eq_getElem?_getD, List.getElem?_eq_getElem ha]; rfl
    have h2 : ((Assembly.Call.elem bs1 c).cols[b]?).bind (globalOf w1 q) = globalOf w1 q (c.cols.getD b 0) := by
      show (c.cols[b]?).bind _ = _
      rw [List.getD_eq_getElem?_getD, List.getElem?_eq_getElem hb]; rfl
    rw [h1, h2, petsc_l2g_get, petsc_l2g_get, Nat.zero_add, Nat.zero_add]
    rfl

/-- What is assumed of a field alone. -/
structure FieldOk (P : Nat) (f : PetscBlock.Field R) (C : Nat → Nat → Prop) (g : Nat → Nat → R) : Prop where
  ranks : f.w.P = P
  valid : f.w.Valid
  block : 0 < f.bs
  linear : ∀ q, q < P → VAccepted (f.L q)
  dofmap : ∀ q, q < P → DofmapOk f.bs (f.dm q) ∧ DofsOk f.w q (f.dm q)
  conditions : ∀ q, q < P → ∀ c ∈ f.bcs q, BcOk c ∧ c.dofs.Pairwise (· ≤ ·)
  values : ConsistentValues f.w f.bs f.bcs C g

theorem PetscBlock.field_ok {D : PetscBlock.Problem R} {C : Nat → Nat → Nat → Prop} {g : Nat → Nat → Nat → R} (h : PetscBlock.ProblemOk D C g)
    (i : Nat) (hi : i < D.n) : FieldOk D.P (D.field i) (C i) (g i) :=
  ⟨h.ranks i hi, h.valid i hi, h.block i hi, h.linear i hi, h.dofmap i hi, h.conditions i hi, h.values i hi⟩

theorem FieldOk.base {P : Nat} {f : PetscBlock.Field R} {C : Nat → Nat → Prop} {g : Nat → Nat → R} (h : FieldOk P f C g) :
    NonlinProb.ProblemOk f.base C g := by
  have hP : f.base.w.P = P := h.ranks
  refine ⟨h.valid, h.block, fun q hq _ => h.linear q (hP ▸ hq), fun _ _ _ => Or.inl le_rfl, (fun p hp => by cases hp), ?_,
    fun q hq => h.dofmap q (hP ▸ hq), fun q hq => h.conditions q (hP ▸ hq), h.values⟩
  intro q _ u v _
  exact ⟨rfl, rfl, fun p hp => by cases hp⟩

open Classical in
theorem off_block (P : Nat) (f0 f1 : PetscBlock.Field R) (C0 C1 : Nat → Nat → Prop) (g0 g1 : Nat → Nat → R) (h0 : FieldOk P f0 C0 g0)
    (h1 : FieldOk P f1 C1 g1) (a : Nat → Form R) (ha : ∀ q, q < P → Accepted (a q)) :
    ∃ A', PetscBlock.assembleOff P f0 f1 a (fun _ _ => 0) = some A' ∧
      ∀ I k J l, k < f0.bs → l < f1.bs → A' (f0.bs * I + k) (f1.bs * J + l) =
        if C0 I k ∨ C1 J l then 0 else globalOp f0.w f1.w f0.bs f1.bs (fun q => elems (a q) (f0.dm q) (f1.dm q)) I k J l := by
  have hcons : ∀ (f : PetscBlock.Field R) (C : Nat → Nat → Prop) (g : Nat → Nat → R), FieldOk P f C g →
      Consistent f.w f.bs (fun q => (f.bcs q).map (·, true)) C := by
    intro f C g h q hq i I k hi hk
    rw [← (h.values q hq i I k hi hk).1]
    simp [Constrained]
  have hlt : ∀ b n i k : Nat, i < n → k < b → b * i + k < b * n := by
    intro b n i k hi hk
    calc b * i + k < b * i + b := by omega
      _ = b * (i + 1) := by ring
      _ ≤ b * n := Nat.mul_le_mul_left _ hi
  have hadd : ∀ n, n ≤ P → ∃ A', (List.range n).foldlM (fun A q =>
      assembleMatrix (PetscBlock.addBlock f0.w f1.w f0.bs f1.bs q) false (a q) (f0.dm q) (f1.dm q)
        (matrixMarkers (f0.base.dim q) ((f0.bcs q).map (·, true))) (matrixMarkers (f1.base.dim q) ((f1.bcs q).map (·, true))) A)
        (fun _ _ => (0 : R)) = some A' ∧
      ∀ I k J l, k < f0.bs → l < f1.bs → A' (f0.bs * I + k) (f1.bs * J + l) =
        ∑ q ∈ range n, if C0 I k ∨ C1 J l then 0 else rankOp f0.w f1.w f0.bs f1.bs q (elems (a q) (f0.dm q) (f1.dm q)) I k J l := by
    intro n
    induction n with
    | zero => intro _; exact ⟨_, rfl, by intros; simp⟩
    | succ n ih =>
      intro hn
      obtain ⟨A1, e1, v1⟩ := ih (by omega)
      have hq : n < P := hn
      have hq0 : n < f0.w.P := by rw [h0.ranks]; exact hq
      have hq1 : n < f1.w.P := by rw [h1.ranks]; exact hq
      obtain ⟨cs, e2, gd⟩ := does_matrix false (matrixMarkers (f0.base.dim n) ((f0.bcs n).map (·, true)))
        (matrixMarkers (f1.base.dim n) ((f1.bcs n).map (·, true))) (a n) (f0.dm n) (f1.dm n) (h0.dofmap n hq).1 (h1.dofmap n hq).1 (ha n hq)
      refine ⟨runCalls (PetscBlock.addBlock f0.w f1.w f0.bs f1.bs n) A1 cs, ?_, ?_⟩
      · rw [List.range_succ, List.foldlM_append, e1]
        refine (Option.bind_some ..).trans ?_
        rw [List.foldlM_cons, e2]
        rfl
      · intro I k J l hk hl
        rw [block_calls f0.w f1.w f0.bs f1.bs n cs A1 I k J l hk hl, v1 I k J l hk hl, sum_range_succ]
        congr 1
        by_cases hex : ∃ e ∈ elems (a n) (f0.dm n) (f1.dm n), ∃ i ∈ e.rows, ∃ j ∈ e.cols, globalOf f0.w n i = some I ∧ globalOf f1.w n j = some J
        · obtain ⟨e, he, i, hi, j, hj, hgi, hgj⟩ := hex
          rw [rankOp_local f0.w f1.w h0.valid h1.valid f0.bs f1.bs n hq0 hq1 _ I k J l i j hgi hgj,
            rankOp_local f0.w f1.w h0.valid h1.valid f0.bs f1.bs n hq0 hq1 _ I k J l i j hgi hgj, gd.sum i k j l hk hl (by simp)]
          unfold removed
          rw [matrixMarkers_iff, matrixMarkers_iff, hcons f0 C0 g0 h0 n hq0 i I k hgi hk, hcons f1 C1 g1 h1 n hq1 j J l hgj hl]
          have b0 : f0.bs * i + k < f0.base.dim n := hlt f0.bs _ i k (SubMap.globalOf_lt f0.w n i I hgi) hk
          have b1 : f1.bs * j + l < f1.base.dim n := hlt f1.bs _ j l (SubMap.globalOf_lt f1.w n j J hgj) hl
          simp only [b0, b1, true_and]
        · rw [rankOp_zero f0.w f1.w f0.bs f1.bs n _ I k J l hex, ite_self, rankOp_zero]
          rintro ⟨e, he, i, hi, j, hj, hgi, hgj⟩
          obtain ⟨c, hc, rfl⟩ := List.mem_map.mp he
          obtain ⟨e, he, hie, hje⟩ := gd.cover c hc i hi j hj
          exact hex ⟨e, he, i, hie, j, hje, hgi, hgj⟩
  obtain ⟨A1, e1, v1⟩ := hadd P (Nat.le_refl _)
  refine ⟨A1, e1, ?_⟩
  intro I k J l hk hl
  rw [v1 I k J l hk hl]
  by_cases hC : C0 I k ∨ C1 J l
  · simp only [if_pos hC, sum_const_zero]
  · simp only [if_neg hC]
    rw [globalOp_eq, h0.ranks]

/-- Every block of the matrix of an array of forms. -/
theorem block_matrix (D : PetscBlock.Problem R) (C : Nat → Nat → Nat → Prop) (g : Nat → Nat → Nat → R) (h : PetscBlock.ProblemOk D C g)
    (a : Nat → Nat → Option (Nat → Form R)) (ha : ∀ i j, i < D.n → j < D.n → ∀ F, a i j = some F → ∀ q, q < D.P → Accepted (F q))
    (hd : ∀ i, i < D.n → (∃ q, q < D.P ∧ (D.field i).bcs q ≠ []) → a i i ≠ none) (B : Nat → Nat → Nat → Nat → R) :
    ∃ A, PetscBlock.assembleAll D a B = some A ∧
      ∀ i j I k J l, i < D.n → j < D.n → I < PetscBlock.dofs (D.field i) → k < (D.field i).bs → J < PetscBlock.dofs (D.field j) →
        l < (D.field j).bs → A i j ((D.field i).bs * I + k) ((D.field j).bs * J + l) = PetscBlock.withConditions C (PetscBlock.mat D a) i j I k J l := by
  classical
  have hone : ∀ i j, i < D.n → j < D.n → ∃ A, PetscBlock.assembleBlock D.P i j (D.field i) (D.field j) (a i j)
      (NonlinProb.zeroEntries (B i j)) = some A ∧ ∀ I k J l, I < PetscBlock.dofs (D.field i) → k < (D.field i).bs →
        J < PetscBlock.dofs (D.field j) → l < (D.field j).bs →
        A ((D.field i).bs * I + k) ((D.field j).bs * J + l) = PetscBlock.withConditions C (PetscBlock.mat D a) i j I k J l := by
    intro i j hi hj
    have h0 := PetscBlock.field_ok h i hi
    have h1 := PetscBlock.field_ok h j hj
    unfold PetscBlock.assembleBlock
    cases haij : a i j with
    | none =>
      have hno : ¬ (i = j ∧ ¬ (List.range D.P).all (fun q => ((D.field i).bcs q).isEmpty) = true) := by
        rintro ⟨rfl, hne⟩
        apply hd i hi _ haij
        rw [List.all_eq_true] at hne
        push Not at hne
        obtain ⟨q, hq, hne⟩ := hne
        exact ⟨q, List.mem_range.mp hq, fun e => hne (by rw [e]; rfl)⟩
      refine ⟨_, if_neg hno, ?_⟩
      intro I k J l hI hk hJ hl
      show (0 : R) = _
      unfold PetscBlock.withConditions PetscBlock.mat
      rw [haij]
      by_cases hC : C i I k ∨ C j J l
      · rw [if_pos hC, if_neg]
        rintro ⟨rfl, rfl, rfl⟩
        have hC := hC.elim id id
        apply hno
        refine ⟨rfl, ?_⟩
        rw [List.all_eq_true]
        intro hall
        obtain ⟨r, ho⟩ := exists_owner (D.field i).w I hI
        have hin : I - (D.field i).w.r0 r < (D.field i).w.size r := by have := ho.2; omega
        have hgi : globalOf (D.field i).w r (I - (D.field i).w.r0 r) = some I := by
          unfold globalOf; rw [if_pos hin]; have := ho.2; congr 1; omega
        have hc := ((h.values i hi r ho.1 _ I k hgi hk).1).mpr hC
        have hr : r < D.P := by rw [← h.ranks i hi]; exact ho.1
        have hem := List.isEmpty_iff.mp (hall r (List.mem_range.mpr hr))
        simp [hem] at hc
      · rw [if_neg hC]
    | some F =>
      dsimp only
      by_cases hij : i = j
      · subst hij
        rw [if_pos rfl]
        obtain ⟨A, eA, hA⟩ := petsc_matrix (D.field i).base (C i) (g i) h0.base F
          (fun q hq => ha i i hi hi F haij q (by rw [← h.ranks i hi]; exact hq))
        refine ⟨A, eA, ?_⟩
        intro I k J l hI hk hJ hl
        refine (hA I k J l hI hk hl).trans ?_
        unfold PetscBlock.withConditions NonlinProb.withConditions PetscBlock.mat
        rw [haij]
        simp only [true_and]
        rfl
      · rw [if_neg hij]
        obtain ⟨A, eA, hA⟩ := off_block D.P (D.field i) (D.field j) (C i) (C j) (g i) (g j) h0 h1 F (ha i j hi hj F haij)
        refine ⟨A, eA, ?_⟩
        intro I k J l hI hk hJ hl
        rw [hA I k J l hk hl]
        unfold PetscBlock.withConditions PetscBlock.mat
        rw [haij]
        simp only [hij, false_and, if_false]
  have hrow : ∀ i, i < D.n → ∃ v, LinProb.allSome D.n (fun j => PetscBlock.assembleBlock D.P i j (D.field i) (D.field j) (a i j)
      (NonlinProb.zeroEntries (B i j))) = some v := by
    intro i hi
    exact ⟨_, allSome_of fun j hj => (hone i j hi hj).imp fun _ h => h.1⟩
  obtain ⟨A, eA⟩ : ∃ A, PetscBlock.assembleAll D a B = some A := ⟨_, allSome_of hrow⟩
  refine ⟨A, eA, ?_⟩
  intro i j I k J l hi hj hI hk hJ hl
  have e1 := allSome_some eA i hi
  have e2 := allSome_some e1 j hj
  obtain ⟨A', e3, hA'⟩ := hone i j hi hj
  rw [Option.some.inj (e2.symm.trans e3)]
  exact hA' I k J l hI hk hJ hl

/-! ## Right-hand side -/

theorem pb_sum_range (n : Nat) (f : Nat → R) : ((List.range n).map f).sum = ∑ j ∈ range n, f j := by
  induction n with
  | zero => rfl
  | succ n ih => rw [List.range_succ, List.map_append, List.sum_append, ih, sum_range_succ]; simp

theorem block_rhs [DecidableEq R] (D : PetscBlock.Problem R) (C : Nat → Nat → Nat → Prop) (g : Nat → Nat → Nat → R) (h : PetscBlock.ProblemOk D C g)
    (b : Nat → Nat → Nat → R) :
    ∃ b1 b2, LinProb.allSome D.n (fun i => LinProb.allSome D.P (PetscBlock.vectorOn D b i)) = some b1 ∧
      LinProb.allSome D.n (fun i => LinProb.allSome D.P (fun q => PetscBlock.liftOn D (b1 i q) i q)) = some b2 ∧
      ∀ i r I k, i < D.n → Owns (D.field i).w r I → k < (D.field i).bs →
        PetscBlock.setBc D (Scatterer.scatterRev (D.field i).w (D.field i).bs (· + ·) (b2 i) r) i r
          ((D.field i).bs * (I - (D.field i).w.r0 r) + k) = PetscBlock.rhs D C g i I k := by
  classical
  let bl : Nat → List (LiftBlock R) := fun i => (List.range D.n).map fun j =>
    ⟨(D.field j).w, (D.field j).bs, (D.a i j).isSome, (D.a i j).getD fun _ => PetscBlock.emptyForm, (D.field j).dm, (D.field j).bcs,
      fun _ _ => 0, C j, g j, fun _ _ => 0⟩
  have hbl : ∀ i, i < D.n → ∀ B ∈ bl i, B.Ok (D.field i).w.P := by
    intro i hi B hB
    obtain ⟨j, hj, rfl⟩ := List.mem_map.mp hB
    have hj := List.mem_range.mp hj
    have hP : (D.field i).w.P = D.P := h.ranks i hi
    refine ⟨h.valid j hj, (h.ranks j hj).trans hP.symm, ?_, fun q hq => (h.dofmap j hj q (hP ▸ hq)).1, fun q hq => (h.dofmap j hj q (hP ▸ hq)).2,
      fun q hq c hc => (h.conditions j hj q (hP ▸ hq) c hc).1, h.values j hj, fun _ _ _ _ _ _ _ => rfl⟩
    intro q hq
    show Accepted ((D.a i j).getD (fun _ => PetscBlock.emptyForm) q)
    cases ha : D.a i j with
    | none => exact Or.inl le_rfl
    | some F => exact h.bilinear i j hi hj F ha q (hP ▸ hq)
  have key : ∀ i, ∃ c1 c2 : Nat → Nat → R, i < D.n → ((∀ q, q < D.P → PetscBlock.vectorOn D b i q = some (c1 q)) ∧
      (∀ q, q < D.P → PetscBlock.liftOn D (c1 q) i q = some (c2 q)) ∧
      ∀ r I k, Owns (D.field i).w r I → k < (D.field i).bs →
        Scatterer.scatterRev (D.field i).w (D.field i).bs (· + ·) c2 r ((D.field i).bs * (I - (D.field i).w.r0 r) + k) =
          PetscBlock.vec D i I k - ∑ j ∈ range D.n, product (PetscBlock.dofs (D.field j)) (D.field j).bs (PetscBlock.mat D D.a i j I k) (C j) (g j)) := by
    intro i
    by_cases hi : i < D.n
    swap
    · exact ⟨fun _ _ => 0, fun _ _ => 0, fun h => absurd h hi⟩
    have hP : (D.field i).w.P = D.P := h.ranks i hi
    obtain ⟨c1, c2, e1, e2, e3⟩ := C46_lifting (D.field i).w (h.valid i hi) (D.field i).bs (D.field i).dm
      (fun q hq => (h.dofmap i hi q (hP ▸ hq)).1) (bl i) (hbl i hi) false 1 (D.field i).L (fun q hq => h.linear i hi q (hP ▸ hq))
    refine ⟨c1, c2, fun _ => ⟨fun q hq => e1 q (hP ▸ hq), ?_, ?_⟩⟩
    · intro q hq
      rw [← e2 q (hP ▸ hq)]
      unfold PetscBlock.liftOn liftForms
      congr 1
      · rw [List.map_map]
        apply List.map_congr_left
        intro j _
        show (D.a i j).map _ = if (D.a i j).isSome then some (⟨(D.a i j).getD (fun _ => PetscBlock.emptyForm) q, (D.field j).dm q,
          (D.field j).bs * ((D.field j).w.size q + ((D.field j).w.ghosts q).length)⟩ : Block R) else none
        cases D.a i j <;> rfl
      · rw [List.map_map]
        rfl
    · intro r I k ho hk
      rw [e3 r I k ho hk]
      unfold liftSum PetscBlock.vec
      congr 1
      rw [List.map_map, ← pb_sum_range]
      congr 1
      apply List.map_congr_left
      intro j _
      show (if (D.a i j).isSome then product ((D.field j).w.r0 (D.field j).w.P) (D.field j).bs (fun J l =>
        globalOp (D.field i).w (D.field j).w (D.field i).bs (D.field j).bs (fun q => elems ((D.a i j).getD (fun _ => PetscBlock.emptyForm) q)
          ((D.field i).dm q) ((D.field j).dm q)) I k J l) (C j) (fun J l => 1 * (g j J l - if false = true then 0 else 0)) else 0) = _
      unfold PetscBlock.mat PetscBlock.dofs
      cases ha : D.a i j with
      | none => simp [product]
      | some F => simp [product]
  choose c1 c2 hc using key
  have k1 : ∃ b1, LinProb.allSome D.n (fun i => LinProb.allSome D.P (PetscBlock.vectorOn D b i)) = some b1 :=
    ⟨_, allSome_of fun i hi => ⟨_, allSome_of fun q hq => ⟨_, (hc i hi).1 q hq⟩⟩⟩
  obtain ⟨b1, k1⟩ := k1
  have g1 : ∀ i, i < D.n → ∀ q, q < D.P → b1 i q = c1 i q := fun i hi q hq =>
    Option.some.inj ((allSome_some (allSome_some k1 i hi) q hq).symm.trans ((hc i hi).1 q hq))
  have f2 : ∀ i, i < D.n → ∀ q, q < D.P → PetscBlock.liftOn D (b1 i q) i q = some (c2 i q) := by
    intro i hi q hq
    rw [g1 i hi q hq]
    exact (hc i hi).2.1 q hq
  have k2 : ∃ b2, LinProb.allSome D.n (fun i => LinProb.allSome D.P (fun q => PetscBlock.liftOn D (b1 i q) i q)) = some b2 :=
    ⟨_, allSome_of fun i hi => ⟨_, allSome_of fun q hq => ⟨_, f2 i hi q hq⟩⟩⟩
  obtain ⟨b2, k2⟩ := k2
  have g2 : ∀ i, i < D.n → ∀ q, q < D.P → b2 i q = c2 i q := fun i hi q hq =>
    Option.some.inj ((allSome_some (allSome_some k2 i hi) q hq).symm.trans (f2 i hi q hq))
  refine ⟨b1, b2, k1, k2, ?_⟩
  intro i r I k hi ho hk
  have hP : (D.field i).w.P = D.P := h.ranks i hi
  have hin : I - (D.field i).w.r0 r < (D.field i).w.size r := by have := ho.2; omega
  have hgi : globalOf (D.field i).w r (I - (D.field i).w.r0 r) = some I := by
    unfold globalOf; rw [if_pos hin]; have := ho.2; congr 1; omega
  have hn : (D.field i).bs * (I - (D.field i).w.r0 r) + k < (D.field i).base.own r := by
    show (D.field i).bs * (I - (D.field i).w.r0 r) + k < (D.field i).bs * (D.field i).w.size r
    calc (D.field i).bs * (I - (D.field i).w.r0 r) + k < (D.field i).bs * (I - (D.field i).w.r0 r) + (D.field i).bs := by omega
      _ = (D.field i).bs * (I - (D.field i).w.r0 r + 1) := by ring
      _ ≤ _ := Nat.mul_le_mul_left _ hin
  have hset := C46_set (D.field i).w (D.field i).bs (D.field i).bcs (fun q hq c hc => (h.conditions i hi q (hP ▸ hq) c hc).1) (C i) (g i)
    (h.values i hi) (fun _ _ => 0) (fun _ _ => 0) (fun _ _ _ _ _ _ _ => rfl) false 1
    (Scatterer.scatterRev (D.field i).w (D.field i).bs (· + ·) (b2 i) r) r _ I k _ ho.1 hgi hk hn
  unfold PetscBlock.rhs
  by_cases hC : C i I k
  · rw [if_pos hC]
    refine (hset.1 hC).trans ?_
    simp
  · rw [if_neg hC]
    refine (hset.2 hC).trans ?_
    rw [rev_congr (D.field i).w (h.valid i hi) (D.field i).bs (b2 i) (c2 i) (fun q hq => g2 i hi q (hP ▸ hq)) r _ k ho.1 hin hk]
    exact (hc i hi).2.2 r I k ho hk

/-! ## Solve -/

/-- C106: whatever vectors, matrices and solutions held before, KSP gets in each block the matrix of the form at that place, with rows
and columns of constrained dofs of all fields as in the identity; the preconditioner likewise; for each field the prescribed
values and for free dofs the linear form less what the prescribed values of all fields contribute.  If KSP raises, the
functions are as they were; if it returns `x`, all ranks hold the entries of `x` in the functions, for owned and ghost dofs. -/
theorem C106_system [DecidableEq R] (D : PetscBlock.Problem R) (C : Nat → Nat → Nat → Prop) (g : Nat → Nat → Nat → R)
    (h : PetscBlock.ProblemOk D C g) (ksp : PetscBlock.Ksp R) (s : PetscBlock.State R) :
    let A := PetscBlock.toScalar D (PetscBlock.withConditions C (PetscBlock.mat D D.a))
    let P := PetscBlock.toScalar D (PetscBlock.withConditions C (PetscBlock.mat D (D.pre.getD D.a)))
    let out := ksp A P (PetscBlock.toOwned D (PetscBlock.rhs D C g)) (PetscBlock.owned D s.x)
    (out = none → (PetscBlock.solve D ksp s).2 = false ∧ (PetscBlock.solve D ksp s).1.u = s.u) ∧
    ∀ x, out = some x → (PetscBlock.solve D ksp s).2 = true ∧ ∀ i, i < D.n →
      ConsistentVector (D.field i).w (D.field i).bs ((PetscBlock.solve D ksp s).1.u i) (PetscBlock.fromOwned D x i) ∧
      ConsistentVector (D.field i).w (D.field i).bs ((PetscBlock.solve D ksp s).1.x i) (PetscBlock.fromOwned D x i) := by
  classical
  obtain ⟨A, eA, hA⟩ := block_matrix D C g h D.a h.bilinear (fun i hi hb => (h.diagonal i hi hb).1) s.A
  obtain ⟨P, eP, hP⟩ : ∃ P, PetscBlock.assemblePre D s.P A = some P ∧
      ∀ i j I k J l, i < D.n → j < D.n → I < PetscBlock.dofs (D.field i) → k < (D.field i).bs → J < PetscBlock.dofs (D.field j) →
        l < (D.field j).bs → P i j ((D.field i).bs * I + k) ((D.field j).bs * J + l) =
          PetscBlock.withConditions C (PetscBlock.mat D (D.pre.getD D.a)) i j I k J l := by
    unfold PetscBlock.assemblePre
    cases hp : D.pre with
    | none => exact ⟨A, rfl, hA⟩
    | some p => exact block_matrix D C g h p (h.precond p hp) (fun i hi hb => (h.diagonal i hi hb).2 p hp) s.P
  obtain ⟨b1, b2, k1, k2, hr⟩ := block_rhs D C g h s.b
  obtain ⟨b4, hb4⟩ : ∃ b4, b4 = fun i q => PetscBlock.setBc D (Scatterer.scatterRev (D.field i).w (D.field i).bs (· + ·) (b2 i) q) i q := ⟨_, rfl⟩
  have hent : ∀ (B : Nat → Nat → Nat → Nat → R) (M : Nat → Nat → Nat → Nat → Nat → Nat → R),
      (∀ i j I k J l, i < D.n → j < D.n → I < PetscBlock.dofs (D.field i) → k < (D.field i).bs → J < PetscBlock.dofs (D.field j) →
        l < (D.field j).bs → B i j ((D.field i).bs * I + k) ((D.field j).bs * J + l) = M i j I k J l) →
      PetscBlock.entries D B = PetscBlock.toScalar D M := by
    intro B M hB
    funext i j r c
    unfold PetscBlock.entries PetscBlock.toScalar
    show (if i < D.n ∧ j < D.n ∧ r < (D.field i).bs * PetscBlock.dofs (D.field i) ∧ c < (D.field j).bs * PetscBlock.dofs (D.field j) then _ else _) = _
    split
    · rename_i hh
      obtain ⟨hi, hj, hr, hc⟩ := hh
      have := hB i j (r / (D.field i).bs) (r % (D.field i).bs) (c / (D.field j).bs) (c % (D.field j).bs) hi hj (Nat.div_lt_of_lt_mul hr)
        (Nat.mod_lt _ (h.block i hi)) (Nat.div_lt_of_lt_mul hc) (Nat.mod_lt _ (h.block j hj))
      rw [Nat.div_add_mod, Nat.div_add_mod] at this
      exact this
    · rfl
  have oA := hent A _ hA
  have oP := hent P _ hP
  have ob : PetscBlock.owned D b4 = PetscBlock.toOwned D (PetscBlock.rhs D C g) := by
    funext i q k
    unfold PetscBlock.owned PetscBlock.toOwned
    split
    · rename_i hi
      unfold NonlinProb.owned NonlinProb.toOwned NonlinProb.Problem.own
      show (if q < (D.field i).w.P ∧ k < (D.field i).bs * (D.field i).w.size q then _ else _) = _
      split
      · rename_i hh
        have hin : k / (D.field i).bs < (D.field i).w.size q := Nat.div_lt_of_lt_mul hh.2
        have := hr i q ((D.field i).w.r0 q + k / (D.field i).bs) (k % (D.field i).bs) hi ⟨hh.1, Nat.le_add_right _ _, Nat.add_lt_add_left hin _⟩
          (Nat.mod_lt _ (h.block i hi))
        rw [Nat.add_sub_cancel_left, Nat.div_add_mod] at this
        rw [hb4]
        exact this
      · rfl
    · rfl
  have e : PetscBlock.solve D ksp s = match ksp (PetscBlock.toScalar D (PetscBlock.withConditions C (PetscBlock.mat D D.a)))
      (PetscBlock.toScalar D (PetscBlock.withConditions C (PetscBlock.mat D (D.pre.getD D.a)))) (PetscBlock.toOwned D (PetscBlock.rhs D C g))
      (PetscBlock.owned D s.x) with
      | none => ({ s with A := A, P := P, b := b4 }, false)
      | some x => (PetscBlock.assignX D { s with A := A, P := P, b := b4, x := PetscBlock.putX D x s }, true) := by
    unfold PetscBlock.solve
    simp only [eA, eP, k1, k2]
    have hb4' : (fun i q => PetscBlock.setBc D (Scatterer.scatterRev (D.field i).w (D.field i).bs (fun x1 x2 => x1 + x2) (b2 i) q) i q) = b4 := hb4.symm
    simp only [hb4', oA, oP, ob]
    rfl
  intro A' P' out
  rw [e]
  refine ⟨?_, ?_⟩
  · intro ho
    have ho : ksp _ _ _ _ = none := ho
    rw [ho]
    exact ⟨rfl, rfl⟩
  · intro x ho
    have ho : ksp _ _ _ _ = some x := ho
    rw [ho]
    refine ⟨rfl, ?_⟩
    intro i hi
    obtain ⟨cx, cu⟩ := assign_consistent (D.field i).base (h.valid i hi)
      ⟨NonlinProb.place (D.field i).base (x i) (s.x i), s.u i, fun _ _ => 0, fun _ _ => 0, fun _ _ => 0⟩ (PetscBlock.fromOwned D x i)
      (fun r I k ho hk => place_owned (D.field i).base (x i) (s.x i) r I k ho hk)
    refine ⟨?_, ?_⟩
    · have : (PetscBlock.assignX D { s with A := A, P := P, b := b4, x := PetscBlock.putX D x s }).u i = (NonlinProb.assignX (D.field i).base
          ⟨NonlinProb.place (D.field i).base (x i) (s.x i), s.u i, fun _ _ => 0, fun _ _ => 0, fun _ _ => 0⟩).u := by
        unfold PetscBlock.assignX NonlinProb.assignX PetscBlock.putX
        simp only [hi, if_true]
        rfl
      exact this ▸ cu
    · have : (PetscBlock.assignX D { s with A := A, P := P, b := b4, x := PetscBlock.putX D x s }).x i = (NonlinProb.assignX (D.field i).base
          ⟨NonlinProb.place (D.field i).base (x i) (s.x i), s.u i, fun _ _ => 0, fun _ _ => 0, fun _ _ => 0⟩).x := by
        unfold PetscBlock.assignX NonlinProb.assignX PetscBlock.putX
        simp only [hi, if_true]
        rfl
      exact this ▸ cx

/-- Row `(i, I, k)` of the system, for a constrained dof and for a free one. -/
theorem block_row (D : PetscBlock.Problem R) (C : Nat → Nat → Nat → Prop) (A : Nat → Nat → Nat → Nat → Nat → Nat → R) (U : Nat → Nat → Nat → R)
    (i I k : Nat) (hi : i < D.n) (hI : I < PetscBlock.dofs (D.field i)) (hk : k < (D.field i).bs) :
    (C i I k → ∑ j ∈ range D.n, ∑ J ∈ range (PetscBlock.dofs (D.field j)), ∑ l ∈ range (D.field j).bs,
      PetscBlock.withConditions C A i j I k J l * U j J l = U i I k) ∧
    (¬ C i I k → ∑ j ∈ range D.n, ∑ J ∈ range (PetscBlock.dofs (D.field j)), ∑ l ∈ range (D.field j).bs, A i j I k J l * U j J l =
      ∑ j ∈ range D.n, ∑ J ∈ range (PetscBlock.dofs (D.field j)), ∑ l ∈ range (D.field j).bs,
        PetscBlock.withConditions C A i j I k J l * U j J l +
      ∑ j ∈ range D.n, product (PetscBlock.dofs (D.field j)) (D.field j).bs (A i j I k) (C j) (U j)) := by
  classical
  refine ⟨?_, ?_⟩
  · intro hC
    rw [sum_eq_single i]
    · apply diag_row _ _ I k hI hk
      · unfold PetscBlock.withConditions; rw [if_pos (Or.inl hC), if_pos ⟨rfl, rfl, rfl⟩]
      · intro J l _ _ hne
        unfold PetscBlock.withConditions; rw [if_pos (Or.inl hC), if_neg (fun h => hne h.2)]
    · intro j _ hj
      apply sum_eq_zero
      intro J _
      apply sum_eq_zero
      intro l _
      unfold PetscBlock.withConditions
      rw [if_pos (Or.inl hC), if_neg (fun h => hj h.1.symm), zero_mul]
    · intro hn
      exact absurd (mem_range.mpr hi) hn
  · intro hC
    rw [← sum_add_distrib]
    apply sum_congr rfl
    intro j _
    apply free_row
    · intro J l _ _ hCJ
      unfold PetscBlock.withConditions
      rw [if_pos (Or.inr hCJ), if_neg]
      rintro ⟨rfl, rfl, rfl⟩
      exact hC hCJ
    · intro J l _ _ hCJ
      unfold PetscBlock.withConditions
      rw [if_neg (by rintro (h | h) <;> contradiction)]

/-- C106: the system that is handed over has the same solutions as the problem. -/
theorem C106_equivalent (D : PetscBlock.Problem R) (C : Nat → Nat → Nat → Prop) (g U : Nat → Nat → Nat → R) :
    (∀ i I k, i < D.n → I < PetscBlock.dofs (D.field i) → k < (D.field i).bs →
      ∑ j ∈ range D.n, ∑ J ∈ range (PetscBlock.dofs (D.field j)), ∑ l ∈ range (D.field j).bs,
        PetscBlock.withConditions C (PetscBlock.mat D D.a) i j I k J l * U j J l = PetscBlock.rhs D C g i I k) ↔
    PetscBlock.Solves D C g U := by
  classical
  have hprod : (∀ i I k, i < D.n → I < PetscBlock.dofs (D.field i) → k < (D.field i).bs → C i I k → U i I k = g i I k) → ∀ i I k,
      ∑ j ∈ range D.n, product (PetscBlock.dofs (D.field j)) (D.field j).bs (PetscBlock.mat D D.a i j I k) (C j) (U j) =
      ∑ j ∈ range D.n, product (PetscBlock.dofs (D.field j)) (D.field j).bs (PetscBlock.mat D D.a i j I k) (C j) (g j) := by
    intro hc i I k
    apply sum_congr rfl
    intro j hj
    unfold product
    apply sum_congr rfl
    intro J hJ
    apply sum_congr rfl
    intro l hl
    split
    · rename_i hC
      rw [hc j J l (mem_range.mp hj) (mem_range.mp hJ) (mem_range.mp hl) hC]
    · rfl
  constructor
  · intro hs
    have hc : ∀ i I k, i < D.n → I < PetscBlock.dofs (D.field i) → k < (D.field i).bs → C i I k → U i I k = g i I k := by
      intro i I k hi hI hk hC
      have := hs i I k hi hI hk
      rw [(block_row D C (PetscBlock.mat D D.a) U i I k hi hI hk).1 hC] at this
      unfold PetscBlock.rhs at this
      rwa [if_pos hC] at this
    refine ⟨hc, ?_⟩
    intro i I k hi hI hk hC
    have h1 := (block_row D C (PetscBlock.mat D D.a) U i I k hi hI hk).2 hC
    rw [hs i I k hi hI hk, hprod hc i I k] at h1
    unfold PetscBlock.rhs at h1
    rw [if_neg hC, sub_add_cancel] at h1
    exact h1
  · rintro ⟨hc, hf⟩ i I k hi hI hk
    unfold PetscBlock.rhs
    by_cases hC : C i I k
    · rw [(block_row D C (PetscBlock.mat D D.a) U i I k hi hI hk).1 hC, if_pos hC, hc i I k hi hI hk hC]
    · rw [if_neg hC, ← hprod hc i I k, ← hf i I k hi hI hk hC, (block_row D C (PetscBlock.mat D D.a) U i I k hi hI hk).2 hC]
      ring

/-- C106: if KSP returns a solution of the system that it was given, then all ranks hold in the functions, for owned and ghost dofs,
vectors that have the prescribed values and satisfy the equations of all free dofs of all fields. -/
theorem C106_solution [DecidableEq R] (D : PetscBlock.Problem R) (C : Nat → Nat → Nat → Prop) (g : Nat → Nat → Nat → R)
    (h : PetscBlock.ProblemOk D C g) (ksp : PetscBlock.Ksp R) (hksp : ∀ A P b x y, ksp A P b x = some y → PetscBlock.SolvesSystem D A b y)
    (s : PetscBlock.State R) (hs : (PetscBlock.solve D ksp s).2 = true) :
    ∃ U : Nat → Nat → Nat → R, (∀ i, i < D.n → ConsistentVector (D.field i).w (D.field i).bs ((PetscBlock.solve D ksp s).1.u i) (U i)) ∧
      PetscBlock.Solves D C g U := by
  obtain ⟨hn, hx⟩ := C106_system D C g h ksp s
  obtain ⟨o, ho⟩ : ∃ o, ksp (PetscBlock.toScalar D (PetscBlock.withConditions C (PetscBlock.mat D D.a)))
    (PetscBlock.toScalar D (PetscBlock.withConditions C (PetscBlock.mat D (D.pre.getD D.a)))) (PetscBlock.toOwned D (PetscBlock.rhs D C g))
    (PetscBlock.owned D s.x) = o := ⟨_, rfl⟩
  cases o with
  | none => rw [(hn ho).1] at hs; cases hs
  | some x =>
    refine ⟨PetscBlock.fromOwned D x, fun i hi => ((hx x ho).2 i hi).1, (C106_equivalent D C g _).mp ?_⟩
    intro i I k hi hI hk
    have := hksp _ _ _ _ _ ho i I k hi hI hk
    obtain ⟨r, hr⟩ := exists_owner (D.field i).w I hI
    have e1 : PetscBlock.fromOwned D (PetscBlock.toOwned D (PetscBlock.rhs D C g)) i I k =
        PetscBlock.toOwned D (PetscBlock.rhs D C g) i r ((D.field i).bs * (I - (D.field i).w.r0 r) + k) :=
      from_owned (D.field i).w (D.field i).bs _ r I k hr
    rw [e1] at this
    have hlt : ∀ i J l, J < PetscBlock.dofs (D.field i) → l < (D.field i).bs → (D.field i).bs * J + l < (D.field i).bs * PetscBlock.dofs (D.field i) := by
      intro i J l hJ hl
      calc (D.field i).bs * J + l < (D.field i).bs * J + (D.field i).bs := by omega
        _ = (D.field i).bs * (J + 1) := by ring
        _ ≤ _ := Nat.mul_le_mul_left _ hJ
    have hd : ∀ i a c, i < D.n → c < (D.field i).bs → ((D.field i).bs * a + c) / (D.field i).bs = a ∧ ((D.field i).bs * a + c) % (D.field i).bs = c := by
      intro i a c hi hc
      rw [Nat.mul_add_div (h.block i hi), Nat.div_eq_of_lt hc, Nat.mul_add_mod, Nat.mod_eq_of_lt hc]
      exact ⟨rfl, rfl⟩
    have hin : (D.field i).bs * (I - (D.field i).w.r0 r) + k < (D.field i).bs * (D.field i).w.size r := by
      calc (D.field i).bs * (I - (D.field i).w.r0 r) + k < (D.field i).bs * (I - (D.field i).w.r0 r) + (D.field i).bs := by omega
        _ = (D.field i).bs * (I - (D.field i).w.r0 r + 1) := by ring
        _ ≤ _ := Nat.mul_le_mul_left _ (by have := hr.2; omega)
    have hR : PetscBlock.toOwned D (PetscBlock.rhs D C g) i r ((D.field i).bs * (I - (D.field i).w.r0 r) + k) = PetscBlock.rhs D C g i I k := by
      unfold PetscBlock.toOwned NonlinProb.toOwned
      rw [if_pos hi, if_pos ⟨hr.1, hin⟩, (hd i _ k hi hk).1, (hd i _ k hi hk).2]
      congr 1
      have := hr.2; omega
    rw [hR] at this
    rw [← this]
    apply sum_congr rfl
    intro j hj
    have hj := mem_range.mp hj
    apply sum_congr rfl
    intro J hJ
    apply sum_congr rfl
    intro l hl
    congr 1
    have hJ := mem_range.mp hJ
    have hl := mem_range.mp hl
    unfold PetscBlock.toScalar
    rw [if_pos ⟨hi, hj, hlt i I k hI hk, hlt j J l hJ hl⟩, (hd i I k hi hk).1, (hd i I k hi hk).2, (hd j J l hj hl).1, (hd j J l hj hl).2]

/-- C106: a field with conditions whose diagonal block is missing is refused, before the functions are changed. -/
theorem C106_refused [DecidableEq R] (D : PetscBlock.Problem R) (ksp : PetscBlock.Ksp R) (s : PetscBlock.State R) (i q : Nat) (hi : i < D.n)
    (hq : q < D.P) (hb : (D.field i).bcs q ≠ []) (ha : D.a i i = none) :
    (PetscBlock.solve D ksp s).2 = false ∧ (PetscBlock.solve D ksp s).1.u = s.u := by
  have hnone : PetscBlock.assembleAll D D.a s.A = none := by
    cases e : PetscBlock.assembleAll D D.a s.A with
    | none => rfl
    | some A =>
      have e2 := allSome_some (allSome_some e i hi) i hi
      unfold PetscBlock.assembleBlock at e2
      rw [ha] at e2
      dsimp only at e2
      rw [if_pos] at e2
      · cases e2
      · refine ⟨rfl, ?_⟩
        rw [List.all_eq_true]
        intro hall
        exact hb (List.isEmpty_iff.mp (hall q (List.mem_range.mpr hq)))
  unfold PetscBlock.solve
  rw [hnone]
  exact ⟨rfl, rfl⟩

/-- C106: what a solve does depends only on the contents of `x` before, not on matrices, right-hand sides or functions. -/
theorem C106_history [DecidableEq R] (D : PetscBlock.Problem R) (ksp : PetscBlock.Ksp R) (s t : PetscBlock.State R)
    (hx : ∀ i q k, s.x i q k = t.x i q k) :
    (PetscBlock.solve D ksp s).2 = (PetscBlock.solve D ksp t).2 ∧ ((PetscBlock.solve D ksp s).2 = true →
      (∀ i q k, i < D.n → k < (D.field i).bs * ((D.field i).w.size q + ((D.field i).w.ghosts q).length) →
        (PetscBlock.solve D ksp s).1.u i q k = (PetscBlock.solve D ksp t).1.u i q k) ∧
      (PetscBlock.solve D ksp s).1.x = (PetscBlock.solve D ksp t).1.x ∧ (PetscBlock.solve D ksp s).1.b = (PetscBlock.solve D ksp t).1.b ∧
      (PetscBlock.solve D ksp s).1.A = (PetscBlock.solve D ksp t).1.A ∧ (PetscBlock.solve D ksp s).1.P = (PetscBlock.solve D ksp t).1.P) := by
  have hx : s.x = t.x := by funext i q k; exact hx i q k
  have hA : PetscBlock.assembleAll D D.a s.A = PetscBlock.assembleAll D D.a t.A := rfl
  have hP : ∀ A, PetscBlock.assemblePre D s.P A = PetscBlock.assemblePre D t.P A := fun _ => rfl
  have hb : ∀ i, PetscBlock.vectorOn D s.b i = PetscBlock.vectorOn D t.b i := fun _ => rfl
  have hput : ∀ x, PetscBlock.putX D x s = PetscBlock.putX D x t := by intro x; unfold PetscBlock.putX; rw [hx]
  unfold PetscBlock.solve
  simp only [hA, hP, hb, hx]
  split
  · exact ⟨rfl, fun h => by cases h⟩
  split
  · exact ⟨rfl, fun h => by cases h⟩
  split
  · exact ⟨rfl, fun h => by cases h⟩
  split
  · exact ⟨rfl, fun h => by cases h⟩
  split
  · exact ⟨rfl, fun h => by cases h⟩
  · refine ⟨rfl, fun _ => ⟨?_, ?_, rfl, rfl, rfl⟩⟩
    · intro i q k hi hk
      unfold PetscBlock.assignX
      dsimp only
      simp only [if_pos hi]
      show (if k < (D.field i).base.dim q then _ else _) = (if k < (D.field i).base.dim q then _ else _)
      rw [if_pos (show k < (D.field i).base.dim q from hk), if_pos (show k < (D.field i).base.dim q from hk)]
      rfl
    · rfl

/-! ## Example: two fields with four dofs each on two ranks, both fixed at both ends -/
namespace C106ex

def L1 (q : Nat) : Form Int where
  numTypes := 1
  ints := fun ty _ => if ty = .cell then
    [{ dom0 := if q = 0 then [0, 1] else [0], dom1 := if q = 0 then [0, 1] else [0], tensor := fun _ _ => 2 }] else []

def D : PetscBlock.Problem Int where
  P := 2
  n := 2
  field := fun i => ⟨spWorld, 1, asmDofmap, if i = 0 then C90ex.L else L1, vecBcs⟩
  a := fun i j => if i = 0 then some asmForm else if j = 0 then none else some C105ex.pre
  pre := some fun i j => if i = j then some C105ex.pre else none

theorem ok : PetscBlock.ProblemOk D (fun _ I _ => I = 0 ∨ I = 3) (fun _ _ _ => 5) := by
  obtain ⟨hF, _, hd, hr, _, hs⟩ := asm_hyps
  refine ⟨fun _ _ => rfl, fun _ _ => asmWorld_valid, fun _ _ => Nat.one_pos, ?_, ?_, ?_, ?_, ?_, fun _ _ q hq => ⟨hd q hq, hr q hq⟩,
    fun _ _ q hq c hc => ⟨vecBlock_ok.bcOk q hq c hc, ?_⟩, fun _ _ => vecValues, ?_⟩
  · intro i _ q _
    show VAccepted ((if i = 0 then C90ex.L else L1) q)
    split <;> exact Or.inl le_rfl
  · intro i j _ _ F hFij q hq
    have hFij : (if i = 0 then some asmForm else if j = 0 then none else some C105ex.pre) = some F := hFij
    split at hFij
    · cases hFij; exact hF q hq
    · split at hFij
      · cases hFij
      · cases hFij; exact Or.inl le_rfl
  · intro p hp i j _ _ F hFij q hq
    obtain rfl := Option.some.inj hp
    have hFij : (if i = j then some C105ex.pre else none) = some F := hFij
    split at hFij
    · cases hFij; exact Or.inl le_rfl
    · cases hFij
  · intro i hi
    have : i < 2 := hi
    refine ⟨⟨1, by decide, ?_⟩, ⟨0 + i, by simpa [D] using hi, ?_⟩⟩ <;> interval_cases i <;> simp [D]
  · intro p hp i hi
    obtain rfl := Option.some.inj hp
    exact ⟨⟨i, hi, by simp⟩, ⟨i, hi, by simp⟩⟩
  · exact hs q hq (c, true) (by simpa [vecBcs, asmBcs, D] using hc)
  · intro i _ _
    refine ⟨?_, ?_⟩
    · show (if i = 0 then some asmForm else if i = 0 then none else some C105ex.pre) ≠ none
      split <;> simp
    · intro p hp
      obtain rfl := Option.some.inj hp
      show (if i = i then some C105ex.pre else none) ≠ none
      simp

/-- The matrix of the system. -/
def M (i j I J : Nat) : Int :=
  if i = 0 then (if j = 0 then C90ex.M I J else [0, 0, 0, 0, 0, 2, -1, 0, 0, -1, 2, 0, 0, 0, 0, 0].getD (4 * I + J) 0)
  else if j = 0 then 0 else [1, 0, 0, 0, 0, 4, 0, 0, 0, 0, 4, 0, 0, 0, 0, 1].getD (4 * I + J) 0

def B (i I : Nat) : Int := if i = 0 then [5, 13, 10, 5].getD I 0 else [5, 4, 4, 5].getD I 0

def X (i I : Nat) : Int := if i = 0 then [5, 11, 10, 5].getD I 0 else [5, 1, 1, 5].getD I 0

/-- A solver that can solve this one system. -/
def ksp : PetscBlock.Ksp Int := fun A P b _ =>
  if ((List.range 2).all fun i => (List.range 2).all fun j => (List.range 4).all fun I => (List.range 4).all fun J => decide (A i j I J = M i j I J)) = true ∧
    ((List.range 2).all fun i => (List.range 4).all fun I => decide (b i (I / 2) (I % 2) = B i I)) = true ∧ P 0 0 1 1 = 4 ∧ P 0 0 0 0 = 1 ∧ P 0 1 1 1 = 0
  then some fun i q k => X i (2 * q + k)
  else none

theorem ksp_ok : ∀ A P b x y, ksp A P b x = some y → PetscBlock.SolvesSystem D A b y := by
  intro A P b x y h
  unfold ksp at h
  split at h
  · rename_i hc
    obtain ⟨hA, hb, _⟩ := hc
    have h7 : ∀ i, i < 2 → ∀ j, j < 2 → ∀ I, I < 4 → ∀ J, J < 4 → A i j I J = M i j I J := by
      intro i hi j hj I hI J hJ
      have h1 := List.all_eq_true.mp (List.all_eq_true.mp hA i (List.mem_range.mpr hi)) j (List.mem_range.mpr hj)
      exact of_decide_eq_true (List.all_eq_true.mp (List.all_eq_true.mp h1 I (List.mem_range.mpr hI)) J (List.mem_range.mpr hJ))
    have h8 : ∀ i, i < 2 → ∀ I, I < 4 → b i (I / 2) (I % 2) = B i I := by
      intro i hi I hI
      exact of_decide_eq_true (List.all_eq_true.mp (List.all_eq_true.mp hb i (List.mem_range.mpr hi)) I (List.mem_range.mpr hI))
    cases h
    intro i I k hi hI hk
    have hi : i < 2 := hi
    have hI : I < 4 := hI
    have hk : k = 0 := by have : k < 1 := hk; omega
    subst hk
    have hfrom : ∀ (z : Nat → Nat → Nat → Int) j J, J < 4 → NonlinProb.fromOwned spWorld 1 (z j) J 0 = z j (J / 2) (J % 2) := by
      intro z j J hJ
      have ho : Owns spWorld (J / 2) J := by
        unfold Owns
        interval_cases J <;> decide +kernel
      rw [from_owned spWorld 1 (z j) (J / 2) J 0 ho]
      interval_cases J <;> rfl
    show ∑ j ∈ range 2, ∑ J ∈ range 4, ∑ l ∈ range 1, A i j (1 * I + 0) (1 * J + l) * NonlinProb.fromOwned spWorld 1 (fun q k => X j (2 * q + k)) J l =
      NonlinProb.fromOwned spWorld 1 (b i) I 0
    rw [hfrom b i I hI, h8 i hi I hI]
    have e : ∀ j ∈ range 2, ∑ J ∈ range 4, ∑ l ∈ range 1, A i j (1 * I + 0) (1 * J + l) *
        NonlinProb.fromOwned spWorld 1 (fun q k => X j (2 * q + k)) J l = ∑ J ∈ range 4, M i j I J * X j J := by
      intro j hj
      apply sum_congr rfl
      intro J hJ
      have hJ := mem_range.mp hJ
      rw [sum_range_one, add_zero, add_zero, one_mul, one_mul, h7 i hi j (mem_range.mp hj) I hI J hJ,
        hfrom (fun j q k => X j (2 * q + k)) j J hJ]
      congr 2
      omega
    rw [sum_congr rfl e]
    interval_cases i <;> interval_cases I <;> decide
  · cases h

/-- Arbitrary earlier contents. -/
def s : PetscBlock.State Int := ⟨fun i q n => i + q + 3 * n + 1, fun _ _ n => 7 - n, fun _ _ _ => -1, fun _ _ _ _ => 99, fun _ _ _ _ => 4⟩

end C106ex

/-- The hypotheses of `C106_solution` are met, and the solution is the expected one on both ranks, with the ghost. -/
example : (List.range 3).map ((PetscBlock.solve C106ex.D C106ex.ksp C106ex.s).1.u 0 0) = [5, 11, 10] ∧
    (List.range 2).map ((PetscBlock.solve C106ex.D C106ex.ksp C106ex.s).1.u 0 1) = [10, 5] ∧
    (List.range 3).map ((PetscBlock.solve C106ex.D C106ex.ksp C106ex.s).1.u 1 0) = [5, 1, 1] ∧
    ∃ U, (∀ i, i < 2 → ConsistentVector spWorld 1 ((PetscBlock.solve C106ex.D C106ex.ksp C106ex.s).1.u i) (U i)) ∧
      PetscBlock.Solves C106ex.D (fun _ I _ => I = 0 ∨ I = 3) (fun _ _ _ => 5) U := by
  refine ⟨by decide +kernel, by decide +kernel, by decide +kernel, ?_⟩
  exact C106_solution C106ex.D _ _ C106ex.ok C106ex.ksp C106ex.ksp_ok C106ex.s (by decide +kernel)

/-- The hypotheses of `C106_refused` are met. -/
example : (PetscBlock.solve { C106ex.D with a := fun i j => if i = j then none else some asmForm } C106ex.ksp C106ex.s).2 = false :=
  (C106_refused _ C106ex.ksp C106ex.s 1 0 (by decide) (by decide) (by show vecBcs 0 ≠ []; simp [vecBcs, asmBcs]) rfl).1

end Verif.Props
