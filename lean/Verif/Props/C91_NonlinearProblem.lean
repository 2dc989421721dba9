import Verif.Props.C90_LinearProblem
import Verif.Spec.NonlinearProblem
/-!
# C91: residual, Jacobian and solution of `NonlinearProblem`
-/
namespace Verif.Props
open Verif.Spec.Assemble Verif.Spec Verif.Spec.NonlinProb Verif.World Verif.Assembly Finset

variable {R : Type} [CommRing R]

theorem consistent_array (w : World) (bs : Nat) (hb : 0 < bs) (u : Nat → Nat → R) (X : Nat → Nat → R) (hu : ConsistentVector w bs u X)
    (q : Nat) (hq : q < w.P) (i : Nat) (hi : i < bs * (w.size q + (w.ghosts q).length)) :
    u q i = localArray w bs q X i := by
  have hlt : i / bs < w.size q + (w.ghosts q).length := Nat.div_lt_of_lt_mul hi
  obtain ⟨I, hI⟩ := globalOf_some w q _ hlt
  have := hu q hq (i / bs) I (i % bs) hI (Nat.mod_lt _ hb)
  rw [Nat.div_add_mod] at this
  unfold localArray
  rw [hI]
  exact this

theorem assign_consistent (D : NonlinProb.Problem R) (hv : D.w.Valid) (s : NonlinProb.State R) (X : Nat → Nat → R)
    (hx : ∀ r I k, Owns D.w r I → k < D.bs → s.x r (D.bs * (I - D.w.r0 r) + k) = X I k) :
    ConsistentVector D.w D.bs (NonlinProb.assignX D s).x X ∧ ConsistentVector D.w D.bs (NonlinProb.assignX D s).u X := by
  have h := fwd_consistent D.w hv D.bs s.x X hx
  refine ⟨h, ?_⟩
  intro q hq i I k hi hk
  have hlt : D.bs * i + k < D.dim q := by
    have := SubMap.globalOf_lt D.w q i I hi
    unfold NonlinProb.Problem.dim
    calc D.bs * i + k < D.bs * i + D.bs := by omega
      _ = D.bs * (i + 1) := by ring
      _ ≤ _ := Nat.mul_le_mul_left _ this
  show NonlinProb.copyArr (D.dim q) _ (s.u q) (D.bs * i + k) = _
  unfold NonlinProb.copyArr
  rw [if_pos hlt]
  exact h q hq i I k hi hk

/-- C91: `assemble_residual`.  Whatever the ghosts of `x`, the function `u` and `b` held before, the callback does not
raise an exception, `u` and `x` hold afterwards the point of evaluation on all ranks including ghosts, and `b` holds the
residual at that point, including ghosts: the distance from the boundary value in constrained dofs, the form and
the correction for wrong values in constrained dofs elsewhere. -/
theorem C91_residual [DecidableEq R] (D : NonlinProb.Problem R) (C : Nat → Nat → Prop) (g : Nat → Nat → R) (h : ProblemOk D C g)
    (s : NonlinProb.State R) (X : Nat → Nat → R)
    (hx : ∀ r I k, Owns D.w r I → k < D.bs → s.x r (D.bs * (I - D.w.r0 r) + k) = X I k) :
    ∃ s', NonlinProb.assembleResidual D s = some s' ∧ ConsistentVector D.w D.bs s'.x X ∧ ConsistentVector D.w D.bs s'.u X ∧
      ConsistentVector D.w D.bs s'.b (Res D C g X) ∧ s'.A = s.A ∧ s'.P = s.P := by
  classical
  obtain ⟨cx, cu⟩ := assign_consistent D h.valid s X hx
  obtain ⟨t, ht⟩ : ∃ t, t = NonlinProb.assignX D s := ⟨_, rfl⟩
  rw [← ht] at cx cu
  have hreads := fun q hq => h.reads q hq (t.u q) (localArray D.w D.bs q X) (fun i hi => consistent_array D.w D.bs h.block t.u X cu q hq i hi)
  let B : LiftBlock R := ⟨D.w, D.bs, true, fun q => D.J q (localArray D.w D.bs q X), D.dm, D.bcs, t.x, C, g, X⟩
  have hB : B.Ok D.w.P := ⟨h.valid, rfl, fun q hq => h.jacobian q hq _, fun q hq => (h.dofmap q hq).1, fun q hq => (h.dofmap q hq).2,
    fun q hq c hc => (h.conditions q hq c hc).1, h.values, cx⟩
  obtain ⟨c1, c2, e1, e2, e3⟩ := C46_lifting D.w h.valid D.bs D.dm (fun q hq => (h.dofmap q hq).1) [B] (by simpa using hB) true (-1)
    (fun q => D.F q (localArray D.w D.bs q X)) (fun q hq => h.residual q hq _)
  have f1 : ∀ q, q < D.w.P → NonlinProb.residualOn D t q = some (c1 q) := by
    intro q hq
    unfold NonlinProb.residualOn
    rw [(hreads q hq).1]
    exact e1 q hq
  obtain ⟨b1, hb1⟩ : ∃ b1, b1 = fun q => (NonlinProb.residualOn D t q).getD default := ⟨_, rfl⟩
  have k1 : LinProb.allSome D.w.P (NonlinProb.residualOn D t) = some b1 := by
    rw [hb1]; exact allSome_of fun q hq => ⟨_, f1 q hq⟩
  have g1 : ∀ q, q < D.w.P → b1 q = c1 q := fun q hq => Option.some.inj ((allSome_some k1 q hq).symm.trans (f1 q hq))
  have f2 : ∀ q, q < D.w.P → NonlinProb.liftOn D t (b1 q) q = some (c2 q) := by
    intro q hq
    unfold NonlinProb.liftOn
    rw [(hreads q hq).2.1, g1 q hq]
    exact e2 q hq
  obtain ⟨b2, hb2⟩ : ∃ b2, b2 = fun q => (NonlinProb.liftOn D t (b1 q) q).getD default := ⟨_, rfl⟩
  have k2 : LinProb.allSome D.w.P (fun q => NonlinProb.liftOn D t (b1 q) q) = some b2 := by
    rw [hb2]; exact allSome_of fun q hq => ⟨_, f2 q hq⟩
  have g2 : ∀ q, q < D.w.P → b2 q = c2 q := fun q hq => Option.some.inj ((allSome_some k2 q hq).symm.trans (f2 q hq))
  refine ⟨{ t with b := fun q => Scatterer.scatterFwd D.w D.bs (fun q => NonlinProb.setBc D t
      (Scatterer.scatterRev D.w D.bs (· + ·) b2 q) q) q }, ?_, cx, cu, ?_, by rw [ht]; rfl, by rw [ht]; rfl⟩
  · unfold NonlinProb.assembleResidual
    rw [← ht]
    simp only [k1, k2, Option.bind_eq_bind, Option.bind_some]
  · apply fwd_consistent D.w h.valid
    intro r I k ho hk
    have hi : I - D.w.r0 r < D.w.size r := by have := ho.2; omega
    have hgi : globalOf D.w r (I - D.w.r0 r) = some I := by
      unfold globalOf; rw [if_pos hi]; have := ho.2; congr 1; omega
    have hn : D.bs * (I - D.w.r0 r) + k < D.own r := by
      unfold NonlinProb.Problem.own
      calc D.bs * (I - D.w.r0 r) + k < D.bs * (I - D.w.r0 r) + D.bs := by omega
        _ = D.bs * (I - D.w.r0 r + 1) := by ring
        _ ≤ _ := Nat.mul_le_mul_left _ hi
    have hset := C46_set D.w D.bs D.bcs (fun q hq c hc => (h.conditions q hq c hc).1) C g h.values t.x X cx true (-1)
      (Scatterer.scatterRev D.w D.bs (· + ·) b2 r) r _ I k _ ho.1 hgi hk hn
    unfold Res
    by_cases hC : C I k
    · rw [if_pos hC]
      refine (hset.1 hC).trans ?_
      rw [if_pos rfl]; ring
    · rw [if_neg hC]
      refine (hset.2 hC).trans ?_
      rw [rev_congr D.w h.valid D.bs b2 c2 g2 r _ k ho.1 hi hk, e3 r I k ho hk]
      unfold formVec liftSum product formMat
      simp only [B, List.map_cons, List.map_nil, List.sum_cons, List.sum_nil, if_true, add_zero]
      rw [sub_eq_add_neg, ← sum_neg_distrib]
      congr 1
      apply sum_congr rfl
      intro J _
      rw [← sum_neg_distrib]
      apply sum_congr rfl
      intro l _
      split
      · ring
      · ring

/-- C91: the residual vanishes exactly for solutions of the problem. -/
theorem C91_zero (D : NonlinProb.Problem R) (C : Nat → Nat → Prop) (g X : Nat → Nat → R) :
    (∀ I k, I < D.w.r0 D.w.P → k < D.bs → Res D C g X I k = 0) ↔ Solution D C g X := by
  classical
  have hzero : (∀ I k, I < D.w.r0 D.w.P → k < D.bs → C I k → X I k = g I k) → ∀ I k,
      product (D.w.r0 D.w.P) D.bs (formMat D D.J X I k) C (fun J l => g J l - X J l) = 0 := by
    intro hc I k
    unfold product
    apply sum_eq_zero
    intro J hJ
    apply sum_eq_zero
    intro l hl
    split
    · rename_i hC
      show _ * (g J l - X J l) = 0
      rw [hc J l (mem_range.mp hJ) (mem_range.mp hl) hC]; ring
    · rfl
  constructor
  · intro hr
    have hc : ∀ I k, I < D.w.r0 D.w.P → k < D.bs → C I k → X I k = g I k := by
      intro I k hI hk hC
      have := hr I k hI hk
      unfold Res at this
      rw [if_pos hC] at this
      exact sub_eq_zero.mp this
    refine ⟨hc, ?_⟩
    intro I k hI hk hC
    have := hr I k hI hk
    unfold Res at this
    rwa [if_neg hC, hzero hc, add_zero] at this
  · rintro ⟨hc, hf⟩ I k hI hk
    unfold Res
    by_cases hC : C I k
    · rw [if_pos hC, hc I k hI hk hC, sub_self]
    · rw [if_neg hC, hzero hc, hf I k hI hk hC, add_zero]

/-- C91: a Newton step.  A vector `d` solves the system of the assembled Jacobian and residual if and only if
`X - d` has the prescribed values in constrained dofs and `d` satisfies the equations of the linearised form in free
dofs. -/
theorem C91_newton (D : NonlinProb.Problem R) (C : Nat → Nat → Prop) (g X d : Nat → Nat → R) :
    (∀ I k, I < D.w.r0 D.w.P → k < D.bs → ∑ J ∈ range (D.w.r0 D.w.P), ∑ l ∈ range D.bs,
      withConditions C (formMat D D.J X) I k J l * d J l = Res D C g X I k) ↔
    (∀ I k, I < D.w.r0 D.w.P → k < D.bs → C I k → X I k - d I k = g I k) ∧
    (∀ I k, I < D.w.r0 D.w.P → k < D.bs → ¬ C I k → ∑ J ∈ range (D.w.r0 D.w.P), ∑ l ∈ range D.bs,
      formMat D D.J X I k J l * d J l = formVec D X I k) := by
  classical
  have hrow : ∀ I k, I < D.w.r0 D.w.P → k < D.bs → C I k → ∑ J ∈ range (D.w.r0 D.w.P), ∑ l ∈ range D.bs,
      withConditions C (formMat D D.J X) I k J l * d J l = d I k := by
    intro I k hI hk hC
    apply diag_row _ _ I k hI hk
    · unfold withConditions; rw [if_pos (Or.inl hC), if_pos ⟨rfl, rfl⟩]
    · intro J l _ _ hne
      unfold withConditions; rw [if_pos (Or.inl hC), if_neg hne]
  have hfree : ∀ I k, ¬ C I k → ∑ J ∈ range (D.w.r0 D.w.P), ∑ l ∈ range D.bs, formMat D D.J X I k J l * d J l =
      ∑ J ∈ range (D.w.r0 D.w.P), ∑ l ∈ range D.bs, withConditions C (formMat D D.J X) I k J l * d J l +
        product (D.w.r0 D.w.P) D.bs (formMat D D.J X I k) C d := by
    intro I k hC
    apply free_row
    · intro J l _ _ hCJ
      unfold withConditions
      rw [if_pos (Or.inr hCJ), if_neg]
      rintro ⟨rfl, rfl⟩
      exact hC hCJ
    · intro J l _ _ hCJ
      unfold withConditions
      rw [if_neg (by rintro (h | h) <;> contradiction)]
  have hprod : (∀ I k, I < D.w.r0 D.w.P → k < D.bs → C I k → X I k - d I k = g I k) → ∀ I k,
      product (D.w.r0 D.w.P) D.bs (formMat D D.J X I k) C d +
        product (D.w.r0 D.w.P) D.bs (formMat D D.J X I k) C (fun J l => g J l - X J l) = 0 := by
    intro hc I k
    unfold product
    rw [← sum_add_distrib]
    apply sum_eq_zero
    intro J hJ
    rw [← sum_add_distrib]
    apply sum_eq_zero
    intro l hl
    split
    · rename_i hC
      show _ * d J l + _ * (g J l - X J l) = 0
      rw [← hc J l (mem_range.mp hJ) (mem_range.mp hl) hC]; ring
    · ring
  constructor
  · intro hs
    have hc : ∀ I k, I < D.w.r0 D.w.P → k < D.bs → C I k → X I k - d I k = g I k := by
      intro I k hI hk hC
      have := hs I k hI hk
      rw [hrow I k hI hk hC] at this
      unfold Res at this
      rw [if_pos hC] at this
      rw [this]; ring
    refine ⟨hc, ?_⟩
    intro I k hI hk hC
    rw [hfree I k hC, hs I k hI hk]
    unfold Res
    rw [if_neg hC]
    have := hprod hc I k
    linear_combination this
  · rintro ⟨hc, hf⟩ I k hI hk
    by_cases hC : C I k
    · rw [hrow I k hI hk hC]
      unfold Res
      rw [if_pos hC, ← hc I k hI hk hC]; ring
    · have h1 := hfree I k hC
      rw [hf I k hI hk hC] at h1
      unfold Res
      rw [if_neg hC]
      have := hprod hc I k
      linear_combination -this - h1

/-- C91: once an iterate has the prescribed values, steps of any length keep them; a full step reaches them. -/
theorem C91_steps (D : NonlinProb.Problem R) (C : Nat → Nat → Prop) (g X d : Nat → Nat → R) (step : R)
    (hs : ∀ I k, I < D.w.r0 D.w.P → k < D.bs → ∑ J ∈ range (D.w.r0 D.w.P), ∑ l ∈ range D.bs,
      withConditions C (formMat D D.J X) I k J l * d J l = Res D C g X I k)
    (hX : step = 1 ∨ ∀ I k, I < D.w.r0 D.w.P → k < D.bs → C I k → X I k = g I k) :
    ∀ I k, I < D.w.r0 D.w.P → k < D.bs → C I k → X I k - step * d I k = g I k := by
  intro I k hI hk hC
  have h1 := ((C91_newton D C g X d).mp hs).1 I k hI hk hC
  rcases hX with rfl | hX
  · rw [one_mul]; exact h1
  · have h2 := hX I k hI hk hC
    have : d I k = 0 := by linear_combination h2 - h1
    rw [this, mul_zero, sub_zero, h2]

/-! ## Jacobian -/

theorem petsc_l2g_get (w : World) (q i : Nat) : (NonlinProb.l2g w q)[i]? = globalOf w q i := by
  unfold NonlinProb.l2g globalOf
  by_cases hi : i < w.size q
  · rw [if_pos hi, List.getElem?_append_left (by simpa using hi), List.getElem?_map, List.getElem?_range hi]; rfl
  · rw [if_neg hi, List.getElem?_append_right (by simpa using hi)]; simp

theorem sum_zipIdx (l : List Nat) (f : Nat → Nat → R) (n : Nat) :
    ((l.zipIdx n).map fun x => f x.1 x.2).sum = ∑ a ∈ range l.length, f (l.getD a 0) (n + a) := by
  induction l generalizing n with
  | nil => rfl
  | cons x l ih =>
    rw [List.zipIdx_cons, List.map_cons, List.sum_cons, ih, List.length_cons, sum_range_succ', add_comm]
    congr 1
    apply sum_congr rfl
    intro a _
    rw [List.getD_cons_succ]
    congr 1
    omega

theorem petsc_calls (w : World) (bs q : Nat) (cs : List (Assembly.Call R)) (A : Nat → Nat → R) (I k J l : Nat) (hk : k < bs) (hl : l < bs) :
    runCalls (NonlinProb.petscAdd w bs q) A cs (bs * I + k) (bs * J + l) =
      A (bs * I + k) (bs * J + l) + rankOp w w bs bs q (cs.map (Assembly.Call.elem bs)) I k J l := by
  have hb : 0 < bs := by omega
  have hd : ∀ a c, c < bs → (bs * a + c) / bs = a ∧ (bs * a + c) % bs = c := by
    intro a c hc
    rw [Nat.mul_add_div hb, Nat.div_eq_of_lt hc, Nat.mul_add_mod, Nat.mod_eq_of_lt hc]
    exact ⟨rfl, rfl⟩
  induction cs generalizing A with
  | nil => simp [runCalls, rankOp]
  | cons c cs ih =>
    have e : runCalls (NonlinProb.petscAdd w bs q) A (c :: cs) =
      runCalls (NonlinProb.petscAdd w bs q) (NonlinProb.petscAdd w bs q A c.rows c.cols c.A) cs := rfl
    rw [e, ih]
    have e2 : rankOp w w bs bs q ((c :: cs).map (Assembly.Call.elem bs)) I k J l =
      rankOp w w bs bs q [Assembly.Call.elem bs c] I k J l + rankOp w w bs bs q (cs.map (Assembly.Call.elem bs)) I k J l := by
      simp [rankOp]
    rw [e2, ← add_assoc]
    congr 1
    unfold NonlinProb.petscAdd
    rw [(hd I k hk).1, (hd I k hk).2, (hd J l hl).1, (hd J l hl).2]
    congr 1
    unfold rankOp
    rw [List.map_cons, List.map_nil, List.sum_cons, List.sum_nil, add_zero]
    rw [sum_zipIdx c.rows (fun x a => (c.cols.zipIdx.map fun b =>
      if (NonlinProb.l2g w q)[x]? = some I ∧ (NonlinProb.l2g w q)[b.1]? = some J then
        c.A ((bs * a + k) * (bs * c.cols.length) + (bs * b.2 + l)) else 0).sum) 0]
    apply sum_congr rfl
    intro a ha
    have ha : a < c.rows.length := mem_range.mp ha
    rw [sum_zipIdx c.cols (fun y b => if (NonlinProb.l2g w q)[c.rows.getD a 0]? = some I ∧ (NonlinProb.l2g w q)[y]? = some J then
        c.A ((bs * (0 + a) + k) * (bs * c.cols.length) + (bs * b + l)) else 0) 0]
    apply sum_congr rfl
    intro b hb
    have hb : b < c.cols.length := mem_range.mp hb
    have h1 : ((Assembly.Call.elem bs c).rows[a]?).bind (globalOf w q) = globalOf w q (c.rows.getD a 0) := by
      show (c.rows[a]?).bind _ = _
      rw [List.getD_eq_getElem?_getD, List.getElem?_eq_getElem ha]; rfl
    have h2 : ((Assembly.Call.elem bs c).cols[b]?).bind (globalOf w q) = globalOf w q (c.cols.getD b 0) := by
      show (c.cols[b]?).bind _ = _
      rw [List.getD_eq_getElem?_getD, List.getElem?_eq_getElem hb]; rfl
    rw [h1, h2, petsc_l2g_get, petsc_l2g_get, Nat.zero_add, Nat.zero_add]
    rfl

/-- Diagonal entries on one rank. -/
theorem petsc_diag (w : World) (bs q : Nat) (ds : List Nat) (diag : R) (A : Nat → Nat → R) (r c : Nat) :
    ((∃ d ∈ ds, NonlinProb.scalarIndex w bs q d = some r) ∧ r = c → setDiagonal (NonlinProb.petscSet w bs q) ds diag A r c = diag) ∧
    (¬ ((∃ d ∈ ds, NonlinProb.scalarIndex w bs q d = some r) ∧ r = c) → setDiagonal (NonlinProb.petscSet w bs q) ds diag A r c = A r c) := by
  induction ds generalizing A with
  | nil =>
    refine ⟨?_, fun _ => rfl⟩
    rintro ⟨⟨d, hd, _⟩, _⟩
    cases hd
  | cons x ds ih =>
    have e : setDiagonal (NonlinProb.petscSet w bs q) (x :: ds) diag A =
      setDiagonal (NonlinProb.petscSet w bs q) ds diag (NonlinProb.petscSet w bs q A [x] [x] fun _ => diag) := rfl
    rw [e]
    obtain ⟨i1, i2⟩ := ih (NonlinProb.petscSet w bs q A [x] [x] fun _ => diag)
    by_cases hds : (∃ d ∈ ds, NonlinProb.scalarIndex w bs q d = some r) ∧ r = c
    · refine ⟨fun _ => i1 hds, ?_⟩
      intro hn
      obtain ⟨⟨d, hd, hh⟩, hrc⟩ := hds
      exact absurd ⟨⟨d, List.mem_cons_of_mem _ hd, hh⟩, hrc⟩ hn
    · rw [i2 hds]
      unfold NonlinProb.petscSet
      refine ⟨?_, ?_⟩
      · rintro ⟨⟨d, hd, hh⟩, rfl⟩
        rcases List.mem_cons.mp hd with rfl | hd
        · rw [if_pos ⟨by simp [hh], by simp [hh]⟩]
        · exact absurd ⟨⟨d, hd, hh⟩, rfl⟩ hds
      · intro hn
        rw [if_neg]
        rintro ⟨h1, h2⟩
        simp only [List.map_cons, List.map_nil, List.cons.injEq, and_true] at h1 h2
        apply hn
        refine ⟨⟨x, by simp, h1⟩, ?_⟩
        rw [h1] at h2
        exact Option.some.inj h2

/-- C91: a PETSc matrix after `assemble_matrix`: no exception; the matrix of the form, with rows and columns of the
identity (times `diag`) for constrained dofs. -/
theorem petsc_matrix (D : NonlinProb.Problem R) (C : Nat → Nat → Prop) (g : Nat → Nat → R) (h : ProblemOk D C g)
    (a : Nat → Form R) (ha : ∀ q, q < D.w.P → Accepted (a q)) :
    ∃ A', NonlinProb.assemblePetsc D a 1 (fun _ _ => 0) = some A' ∧
      ∀ I k J l, I < D.w.r0 D.w.P → k < D.bs → l < D.bs → A' (D.bs * I + k) (D.bs * J + l) =
        withConditions C (globalOp D.w D.w D.bs D.bs (fun q => elems (a q) (D.dm q) (D.dm q))) I k J l := by
  classical
  have hcons : Consistent D.w D.bs (fun q => (D.bcs q).map (·, true)) C := by
    intro q hq i I k hi hk
    rw [← (h.values q hq i I k hi hk).1]
    simp [Constrained]
  have hsort : ∀ q, q < D.w.P → SortedBcs ((D.bcs q).map (·, true)) := by
    intro q hq c hcm
    obtain ⟨c', hc', rfl⟩ := List.mem_map.mp hcm
    exact (h.conditions q hq c' hc').2
  have hlt : ∀ n i k, i < n → k < D.bs → D.bs * i + k < D.bs * n := by
    intro n i k hi hk
    calc D.bs * i + k < D.bs * i + D.bs := by omega
      _ = D.bs * (i + 1) := by ring
      _ ≤ D.bs * n := Nat.mul_le_mul_left _ hi
  -- element matrices of all ranks
  have hadd : ∀ n, n ≤ D.w.P → ∃ A', (List.range n).foldlM (fun A q =>
      assembleMatrix (NonlinProb.petscAdd D.w D.bs q) false (a q) (D.dm q) (D.dm q) (matrixMarkers (D.dim q) ((D.bcs q).map (·, true)))
        (matrixMarkers (D.dim q) ((D.bcs q).map (·, true))) A) (fun _ _ => (0 : R)) = some A' ∧
      ∀ I k J l, k < D.bs → l < D.bs → A' (D.bs * I + k) (D.bs * J + l) =
        ∑ q ∈ range n, if C I k ∨ C J l then 0 else rankOp D.w D.w D.bs D.bs q (elems (a q) (D.dm q) (D.dm q)) I k J l := by
    intro n
    induction n with
    | zero => intro _; exact ⟨_, rfl, by intros; simp⟩
    | succ n ih =>
      intro hn
      obtain ⟨A1, e1, v1⟩ := ih (by omega)
      have hq : n < D.w.P := hn
      obtain ⟨cs, e2, gd⟩ := does_matrix false (matrixMarkers (D.dim n) ((D.bcs n).map (·, true)))
        (matrixMarkers (D.dim n) ((D.bcs n).map (·, true))) (a n) (D.dm n) (D.dm n) (h.dofmap n hq).1 (h.dofmap n hq).1 (ha n hq)
      refine ⟨runCalls (NonlinProb.petscAdd D.w D.bs n) A1 cs, ?_, ?_⟩
      · rw [List.range_succ, List.foldlM_append, e1]
        refine (Option.bind_some ..).trans ?_
        rw [List.foldlM_cons, e2]
        rfl
      · intro I k J l hk hl
        rw [petsc_calls D.w D.bs n cs A1 I k J l hk hl, v1 I k J l hk hl, sum_range_succ]
        congr 1
        by_cases hex : ∃ e ∈ elems (a n) (D.dm n) (D.dm n), ∃ i ∈ e.rows, ∃ j ∈ e.cols, globalOf D.w n i = some I ∧ globalOf D.w n j = some J
        · obtain ⟨e, he, i, hi, j, hj, hgi, hgj⟩ := hex
          rw [rankOp_local D.w D.w h.valid h.valid D.bs D.bs n hq hq _ I k J l i j hgi hgj,
            rankOp_local D.w D.w h.valid h.valid D.bs D.bs n hq hq _ I k J l i j hgi hgj, gd.sum i k j l hk hl (by simp)]
          unfold removed
          rw [matrixMarkers_iff, matrixMarkers_iff, hcons n hq i I k hgi hk, hcons n hq j J l hgj hl]
          have b0 : D.bs * i + k < D.dim n := hlt _ i k (SubMap.globalOf_lt D.w n i I hgi) hk
          have b1 : D.bs * j + l < D.dim n := hlt _ j l (SubMap.globalOf_lt D.w n j J hgj) hl
          simp only [b0, b1, true_and]
        · rw [rankOp_zero D.w D.w D.bs D.bs n _ I k J l hex, ite_self, rankOp_zero]
          rintro ⟨e, he, i, hi, j, hj, hgi, hgj⟩
          obtain ⟨c, hc, rfl⟩ := List.mem_map.mp he
          obtain ⟨e, he, hie, hje⟩ := gd.cover c hc i hi j hj
          exact hex ⟨e, he, i, hie, j, hje, hgi, hgj⟩
  obtain ⟨A1, e1, v1⟩ := hadd D.w.P (Nat.le_refl _)
  -- diagonal
  have hdiag : ∀ n, n ≤ D.w.P → ∀ I k J l, k < D.bs → l < D.bs →
      ((C I k ∧ I = J ∧ k = l ∧ ∃ q, q < n ∧ Owns D.w q I) → (List.range n).foldl (fun A q =>
        setDiagonalBcs (NonlinProb.petscSet D.w D.bs q) D.bs (D.w.size q) ((D.bcs q).map (·, true)) 1 A) A1 (D.bs * I + k) (D.bs * J + l) = 1) ∧
      (¬ (C I k ∧ I = J ∧ k = l ∧ ∃ q, q < n ∧ Owns D.w q I) → (List.range n).foldl (fun A q =>
        setDiagonalBcs (NonlinProb.petscSet D.w D.bs q) D.bs (D.w.size q) ((D.bcs q).map (·, true)) 1 A) A1 (D.bs * I + k) (D.bs * J + l) =
          A1 (D.bs * I + k) (D.bs * J + l)) := by
    intro n
    induction n with
    | zero =>
      intro _ I k J l _ _
      refine ⟨?_, fun _ => rfl⟩
      rintro ⟨_, _, _, q, hq, _⟩
      omega
    | succ n ih =>
      intro hn I k J l hk hl
      obtain ⟨i1, i2⟩ := ih (by omega) I k J l hk hl
      have hq : n < D.w.P := hn
      rw [List.range_succ, List.foldl_append, List.foldl_cons, List.foldl_nil, setDiagonalBcs_eq]
      obtain ⟨d1, d2⟩ := petsc_diag D.w D.bs n (ownedDofs D.bs (D.w.size n) ((D.bcs n).map (·, true))) (1 : R) ((List.range n).foldl (fun A q =>
        setDiagonalBcs (NonlinProb.petscSet D.w D.bs q) D.bs (D.w.size q) ((D.bcs q).map (·, true)) 1 A) A1) (D.bs * I + k) (D.bs * J + l)
      have hiff : ((∃ d ∈ ownedDofs D.bs (D.w.size n) ((D.bcs n).map (·, true)), NonlinProb.scalarIndex D.w D.bs n d = some (D.bs * I + k)) ∧
          D.bs * I + k = D.bs * J + l) ↔ (C I k ∧ I = J ∧ k = l ∧ Owns D.w n I) := by
        have hdm : ∀ a c, c < D.bs → (D.bs * a + c) / D.bs = a ∧ (D.bs * a + c) % D.bs = c := by
          intro a c hc
          rw [Nat.mul_add_div h.block, Nat.div_eq_of_lt hc, Nat.mul_add_mod, Nat.mod_eq_of_lt hc]
          exact ⟨rfl, rfl⟩
        have hsp : ∀ A c B e, c < D.bs → e < D.bs → D.bs * A + c = D.bs * B + e → A = B ∧ c = e := by
          intro A c B e hc he hh
          have h1 := hdm A c hc
          have h2 := hdm B e he
          rw [hh] at h1
          exact ⟨h1.1.symm.trans h2.1, h1.2.symm.trans h2.2⟩
        constructor
        · rintro ⟨⟨d, hd, hs⟩, he⟩
          obtain ⟨hIJ, hkl⟩ := hsp _ _ _ _ hk hl he
          obtain ⟨hdlt, hcd⟩ := (mem_ownedDofs _ _ _ (hsort n hq) d).mp hd
          unfold NonlinProb.scalarIndex at hs
          rw [petsc_l2g_get] at hs
          obtain ⟨I', hI', hs⟩ := Option.map_eq_some_iff.mp hs
          obtain ⟨rfl, hdk⟩ := hsp _ _ _ _ (Nat.mod_lt _ h.block) hk hs
          have hdi : d / D.bs < D.w.size n := Nat.div_lt_of_lt_mul hdlt
          refine ⟨?_, hIJ, hkl, ?_⟩
          · refine (hcons n hq _ _ k hI' hk).mp ?_
            rw [← hdk, Nat.div_add_mod]
            exact hcd
          · unfold globalOf at hI'
            rw [if_pos hdi] at hI'
            have := Option.some.inj hI'
            refine ⟨hq, ?_, ?_⟩
            · rw [← this]; exact Nat.le_add_right _ _
            · rw [← this]; exact Nat.add_lt_add_left hdi _
        · rintro ⟨hC, rfl, rfl, ho⟩
          refine ⟨⟨D.bs * (I - D.w.r0 n) + k, ?_, ?_⟩, rfl⟩
          · have hi : I - D.w.r0 n < D.w.size n := by have := ho.2; omega
            refine (mem_ownedDofs _ _ _ (hsort n hq) _).mpr ⟨hlt _ _ _ hi hk, ?_⟩
            refine (hcons n hq _ I k ?_ hk).mpr hC
            unfold globalOf; rw [if_pos hi]; have := ho.2; congr 1; omega
          · unfold NonlinProb.scalarIndex
            rw [(hdm _ k hk).1, (hdm _ k hk).2, petsc_l2g_get]
            have hi : I - D.w.r0 n < D.w.size n := by have := ho.2; omega
            unfold globalOf; rw [if_pos hi]
            have := ho.2
            rw [Option.map_some, show D.w.r0 n + (I - D.w.r0 n) = I by omega]
      refine ⟨?_, ?_⟩
      · rintro ⟨hC, hIJ, hkl, q, hqn, ho⟩
        by_cases hqe : q = n
        · exact d1 (hiff.mpr ⟨hC, hIJ, hkl, hqe ▸ ho⟩)
        · rw [d2, i1 ⟨hC, hIJ, hkl, q, by omega, ho⟩]
          intro hh
          have := (hiff.mp hh).2.2.2
          exact hqe (SubMap.owns_unique D.w _ _ _ ho this)
      · intro hno
        rw [d2, i2]
        · rintro ⟨hC, hIJ, hkl, q, hqn, ho⟩
          exact hno ⟨hC, hIJ, hkl, q, by omega, ho⟩
        · intro hh
          obtain ⟨hC, hIJ, hkl, ho⟩ := hiff.mp hh
          exact hno ⟨hC, hIJ, hkl, n, by omega, ho⟩
  refine ⟨(List.range D.w.P).foldl (fun A q =>
        setDiagonalBcs (NonlinProb.petscSet D.w D.bs q) D.bs (D.w.size q) ((D.bcs q).map (·, true)) 1 A) A1, ?_, ?_⟩
  · unfold NonlinProb.assemblePetsc
    rw [e1]
    rfl
  · intro I k J l hI hk hl
    obtain ⟨r, ho⟩ := exists_owner D.w I hI
    obtain ⟨d1, d2⟩ := hdiag D.w.P (Nat.le_refl _) I k J l hk hl
    unfold withConditions
    by_cases hd : C I k ∧ I = J ∧ k = l
    · rw [if_pos (Or.inl hd.1), if_pos hd.2]
      exact d1 ⟨hd.1, hd.2.1, hd.2.2, r, ho.1, ho⟩
    · refine (d2 (fun hh => hd ⟨hh.1, hh.2.1, hh.2.2.1⟩)).trans ?_
      rw [v1 I k J l hk hl]
      by_cases hC : C I k ∨ C J l
      · simp only [if_pos hC]
        rw [if_neg, sum_const_zero]
        rintro ⟨rfl, rfl⟩
        exact hd ⟨hC.elim id id, rfl, rfl⟩
      · simp only [if_neg hC]
        rw [globalOp_eq]

/-- C91: `assemble_jacobian`.  Whatever the ghosts of `x`, `u` and the two matrices held before, the callback does not
raise an exception, `u` and `x` hold afterwards the point of evaluation on all ranks including ghosts, and the matrices
are those of the forms at that point with rows and columns of the identity for constrained dofs. -/
theorem C91_jacobian (D : NonlinProb.Problem R) (C : Nat → Nat → Prop) (g : Nat → Nat → R) (h : ProblemOk D C g)
    (s : NonlinProb.State R) (X : Nat → Nat → R)
    (hx : ∀ r I k, Owns D.w r I → k < D.bs → s.x r (D.bs * (I - D.w.r0 r) + k) = X I k) :
    ∃ s', NonlinProb.assembleJacobian D s = some s' ∧ ConsistentVector D.w D.bs s'.x X ∧ ConsistentVector D.w D.bs s'.u X ∧ s'.b = s.b ∧
      ∀ I k J l, I < D.w.r0 D.w.P → k < D.bs → l < D.bs →
        s'.A (D.bs * I + k) (D.bs * J + l) = withConditions C (formMat D D.J X) I k J l ∧
        s'.P (D.bs * I + k) (D.bs * J + l) = withConditions C (preMat D X) I k J l := by
  classical
  obtain ⟨cx, cu⟩ := assign_consistent D h.valid s X hx
  have hreads := fun q hq => h.reads q hq ((NonlinProb.assignX D s).u q) (localArray D.w D.bs q X)
    (fun i hi => consistent_array D.w D.bs h.block _ X cu q hq i hi)
  have hop : ∀ (a b : Nat → Form R), (∀ q, q < D.w.P → a q = b q) → globalOp D.w D.w D.bs D.bs (fun q => elems (a q) (D.dm q) (D.dm q)) =
      globalOp D.w D.w D.bs D.bs (fun q => elems (b q) (D.dm q) (D.dm q)) := by
    intro a b hab
    funext I k J l
    rw [globalOp_eq, globalOp_eq]
    apply sum_congr rfl
    intro q hq
    rw [hab q (mem_range.mp hq)]
  obtain ⟨A', e1, v1⟩ := petsc_matrix D C g h (fun q => D.J q ((NonlinProb.assignX D s).u q)) (fun q hq => h.jacobian q hq _)
  have v1' : ∀ I k J l, I < D.w.r0 D.w.P → k < D.bs → l < D.bs → A' (D.bs * I + k) (D.bs * J + l) =
      withConditions C (formMat D D.J X) I k J l := by
    intro I k J l hI hk hl
    rw [v1 I k J l hI hk hl, hop _ (fun q => D.J q (localArray D.w D.bs q X)) (fun q hq => (hreads q hq).2.1)]
    rfl
  cases hp : D.pre with
  | none =>
    refine ⟨{ NonlinProb.assignX D s with A := A', P := A' }, ?_, cx, cu, rfl, ?_⟩
    · unfold NonlinProb.assembleJacobian NonlinProb.assemblePre
      have e1' : NonlinProb.assemblePetsc D (fun q => D.J q ((NonlinProb.assignX D s).u q)) 1
        (NonlinProb.zeroEntries (NonlinProb.assignX D s).A) = some A' := e1
      simp only [hp]
      rw [e1']
      rfl
    · intro I k J l hI hk hl
      refine ⟨v1' I k J l hI hk hl, ?_⟩
      have : preMat D X = formMat D D.J X := by unfold preMat; rw [hp]
      rw [this]
      exact v1' I k J l hI hk hl
  | some p =>
    obtain ⟨B', e2, v2⟩ := petsc_matrix D C g h (fun q => p q ((NonlinProb.assignX D s).u q)) (fun q hq => h.precond p hp q hq _)
    refine ⟨{ NonlinProb.assignX D s with A := A', P := B' }, ?_, cx, cu, rfl, ?_⟩
    · unfold NonlinProb.assembleJacobian NonlinProb.assemblePre
      have e1' : NonlinProb.assemblePetsc D (fun q => D.J q ((NonlinProb.assignX D s).u q)) 1
        (NonlinProb.zeroEntries (NonlinProb.assignX D s).A) = some A' := e1
      have e2' : NonlinProb.assemblePetsc D (fun q => p q ((NonlinProb.assignX D s).u q)) 1
        (NonlinProb.zeroEntries (NonlinProb.assignX D s).P) = some B' := e2
      simp only [hp]
      rw [e1']
      show Option.bind (NonlinProb.assemblePetsc D (fun q => p q ((NonlinProb.assignX D s).u q)) 1
        (NonlinProb.zeroEntries (NonlinProb.assignX D s).P)) _ = _
      rw [e2']
      rfl
    · intro I k J l hI hk hl
      refine ⟨v1' I k J l hI hk hl, ?_⟩
      have : preMat D X = formMat D p X := by unfold preMat; rw [hp]
      rw [this]
      show B' _ _ = _
      rw [v2 I k J l hI hk hl, hop _ (fun q => p q (localArray D.w D.bs q X)) (fun q hq => (hreads q hq).2.2 p hp)]
      rfl

/-! ## Solve -/

theorem from_owned (w : World) (bs : Nat) (x : Nat → Nat → R) (r I k : Nat) (ho : Owns w r I) :
    fromOwned w bs x I k = x r (bs * (I - w.r0 r) + k) := by
  unfold fromOwned
  rw [sum_eq_single r]
  · rw [if_pos ho.2]
  · intro q hq hqr
    rw [if_neg]
    intro hh
    exact hqr (SubMap.owns_unique w _ _ _ ⟨mem_range.mp hq, hh⟩ ho)
  · intro hn
    exact absurd (mem_range.mpr ho.1) hn

theorem place_owned (D : NonlinProb.Problem R) (x old : Nat → Nat → R) (r I k : Nat) (ho : Owns D.w r I) (hk : k < D.bs) :
    NonlinProb.place D x old r (D.bs * (I - D.w.r0 r) + k) = fromOwned D.w D.bs x I k := by
  rw [from_owned D.w D.bs x r I k ho]
  unfold NonlinProb.place NonlinProb.copyArr
  rw [if_pos]
  unfold NonlinProb.Problem.own
  have : I - D.w.r0 r < D.w.size r := by have := ho.2; omega
  calc D.bs * (I - D.w.r0 r) + k < D.bs * (I - D.w.r0 r) + D.bs := by omega
    _ = D.bs * (I - D.w.r0 r + 1) := by ring
    _ ≤ _ := Nat.mul_le_mul_left _ this

theorem owned_consistent (D : NonlinProb.Problem R) (hb : 0 < D.bs) (b : Nat → Nat → R) (X : Nat → Nat → R)
    (hc : ConsistentVector D.w D.bs b X) : NonlinProb.owned D b = toOwned D.w D.bs X := by
  funext q i
  unfold NonlinProb.owned toOwned NonlinProb.Problem.own
  split
  · rename_i hh
    have hi : i / D.bs < D.w.size q := Nat.div_lt_of_lt_mul hh.2
    have := hc q hh.1 (i / D.bs) (D.w.r0 q + i / D.bs) (i % D.bs) (by unfold globalOf; rw [if_pos hi]) (Nat.mod_lt _ hb)
    rw [Nat.div_add_mod] at this
    exact this
  · rfl

theorem entries_scalar (D : NonlinProb.Problem R) (hb : 0 < D.bs) (A : Nat → Nat → R) (M : Nat → Nat → Nat → Nat → R)
    (hA : ∀ I k J l, I < D.w.r0 D.w.P → k < D.bs → l < D.bs → A (D.bs * I + k) (D.bs * J + l) = M I k J l) :
    NonlinProb.entries D A = toScalar D.w D.bs M := by
  funext r c
  unfold NonlinProb.entries toScalar
  split
  · rename_i hh
    have := hA (r / D.bs) (r % D.bs) (c / D.bs) (c % D.bs) (Nat.div_lt_of_lt_mul hh.1) (Nat.mod_lt _ hb) (Nat.mod_lt _ hb)
    rw [Nat.div_add_mod, Nat.div_add_mod] at this
    exact this
  · rfl

theorem run_snes [DecidableEq R] (D : NonlinProb.Problem R) (C : Nat → Nat → Prop) (g : Nat → Nat → R) (h : ProblemOk D C g)
    (prog : NonlinProb.Snes R) (s : NonlinProb.State R) :
    ∃ s', NonlinProb.runSnes D prog s = some s' ∧
      ∀ r I k, Owns D.w r I → k < D.bs → s'.x r (D.bs * (I - D.w.r0 r) + k) = ideal D C g prog I k := by
  induction prog generalizing s with
  | done x => exact ⟨_, rfl, fun r I k ho hk => place_owned D x s.x r I k ho hk⟩
  | residual x next ih =>
    obtain ⟨t, e, _, _, hb, _⟩ := C91_residual D C g h { s with x := NonlinProb.place D x s.x } (fromOwned D.w D.bs x)
      (fun r I k ho hk => place_owned D x s.x r I k ho hk)
    obtain ⟨s', e', hs'⟩ := ih (NonlinProb.owned D t.b) t
    refine ⟨s', ?_, ?_⟩
    · show Option.bind _ _ = _
      rw [e]
      exact e'
    · rw [owned_consistent D h.block t.b _ hb] at hs'
      exact hs'
  | jacobian x next ih =>
    obtain ⟨t, e, _, _, _, hA⟩ := C91_jacobian D C g h { s with x := NonlinProb.place D x s.x } (fromOwned D.w D.bs x)
      (fun r I k ho hk => place_owned D x s.x r I k ho hk)
    obtain ⟨s', e', hs'⟩ := ih (NonlinProb.entries D t.A) (NonlinProb.entries D t.P) t
    refine ⟨s', ?_, ?_⟩
    · show Option.bind _ _ = _
      rw [e]
      exact e'
    · rw [entries_scalar D h.block t.A _ (fun I k J l h1 h2 h3 => (hA I k J l h1 h2 h3).1),
        entries_scalar D h.block t.P _ (fun I k J l h1 h2 h3 => (hA I k J l h1 h2 h3).2)] at hs'
      exact hs'

/-- C91: `NonlinearProblem.solve`.  For every solver program and whatever the state: no exception in the callbacks, the
solver starts from the owned values of `u`, and `u` holds afterwards, on all ranks including ghosts, what the solver
returns when it is given the exact residuals and matrices of the problem. -/
theorem C91_solve [DecidableEq R] (D : NonlinProb.Problem R) (C : Nat → Nat → Prop) (g : Nat → Nat → R) (h : ProblemOk D C g)
    (snes : (Nat → Nat → R) → NonlinProb.Snes R) (s : NonlinProb.State R) (X : Nat → Nat → R)
    (hu : ∀ r I k, Owns D.w r I → k < D.bs → s.u r (D.bs * (I - D.w.r0 r) + k) = X I k) :
    ∃ s', NonlinProb.solve D snes s = some s' ∧ ConsistentVector D.w D.bs s'.u (ideal D C g (snes (toOwned D.w D.bs X))) ∧
      ConsistentVector D.w D.bs s'.x (ideal D C g (snes (toOwned D.w D.bs X))) := by
  have hstart : NonlinProb.owned D (fun q => NonlinProb.copyArr (D.dim q) (s.u q) (s.x q)) = toOwned D.w D.bs X := by
    funext q i
    unfold NonlinProb.owned toOwned NonlinProb.Problem.own
    split
    · rename_i hh
      have hi : i / D.bs < D.w.size q := Nat.div_lt_of_lt_mul hh.2
      have hle : D.bs * D.w.size q ≤ D.dim q := Nat.mul_le_mul_left _ (Nat.le_add_right _ _)
      have hlt : i < D.dim q := by omega
      refine (if_pos hlt).trans ?_
      have := hu q (D.w.r0 q + i / D.bs) (i % D.bs) ⟨hh.1, Nat.le_add_right _ _, Nat.add_lt_add_left hi _⟩ (Nat.mod_lt _ h.block)
      rw [Nat.add_sub_cancel_left, Nat.div_add_mod] at this
      exact this
    · rfl
  obtain ⟨t, e, ht⟩ := run_snes D C g h (snes (toOwned D.w D.bs X))
    { s with x := fun q => NonlinProb.copyArr (D.dim q) (s.u q) (s.x q) }
  obtain ⟨cx, cu⟩ := assign_consistent D h.valid t _ ht
  refine ⟨NonlinProb.assignX D t, ?_, cu, cx⟩
  unfold NonlinProb.solve
  show Option.bind (NonlinProb.runSnes D (snes (NonlinProb.owned D (fun q => NonlinProb.copyArr (D.dim q) (s.u q) (s.x q)))) _) _ = _
  rw [hstart, e]
  rfl

/-- C91: if the solver returns a vector with zero residual, `u` solves the discrete problem: boundary values hold and
the residual form vanishes in all free dofs. -/
theorem C91_solution [DecidableEq R] (D : NonlinProb.Problem R) (C : Nat → Nat → Prop) (g : Nat → Nat → R) (h : ProblemOk D C g)
    (snes : (Nat → Nat → R) → NonlinProb.Snes R) (s : NonlinProb.State R) (X : Nat → Nat → R)
    (hu : ∀ r I k, Owns D.w r I → k < D.bs → s.u r (D.bs * (I - D.w.r0 r) + k) = X I k)
    (hz : ∀ I k, I < D.w.r0 D.w.P → k < D.bs → Res D C g (ideal D C g (snes (toOwned D.w D.bs X))) I k = 0) :
    ∃ s' Y, NonlinProb.solve D snes s = some s' ∧ ConsistentVector D.w D.bs s'.u Y ∧ Solution D C g Y := by
  obtain ⟨s', e, hu', _⟩ := C91_solve D C g h snes s X hu
  exact ⟨s', _, e, hu', (C91_zero D C g _).mp hz⟩

/-! ## Example: `(u²)'' = 0` on three elements and two ranks, `u = 5` at both ends -/

namespace C91ex

/-- Entry of a local array. -/
def at' (q : Nat) (u : Nat → Int) (i : Nat) : Int := if i < 3 - q then u i else 0

def form (q : Nat) (t : Nat → Nat → Int) : Form Int where
  numTypes := 1
  ints := fun ty _ => if ty = .cell then
    [{ dom0 := if q = 0 then [0, 1] else [0], dom1 := if q = 0 then [0, 1] else [0], tensor := t }] else []

def D : NonlinProb.Problem Int where
  w := spWorld
  bs := 1
  F := fun q u => form q fun c n => (if n = 0 then 1 else -1) * (at' q u c * at' q u c - at' q u (c + 1) * at' q u (c + 1))
  J := fun q u => form q fun c n => [2 * at' q u c, -2 * at' q u (c + 1), -2 * at' q u c, 2 * at' q u (c + 1)].getD n 0
  pre := some fun q u => form q fun c n => [at' q u c, 0, 0, at' q u (c + 1)].getD n 0
  dm := asmDofmap
  bcs := vecBcs

theorem ok : ProblemOk D (fun I _ => I = 0 ∨ I = 3) (fun _ _ => 5) := by
  obtain ⟨_, _, hd, hr, _, hs⟩ := asm_hyps
  refine ⟨asmWorld_valid, Nat.one_pos, fun _ _ _ => Or.inl le_rfl, fun _ _ _ => Or.inl le_rfl, ?_, ?_, fun q hq => ⟨hd q hq, hr q hq⟩,
    fun q hq c hc => ⟨vecBlock_ok.bcOk q hq c hc, ?_⟩, vecValues⟩
  · intro p hp q _ u
    obtain rfl := Option.some.inj hp
    exact Or.inl le_rfl
  · intro q hq u v huv
    have : at' q u = at' q v := by
      funext i
      unfold at'
      split
      · rename_i hi
        apply huv
        have : q = 0 ∨ q = 1 := by have : q < 2 := hq; omega
        rcases this with rfl | rfl <;> exact hi
      · rfl
    refine ⟨?_, ?_, ?_⟩
    · simp only [D, this]
    · simp only [D, this]
    · intro p hp
      obtain rfl := Option.some.inj hp
      simp only [this]
  · exact hs q hq (c, true) (by simpa [vecBcs, asmBcs, D] using hc)

/-- Arbitrary earlier contents; `u` is 1, 2, 3, 4 with a wrong ghost. -/
def s : NonlinProb.State Int := ⟨fun q n => q + 7 * n, fun q n => if q = 0 then [1, 2, 99].getD n 0 else [3, 4].getD n 0, fun _ _ => 8, fun _ _ => 3,
  fun _ _ => -1⟩

/-- A solver that asks for residual and matrices at the initial guess and returns 5 if they are as computed by hand. -/
def snes (x : Nat → Nat → Int) : NonlinProb.Snes Int :=
  .residual x fun r => .jacobian x fun A P => .done fun _ _ =>
    if r 0 0 = -4 ∧ r 0 1 = -10 ∧ r 1 0 = -10 ∧ r 1 1 = -1 ∧ A 0 0 = 1 ∧ A 0 1 = 0 ∧ A 1 0 = 0 ∧ A 1 1 = 8 ∧ A 1 2 = -6 ∧ A 2 1 = -4 ∧
      A 2 2 = 12 ∧ A 3 3 = 1 ∧ P 1 1 = 4 ∧ P 1 2 = 0 then 5 else 0

end C91ex

/-- The hypotheses of `C91_solve` are met. -/
example : ∃ s', NonlinProb.solve C91ex.D C91ex.snes C91ex.s = some s' ∧ ConsistentVector spWorld 1 s'.u (fun _ _ => 5) ∧
    Solution C91ex.D (fun I _ => I = 0 ∨ I = 3) (fun _ _ => 5) (fun _ _ => 5) := by
  obtain ⟨s', e, hu, _⟩ := C91_solve C91ex.D _ _ C91ex.ok C91ex.snes C91ex.s (fun I _ => I + 1) (by
    intro r I k ho hk
    have hk : k = 0 := by have : k < 1 := hk; omega
    have hr : r = 0 ∨ r = 1 := by have : r < 2 := ho.1; omega
    subst hk
    rcases hr with rfl | rfl
    · have h1 : I < 2 := ho.2.2
      interval_cases I <;> rfl
    · have h0 : 2 ≤ I := ho.2.1
      have h1 : I < 4 := ho.2.2
      interval_cases I <;> rfl)
  have hall : (NonlinProb.solve C91ex.D C91ex.snes C91ex.s).map (fun s' => (s'.u 0 0, s'.u 0 1, s'.u 0 2, s'.u 1 0, s'.u 1 1)) =
    some (5, 5, 5, 5, 5) := by decide +kernel
  rw [e] at hall
  simp only [Option.map_some, Option.some.injEq, Prod.mk.injEq] at hall
  obtain ⟨h0, h1, h2, h3, h4⟩ := hall
  refine ⟨s', e, ?_, ⟨fun _ _ _ _ _ => rfl, ?_⟩⟩
  · intro q hq i I k hi hk
    have hk : k = 0 := by omega
    subst hk
    have hlt := SubMap.globalOf_lt spWorld q i I hi
    have hq : q = 0 ∨ q = 1 := by have : q < 2 := hq; omega
    rcases hq with rfl | rfl
    · have : i < 3 := hlt
      interval_cases i <;> assumption
    · have : i < 2 := hlt
      interval_cases i <;> assumption
  · intro I k hI hk _
    have hI : I < 4 := hI
    have hk : k = 0 := by have : k < 1 := hk; omega
    subst hk
    interval_cases I <;> decide +kernel

end Verif.Props
