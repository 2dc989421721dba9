import Verif.Props.C106_PetscBlock
import Verif.Spec.BlockNonlinear
/-!
# C107: residual, Jacobian and solution of `NonlinearProblem` with several fields
-/
namespace Verif.Props
open Verif.Spec.Assemble Verif.Spec Verif.World Verif.Assembly Finset

variable {R : Type} [CommRing R]

/-- The forms at given arrays are a linear problem with several fields. -/
theorem bn_packed {D : BlockNonlin.Problem R} {C : Nat → Nat → Nat → Prop} {g : Nat → Nat → Nat → R} (h : BlockNonlin.ProblemOk D C g)
    (u : Nat → Nat → Nat → R) : PetscBlock.ProblemOk (D.packed u) C g := by
  refine ⟨h.ranks, h.valid, h.block, fun i hi q hq => h.residual i hi q hq _, ?_, ?_, ?_, ?_, h.dofmap, h.conditions, h.values, ?_⟩
  · intro i j hi hj F hF q hq
    obtain ⟨a, ha, rfl⟩ := Option.map_eq_some_iff.mp hF
    exact h.jacobian i j hi hj a ha q hq _
  · intro p hp i j hi hj F hF q hq
    obtain ⟨p', hp', rfl⟩ := Option.map_eq_some_iff.mp hp
    obtain ⟨a, ha, rfl⟩ := Option.map_eq_some_iff.mp hF
    exact h.precond p' hp' i j hi hj a ha q hq _
  · intro i hi
    obtain ⟨⟨j, hj, e⟩, ⟨k, hk, e'⟩⟩ := h.forms i hi
    exact ⟨⟨j, hj, by simpa [BlockNonlin.Problem.packed] using e⟩, ⟨k, hk, by simpa [BlockNonlin.Problem.packed] using e'⟩⟩
  · intro p hp i hi
    obtain ⟨p', hp', rfl⟩ := Option.map_eq_some_iff.mp hp
    obtain ⟨⟨j, hj, e⟩, ⟨k, hk, e'⟩⟩ := h.preForms p' hp' i hi
    exact ⟨⟨j, hj, by simpa using e⟩, ⟨k, hk, by simpa using e'⟩⟩
  · intro i hi hb
    obtain ⟨e, e'⟩ := h.diagonal i hi hb
    refine ⟨by simpa [BlockNonlin.Problem.packed] using e, ?_⟩
    intro p hp
    obtain ⟨p', hp', rfl⟩ := Option.map_eq_some_iff.mp hp
    simpa using e' p' hp'

theorem bn_assign (E : PetscBlock.Problem R) (hv : ∀ i, i < E.n → (E.field i).w.Valid) (s : PetscBlock.State R) (X : Nat → Nat → Nat → R)
    (hx : ∀ i r I k, i < E.n → Owns (E.field i).w r I → k < (E.field i).bs → s.x i r ((E.field i).bs * (I - (E.field i).w.r0 r) + k) = X i I k) :
    ∀ i, i < E.n → ConsistentVector (E.field i).w (E.field i).bs ((PetscBlock.assignX E s).x i) (X i) ∧
      ConsistentVector (E.field i).w (E.field i).bs ((PetscBlock.assignX E s).u i) (X i) := by
  intro i hi
  obtain ⟨cx, cu⟩ := assign_consistent (E.field i).base (hv i hi) ⟨s.x i, s.u i, fun _ _ => 0, fun _ _ => 0, fun _ _ => 0⟩ (X i)
    (fun r I k ho hk => hx i r I k hi ho hk)
  refine ⟨?_, ?_⟩
  · have : (PetscBlock.assignX E s).x i = (NonlinProb.assignX (E.field i).base ⟨s.x i, s.u i, fun _ _ => 0, fun _ _ => 0, fun _ _ => 0⟩).x := by
      unfold PetscBlock.assignX NonlinProb.assignX
      simp only [hi, if_true]
      rfl
    exact this ▸ cx
  · have : (PetscBlock.assignX E s).u i = (NonlinProb.assignX (E.field i).base ⟨s.x i, s.u i, fun _ _ => 0, fun _ _ => 0, fun _ _ => 0⟩).u := by
      unfold PetscBlock.assignX NonlinProb.assignX
      simp only [hi, if_true]
      rfl
    exact this ▸ cu

/-! ## Residual -/

open Classical in
theorem bn_residual [DecidableEq R] (D : PetscBlock.Problem R) (C : Nat → Nat → Nat → Prop) (g : Nat → Nat → Nat → R) (h : PetscBlock.ProblemOk D C g)
    (b x X : Nat → Nat → Nat → R) (cx : ∀ i, i < D.n → ConsistentVector (D.field i).w (D.field i).bs (x i) (X i)) :
    ∃ b1 b2, LinProb.allSome D.n (fun i => LinProb.allSome D.P (PetscBlock.vectorOn D b i)) = some b1 ∧
      LinProb.allSome D.n (fun i => LinProb.allSome D.P (fun q => BlockNonlin.liftOn D x (b1 i q) i q)) = some b2 ∧
      ∀ i r I k, i < D.n → Owns (D.field i).w r I → k < (D.field i).bs →
        BlockNonlin.setBc D x (Scatterer.scatterRev (D.field i).w (D.field i).bs (· + ·) (b2 i) r) i r
          ((D.field i).bs * (I - (D.field i).w.r0 r) + k) =
        if C i I k then X i I k - g i I k else PetscBlock.vec D i I k +
          ∑ j ∈ range D.n, product (PetscBlock.dofs (D.field j)) (D.field j).bs (PetscBlock.mat D D.a i j I k) (C j) (fun J l => g j J l - X j J l) := by
  let bl : Nat → List (LiftBlock R) := fun i => (List.range D.n).map fun j =>
    ⟨(D.field j).w, (D.field j).bs, (D.a i j).isSome, (D.a i j).getD fun _ => PetscBlock.emptyForm, (D.field j).dm, (D.field j).bcs,
      x j, C j, g j, X j⟩
  have hbl : ∀ i, i < D.n → ∀ B ∈ bl i, B.Ok (D.field i).w.P := by
    intro i hi B hB
    obtain ⟨j, hj, rfl⟩ := List.mem_map.mp hB
    have hj := List.mem_range.mp hj
    have hP : (D.field i).w.P = D.P := h.ranks i hi
    refine ⟨h.valid j hj, (h.ranks j hj).trans hP.symm, ?_, fun q hq => (h.dofmap j hj q (hP ▸ hq)).1, fun q hq => (h.dofmap j hj q (hP ▸ hq)).2,
      fun q hq c hc => (h.conditions j hj q (hP ▸ hq) c hc).1, h.values j hj, cx j hj⟩
    intro q hq
    show Accepted ((D.a i j).getD (fun _ => PetscBlock.emptyForm) q)
    cases ha : D.a i j with
    | none => exact Or.inl le_rfl
    | some F => exact h.bilinear i j hi hj F ha q (hP ▸ hq)
  have key : ∀ i, ∃ c1 c2 : Nat → Nat → R, i < D.n → ((∀ q, q < D.P → PetscBlock.vectorOn D b i q = some (c1 q)) ∧
      (∀ q, q < D.P → BlockNonlin.liftOn D x (c1 q) i q = some (c2 q)) ∧
      ∀ r I k, Owns (D.field i).w r I → k < (D.field i).bs →
        Scatterer.scatterRev (D.field i).w (D.field i).bs (· + ·) c2 r ((D.field i).bs * (I - (D.field i).w.r0 r) + k) =
          PetscBlock.vec D i I k +
            ∑ j ∈ range D.n, product (PetscBlock.dofs (D.field j)) (D.field j).bs (PetscBlock.mat D D.a i j I k) (C j) (fun J l => g j J l - X j J l)) := by
    intro i
    by_cases hi : i < D.n
    swap
    · exact ⟨fun _ _ => 0, fun _ _ => 0, fun h => absurd h hi⟩
    have hP : (D.field i).w.P = D.P := h.ranks i hi
    obtain ⟨c1, c2, e1, e2, e3⟩ := C46_lifting (D.field i).w (h.valid i hi) (D.field i).bs (D.field i).dm
      (fun q hq => (h.dofmap i hi q (hP ▸ hq)).1) (bl i) (hbl i hi) true (-1) (D.field i).L (fun q hq => h.linear i hi q (hP ▸ hq))
    refine ⟨c1, c2, fun _ => ⟨fun q hq => e1 q (hP ▸ hq), ?_, ?_⟩⟩
    · intro q hq
      rw [← e2 q (hP ▸ hq)]
      unfold BlockNonlin.liftOn liftForms
      congr 1
      · rw [List.map_map]
        apply List.map_congr_left
        intro j _
        show (D.a i j).map _ = if (D.a i j).isSome then some (⟨(D.a i j).getD (fun _ => PetscBlock.emptyForm) q, (D.field j).dm q,
          (D.field j).bs * ((D.field j).w.size q + ((D.field j).w.ghosts q).length)⟩ : Block R) else none
        cases D.a i j <;> rfl
      · rw [List.map_map]
        rfl
      · rw [if_pos rfl, List.map_map]
        rfl
    · intro r I k ho hk
      rw [e3 r I k ho hk]
      unfold liftSum PetscBlock.vec
      rw [sub_eq_add_neg]
      congr 1
      rw [List.map_map, ← pb_sum_range, List.sum_neg, List.map_map]
      congr 1
      apply List.map_congr_left
      intro j _
      show -(if (D.a i j).isSome then product ((D.field j).w.r0 (D.field j).w.P) (D.field j).bs (fun J l =>
        globalOp (D.field i).w (D.field j).w (D.field i).bs (D.field j).bs (fun q => elems ((D.a i j).getD (fun _ => PetscBlock.emptyForm) q)
          ((D.field i).dm q) ((D.field j).dm q)) I k J l) (C j) (fun J l => -1 * (g j J l - if true = true then X j J l else 0)) else 0) = _
      unfold PetscBlock.mat PetscBlock.dofs
      cases ha : D.a i j with
      | none => simp [product]
      | some F =>
        simp only [Option.isSome_some, if_true, Option.getD_some]
        unfold product
        rw [← sum_neg_distrib]
        apply sum_congr rfl
        intro J _
        rw [← sum_neg_distrib]
        apply sum_congr rfl
        intro l _
        split
        · ring
        · ring
  choose c1 c2 hc using key
  have k1 : ∃ b1, LinProb.allSome D.n (fun i => LinProb.allSome D.P (PetscBlock.vectorOn D b i)) = some b1 :=
    ⟨_, allSome_of fun i hi => ⟨_, allSome_of fun q hq => ⟨_, (hc i hi).1 q hq⟩⟩⟩
  obtain ⟨b1, k1⟩ := k1
  have g1 : ∀ i, i < D.n → ∀ q, q < D.P → b1 i q = c1 i q := fun i hi q hq =>
    Option.some.inj ((allSome_some (allSome_some k1 i hi) q hq).symm.trans ((hc i hi).1 q hq))
  have f2 : ∀ i, i < D.n → ∀ q, q < D.P → BlockNonlin.liftOn D x (b1 i q) i q = some (c2 i q) := by
    intro i hi q hq
    rw [g1 i hi q hq]
    exact (hc i hi).2.1 q hq
  have k2 : ∃ b2, LinProb.allSome D.n (fun i => LinProb.allSome D.P (fun q => BlockNonlin.liftOn D x (b1 i q) i q)) = some b2 :=
    ⟨_, allSome_of fun i hi => ⟨_, allSome_of fun q hq => ⟨_, f2 i hi q hq⟩⟩⟩
  obtain ⟨b2, k2⟩ := k2
  have g2 : ∀ i, i < D.n → ∀ q, q < D.P → b2 i q = c2 i q := fun i hi q hq =>
    Option.some.inj ((allSome_some (allSome_some k2 i hi) q hq).symm.trans (f2 i hi q hq))
  refine ⟨b1, b2, k1, k2, ?_⟩
  intro i r I k hi ho hk
  have hP : (D.field i).w.P = D.P := h.ranks i hi
  have hin : I - (D.field i).w.r0 r < (D.field i).w.size r := by have := ho.2; omega
  have hgi : globalOf (D.field i).w r (I - (D.field i).w.r0 r) = some I := by
    unfold globalOf; rw [if_pos hin]; have := ho.2; congr 1; omega
  have hn : (D.field i).bs * (I - (D.field i).w.r0 r) + k < (D.field i).base.own r := by
    show (D.field i).bs * (I - (D.field i).w.r0 r) + k < (D.field i).bs * (D.field i).w.size r
    calc (D.field i).bs * (I - (D.field i).w.r0 r) + k < (D.field i).bs * (I - (D.field i).w.r0 r) + (D.field i).bs := by omega
      _ = (D.field i).bs * (I - (D.field i).w.r0 r + 1) := by ring
      _ ≤ _ := Nat.mul_le_mul_left _ hin
  have hset := C46_set (D.field i).w (D.field i).bs (D.field i).bcs (fun q hq c hc => (h.conditions i hi q (hP ▸ hq) c hc).1) (C i) (g i)
    (h.values i hi) (x i) (X i) (cx i hi) true (-1)
    (Scatterer.scatterRev (D.field i).w (D.field i).bs (· + ·) (b2 i) r) r _ I k _ ho.1 hgi hk hn
  by_cases hC : C i I k
  · rw [if_pos hC]
    refine (hset.1 hC).trans ?_
    rw [if_pos rfl]; ring
  · rw [if_neg hC]
    refine (hset.2 hC).trans ?_
    rw [rev_congr (D.field i).w (h.valid i hi) (D.field i).bs (b2 i) (c2 i) (fun q hq => g2 i hi q (hP ▸ hq)) r _ k ho.1 hin hk]
    exact (hc i hi).2.2 r I k ho hk

theorem bn_local (D : BlockNonlin.Problem R) (C : Nat → Nat → Nat → Prop) (g : Nat → Nat → Nat → R) (h : BlockNonlin.ProblemOk D C g)
    (u X : Nat → Nat → Nat → R) (cu : ∀ i, i < D.n → ConsistentVector (D.w i) (D.bs i) (u i) (X i)) :
    (∀ i, i < D.n → ∀ I k, PetscBlock.vec (D.packed u) i I k = BlockNonlin.formVec D X i I k) ∧
    (∀ i j, i < D.n → j < D.n → ∀ I k J l, PetscBlock.mat (D.packed u) (D.packed u).a i j I k J l = BlockNonlin.formMat D D.J X i j I k J l) ∧
    (∀ i j, i < D.n → j < D.n → ∀ I k J l, PetscBlock.mat (D.packed u) ((D.packed u).pre.getD (D.packed u).a) i j I k J l =
      BlockNonlin.formMat D (D.pre.getD D.J) X i j I k J l) := by
  have hreads := fun q hq => h.reads q hq (fun j => u j q) (BlockNonlin.localArrays D X q) (fun j i hj hi =>
    consistent_array (D.w j) (D.bs j) (h.block j hj) (u j) (X j) (cu j hj) q (by rw [h.ranks j hj]; exact hq) i hi)
  have hop : ∀ i j, i < D.n → ∀ (a b : Nat → Form R), (∀ q, q < D.P → a q = b q) →
      globalOp (D.w i) (D.w j) (D.bs i) (D.bs j) (fun q => elems (a q) (D.dm i q) (D.dm j q)) =
      globalOp (D.w i) (D.w j) (D.bs i) (D.bs j) (fun q => elems (b q) (D.dm i q) (D.dm j q)) := by
    intro i j hi a b hab
    funext I k J l
    rw [globalOp_eq, globalOp_eq]
    apply sum_congr rfl
    intro q hq
    rw [hab q (by rw [← h.ranks i hi]; exact mem_range.mp hq)]
  have hmat : ∀ i j, i < D.n → ∀ (o : Option (Nat → (Nat → Nat → R) → Form R)), (∀ a, o = some a → ∀ q, q < D.P →
      a q (fun j => u j q) = a q (BlockNonlin.localArrays D X q)) → ∀ I k J l,
      (match o.map (fun a q => a q fun j => u j q) with
        | some F => globalOp (D.w i) (D.w j) (D.bs i) (D.bs j) (fun q => elems (F q) (D.dm i q) (D.dm j q)) I k J l
        | none => 0) =
      (match o with
        | some F => globalOp (D.w i) (D.w j) (D.bs i) (D.bs j) (fun q => elems (F q (BlockNonlin.localArrays D X q)) (D.dm i q) (D.dm j q)) I k J l
        | none => 0) := by
    intro i j hi o ho I k J l
    cases o with
    | none => rfl
    | some a =>
      dsimp only [Option.map_some]
      rw [hop i j hi _ (fun q => a q (BlockNonlin.localArrays D X q)) (ho a rfl)]
  refine ⟨?_, ?_, ?_⟩
  · intro i hi I k
    unfold PetscBlock.vec BlockNonlin.formVec globalVec
    apply sum_congr rfl
    intro q hq
    have hq : q < D.P := by rw [← h.ranks i hi]; exact mem_range.mp hq
    show ((velems (D.F i q fun j => u j q) (D.dm i q)).map _).sum = _
    rw [(hreads q hq).1 i hi]
    rfl
  · intro i j hi hj I k J l
    exact hmat i j hi (D.J i j) (fun a ha q hq => (hreads q hq).2.1 i j hi hj a ha) I k J l
  · intro i j hi hj I k J l
    cases hp : D.pre with
    | none =>
      have : (D.packed u).pre = none := by unfold BlockNonlin.Problem.packed; rw [hp]; rfl
      rw [this]
      exact hmat i j hi (D.J i j) (fun a ha q hq => (hreads q hq).2.1 i j hi hj a ha) I k J l
    | some p =>
      have : (D.packed u).pre = some fun i j => (p i j).map fun a q => a q fun k => u k q := by
        unfold BlockNonlin.Problem.packed; rw [hp]; rfl
      rw [this]
      exact hmat i j hi (p i j) (fun a ha q hq => (hreads q hq).2.2 p hp i j hi hj a ha) I k J l

/-- C107: `assemble_residual` for several fields.  Whatever ghosts of `x`, functions and `b` held before, the callback does not raise an
exception, functions and `x` hold afterwards the point of evaluation on all ranks including ghosts, and `b` holds the residual of
each field at that point, including ghosts. -/
theorem C107_residual [DecidableEq R] (D : BlockNonlin.Problem R) (C : Nat → Nat → Nat → Prop) (g : Nat → Nat → Nat → R)
    (h : BlockNonlin.ProblemOk D C g) (s : PetscBlock.State R) (X : Nat → Nat → Nat → R)
    (hx : ∀ i r I k, i < D.n → Owns (D.w i) r I → k < D.bs i → s.x i r (D.bs i * (I - (D.w i).r0 r) + k) = X i I k) :
    ∃ s', BlockNonlin.assembleResidual D s = some s' ∧ (∀ i, i < D.n → ConsistentVector (D.w i) (D.bs i) (s'.x i) (X i) ∧
      ConsistentVector (D.w i) (D.bs i) (s'.u i) (X i) ∧ ConsistentVector (D.w i) (D.bs i) (s'.b i) (BlockNonlin.Res D C g X i)) ∧
      s'.A = s.A ∧ s'.P = s.P := by
  classical
  have hc := bn_assign (D.packed s.u) h.valid s X hx
  obtain ⟨t, ht⟩ : ∃ t, t = PetscBlock.assignX (D.packed s.u) s := ⟨_, rfl⟩
  rw [← ht] at hc
  obtain ⟨hvec, hmat, _⟩ := bn_local D C g h t.u X (fun i hi => (hc i hi).2)
  obtain ⟨b1, b2, k1, k2, hr⟩ := bn_residual (D.packed t.u) C g (bn_packed h t.u) t.b t.x X (fun i hi => (hc i hi).1)
  refine ⟨{ t with b := fun i q => Scatterer.scatterFwd (D.w i) (D.bs i) (fun q => BlockNonlin.setBc (D.packed t.u) t.x
      (Scatterer.scatterRev (D.w i) (D.bs i) (· + ·) (b2 i) q) i q) q }, ?_, ?_, by rw [ht]; rfl, by rw [ht]; rfl⟩
  · unfold BlockNonlin.assembleResidual
    rw [← ht]
    have k1' : LinProb.allSome D.n (fun i => LinProb.allSome D.P (PetscBlock.vectorOn (D.packed t.u) t.b i)) = some b1 := k1
    have k2' : LinProb.allSome D.n (fun i => LinProb.allSome D.P (fun q => BlockNonlin.liftOn (D.packed t.u) t.x (b1 i q) i q)) = some b2 := k2
    simp only [k1', k2', Option.bind_eq_bind, Option.bind_some]
  · intro i hi
    refine ⟨(hc i hi).1, (hc i hi).2, ?_⟩
    apply fwd_consistent (D.w i) (h.valid i hi)
    intro r I k ho hk
    refine (hr i r I k hi ho hk).trans ?_
    unfold BlockNonlin.Res
    split
    · rfl
    · rw [hvec i hi I k]
      congr 1
      apply sum_congr rfl
      intro j hj
      have e : (PetscBlock.mat (D.packed t.u) (D.packed t.u).a i j I k) = BlockNonlin.formMat D D.J X i j I k := by
        funext J l
        exact hmat i j hi (mem_range.mp hj) I k J l
      rw [e]
      rfl

/-- C107: the residual vanishes exactly for solutions of the problem. -/
theorem C107_zero (D : BlockNonlin.Problem R) (C : Nat → Nat → Nat → Prop) (g X : Nat → Nat → Nat → R) :
    (∀ i I k, i < D.n → I < BlockNonlin.dofs D i → k < D.bs i → BlockNonlin.Res D C g X i I k = 0) ↔ BlockNonlin.Solution D C g X := by
  classical
  have hzero : (∀ i I k, i < D.n → I < BlockNonlin.dofs D i → k < D.bs i → C i I k → X i I k = g i I k) → ∀ i I k,
      ∑ j ∈ range D.n, product (BlockNonlin.dofs D j) (D.bs j) (BlockNonlin.formMat D D.J X i j I k) (C j) (fun J l => g j J l - X j J l) = 0 := by
    intro hc i I k
    apply sum_eq_zero
    intro j hj
    unfold product
    apply sum_eq_zero
    intro J hJ
    apply sum_eq_zero
    intro l hl
    split
    · rename_i hC
      show _ * (g j J l - X j J l) = 0
      rw [hc j J l (mem_range.mp hj) (mem_range.mp hJ) (mem_range.mp hl) hC]; ring
    · rfl
  constructor
  · intro hr
    have hc : ∀ i I k, i < D.n → I < BlockNonlin.dofs D i → k < D.bs i → C i I k → X i I k = g i I k := by
      intro i I k hi hI hk hC
      have := hr i I k hi hI hk
      unfold BlockNonlin.Res at this
      rw [if_pos hC] at this
      exact sub_eq_zero.mp this
    refine ⟨hc, ?_⟩
    intro i I k hi hI hk hC
    have := hr i I k hi hI hk
    unfold BlockNonlin.Res at this
    rwa [if_neg hC, hzero hc, add_zero] at this
  · rintro ⟨hc, hf⟩ i I k hi hI hk
    unfold BlockNonlin.Res
    by_cases hC : C i I k
    · rw [if_pos hC, hc i I k hi hI hk hC, sub_self]
    · rw [if_neg hC, hzero hc, hf i I k hi hI hk hC, add_zero]

/-- C107: a Newton step.  `d` solves the system of the assembled Jacobian and residual if and only if `X - d` has the prescribed values in
constrained dofs of all fields and `d` satisfies the equations of the linearised forms in free dofs. -/
theorem C107_newton (D : BlockNonlin.Problem R) (C : Nat → Nat → Nat → Prop) (g X d : Nat → Nat → Nat → R) :
    (∀ i I k, i < D.n → I < BlockNonlin.dofs D i → k < D.bs i → ∑ j ∈ range D.n, ∑ J ∈ range (BlockNonlin.dofs D j), ∑ l ∈ range (D.bs j),
      BlockNonlin.withConditions C (BlockNonlin.formMat D D.J X) i j I k J l * d j J l = BlockNonlin.Res D C g X i I k) ↔
    (∀ i I k, i < D.n → I < BlockNonlin.dofs D i → k < D.bs i → C i I k → X i I k - d i I k = g i I k) ∧
    (∀ i I k, i < D.n → I < BlockNonlin.dofs D i → k < D.bs i → ¬ C i I k → ∑ j ∈ range D.n, ∑ J ∈ range (BlockNonlin.dofs D j),
      ∑ l ∈ range (D.bs j), BlockNonlin.formMat D D.J X i j I k J l * d j J l = BlockNonlin.formVec D X i I k) := by
  classical
  have hrows := fun i I k (hi : i < D.n) (hI : I < BlockNonlin.dofs D i) (hk : k < D.bs i) =>
    block_row (D.packed X) C (BlockNonlin.formMat D D.J X) d i I k hi hI hk
  have hrow : ∀ i I k, i < D.n → I < BlockNonlin.dofs D i → k < D.bs i → C i I k → ∑ j ∈ range D.n, ∑ J ∈ range (BlockNonlin.dofs D j),
      ∑ l ∈ range (D.bs j), BlockNonlin.withConditions C (BlockNonlin.formMat D D.J X) i j I k J l * d j J l = d i I k :=
    fun i I k hi hI hk => (hrows i I k hi hI hk).1
  have hfree : ∀ i I k, i < D.n → I < BlockNonlin.dofs D i → k < D.bs i → ¬ C i I k → ∑ j ∈ range D.n, ∑ J ∈ range (BlockNonlin.dofs D j),
      ∑ l ∈ range (D.bs j), BlockNonlin.formMat D D.J X i j I k J l * d j J l =
      ∑ j ∈ range D.n, ∑ J ∈ range (BlockNonlin.dofs D j), ∑ l ∈ range (D.bs j),
        BlockNonlin.withConditions C (BlockNonlin.formMat D D.J X) i j I k J l * d j J l +
      ∑ j ∈ range D.n, product (BlockNonlin.dofs D j) (D.bs j) (BlockNonlin.formMat D D.J X i j I k) (C j) (d j) :=
    fun i I k hi hI hk => (hrows i I k hi hI hk).2
  have hprod : (∀ i I k, i < D.n → I < BlockNonlin.dofs D i → k < D.bs i → C i I k → X i I k - d i I k = g i I k) → ∀ i I k,
      ∑ j ∈ range D.n, product (BlockNonlin.dofs D j) (D.bs j) (BlockNonlin.formMat D D.J X i j I k) (C j) (d j) +
      ∑ j ∈ range D.n, product (BlockNonlin.dofs D j) (D.bs j) (BlockNonlin.formMat D D.J X i j I k) (C j) (fun J l => g j J l - X j J l) = 0 := by
    intro hc i I k
    rw [← sum_add_distrib]
    apply sum_eq_zero
    intro j hj
    unfold product
    rw [← sum_add_distrib]
    apply sum_eq_zero
    intro J hJ
    rw [← sum_add_distrib]
    apply sum_eq_zero
    intro l hl
    split
    · rename_i hC
      show _ * d j J l + _ * (g j J l - X j J l) = 0
      rw [← hc j J l (mem_range.mp hj) (mem_range.mp hJ) (mem_range.mp hl) hC]; ring
    · ring
  constructor
  · intro hs
    have hc : ∀ i I k, i < D.n → I < BlockNonlin.dofs D i → k < D.bs i → C i I k → X i I k - d i I k = g i I k := by
      intro i I k hi hI hk hC
      have := hs i I k hi hI hk
      rw [hrow i I k hi hI hk hC] at this
      unfold BlockNonlin.Res at this
      rw [if_pos hC] at this
      rw [this]; ring
    refine ⟨hc, ?_⟩
    intro i I k hi hI hk hC
    rw [hfree i I k hi hI hk hC, hs i I k hi hI hk]
    unfold BlockNonlin.Res
    rw [if_neg hC]
    have := hprod hc i I k
    linear_combination this
  · rintro ⟨hc, hf⟩ i I k hi hI hk
    by_cases hC : C i I k
    · rw [hrow i I k hi hI hk hC]
      unfold BlockNonlin.Res
      rw [if_pos hC, ← hc i I k hi hI hk hC]; ring
    · have h1 := hfree i I k hi hI hk hC
      rw [hf i I k hi hI hk hC] at h1
      unfold BlockNonlin.Res
      rw [if_neg hC]
      have := hprod hc i I k
      linear_combination -this - h1

/-! ## Jacobian -/

/-- C107: `assemble_jacobian` for several fields: each block of the matrix of the Jacobian at the point of evaluation, and of the
preconditioner (of the Jacobian if there is none), with conditions. -/
theorem C107_jacobian (D : BlockNonlin.Problem R) (C : Nat → Nat → Nat → Prop) (g : Nat → Nat → Nat → R)
    (h : BlockNonlin.ProblemOk D C g) (s : PetscBlock.State R) (X : Nat → Nat → Nat → R)
    (hx : ∀ i r I k, i < D.n → Owns (D.w i) r I → k < D.bs i → s.x i r (D.bs i * (I - (D.w i).r0 r) + k) = X i I k) :
    ∃ s', BlockNonlin.assembleJacobian D s = some s' ∧ (∀ i, i < D.n → ConsistentVector (D.w i) (D.bs i) (s'.x i) (X i) ∧
      ConsistentVector (D.w i) (D.bs i) (s'.u i) (X i)) ∧ s'.b = s.b ∧
      ∀ i j I k J l, i < D.n → j < D.n → I < BlockNonlin.dofs D i → k < D.bs i → J < BlockNonlin.dofs D j → l < D.bs j →
        s'.A i j (D.bs i * I + k) (D.bs j * J + l) = BlockNonlin.withConditions C (BlockNonlin.formMat D D.J X) i j I k J l ∧
        s'.P i j (D.bs i * I + k) (D.bs j * J + l) = BlockNonlin.withConditions C (BlockNonlin.formMat D (D.pre.getD D.J) X) i j I k J l := by
  classical
  have hc := bn_assign (D.packed s.u) h.valid s X hx
  obtain ⟨t, ht⟩ : ∃ t, t = PetscBlock.assignX (D.packed s.u) s := ⟨_, rfl⟩
  rw [← ht] at hc
  obtain ⟨_, hmat, hpre⟩ := bn_local D C g h t.u X (fun i hi => (hc i hi).2)
  have hE := bn_packed h t.u
  obtain ⟨A, eA, hA⟩ := block_matrix (D.packed t.u) C g hE (D.packed t.u).a hE.bilinear (fun i hi hb => (hE.diagonal i hi hb).1) t.A
  obtain ⟨P, eP, hP⟩ : ∃ P, PetscBlock.assemblePre (D.packed t.u) t.P A = some P ∧
      ∀ i j I k J l, i < D.n → j < D.n → I < BlockNonlin.dofs D i → k < D.bs i → J < BlockNonlin.dofs D j →
        l < D.bs j → P i j (D.bs i * I + k) (D.bs j * J + l) =
          PetscBlock.withConditions C (PetscBlock.mat (D.packed t.u) ((D.packed t.u).pre.getD (D.packed t.u).a)) i j I k J l := by
    unfold PetscBlock.assemblePre
    cases hp : (D.packed t.u).pre with
    | none => exact ⟨A, rfl, hA⟩
    | some p => exact block_matrix (D.packed t.u) C g hE p (hE.precond p hp) (fun i hi hb => (hE.diagonal i hi hb).2 p hp) t.P
  refine ⟨{ t with A := A, P := P }, ?_, fun i hi => hc i hi, by rw [ht]; rfl, ?_⟩
  · unfold BlockNonlin.assembleJacobian
    rw [← ht]
    simp only [eA, eP, Option.bind_eq_bind, Option.bind_some]
  · intro i j I k J l hi hj hI hk hJ hl
    refine ⟨(hA i j I k J l hi hj hI hk hJ hl).trans ?_, (hP i j I k J l hi hj hI hk hJ hl).trans ?_⟩
    · unfold PetscBlock.withConditions BlockNonlin.withConditions
      rw [hmat i j hi hj I k J l]
    · unfold PetscBlock.withConditions BlockNonlin.withConditions
      rw [hpre i j hi hj I k J l]

/-! ## Solve -/

theorem bn_put (E : PetscBlock.Problem R) (x : Nat → Nat → Nat → R) (s : PetscBlock.State R) (i r I k : Nat) (hi : i < E.n)
    (ho : Owns (E.field i).w r I) (hk : k < (E.field i).bs) :
    PetscBlock.putX E x s i r ((E.field i).bs * (I - (E.field i).w.r0 r) + k) = NonlinProb.fromOwned (E.field i).w (E.field i).bs (x i) I k := by
  unfold PetscBlock.putX
  rw [if_pos hi]
  exact place_owned (E.field i).base (x i) (s.x i) r I k ho hk

theorem bn_owned (D : BlockNonlin.Problem R) (hb : ∀ i, i < D.n → 0 < D.bs i) (u b X : Nat → Nat → Nat → R)
    (hc : ∀ i r I k, i < D.n → Owns (D.w i) r I → k < D.bs i → b i r (D.bs i * (I - (D.w i).r0 r) + k) = X i I k) :
    PetscBlock.owned (D.packed u) b = BlockNonlin.toOwned D X := by
  funext i q k
  unfold PetscBlock.owned BlockNonlin.toOwned
  show (if i < D.n then _ else _) = _
  split
  · rename_i hi
    unfold NonlinProb.owned NonlinProb.toOwned NonlinProb.Problem.own
    show (if q < (D.w i).P ∧ k < D.bs i * (D.w i).size q then _ else _) = _
    split
    · rename_i hh
      have hin : k / D.bs i < (D.w i).size q := Nat.div_lt_of_lt_mul hh.2
      have := hc i q ((D.w i).r0 q + k / D.bs i) (k % D.bs i) hi ⟨hh.1, Nat.le_add_right _ _, Nat.add_lt_add_left hin _⟩ (Nat.mod_lt _ (hb i hi))
      rw [Nat.add_sub_cancel_left, Nat.div_add_mod] at this
      exact this
    · rfl
  · rfl

theorem bn_entries (D : BlockNonlin.Problem R) (hb : ∀ i, i < D.n → 0 < D.bs i) (u : Nat → Nat → Nat → R) (B : Nat → Nat → Nat → Nat → R)
    (M : Nat → Nat → Nat → Nat → Nat → Nat → R)
    (hB : ∀ i j I k J l, i < D.n → j < D.n → I < BlockNonlin.dofs D i → k < D.bs i → J < BlockNonlin.dofs D j → l < D.bs j →
      B i j (D.bs i * I + k) (D.bs j * J + l) = M i j I k J l) :
    PetscBlock.entries (D.packed u) B = BlockNonlin.toScalar D M := by
  funext i j r c
  unfold PetscBlock.entries BlockNonlin.toScalar
  show (if i < D.n ∧ j < D.n ∧ r < D.bs i * BlockNonlin.dofs D i ∧ c < D.bs j * BlockNonlin.dofs D j then _ else _) = _
  split
  · rename_i hh
    obtain ⟨hi, hj, hr, hc⟩ := hh
    have := hB i j (r / D.bs i) (r % D.bs i) (c / D.bs j) (c % D.bs j) hi hj (Nat.div_lt_of_lt_mul hr)
      (Nat.mod_lt _ (hb i hi)) (Nat.div_lt_of_lt_mul hc) (Nat.mod_lt _ (hb j hj))
    rw [Nat.div_add_mod, Nat.div_add_mod] at this
    exact this
  · rfl

theorem bn_own (w : World) (bs : Nat) (b X : Nat → Nat → R) (hc : ConsistentVector w bs b X) (X' : Nat → Nat → R) (r I k : Nat)
    (ho : Owns w r I) (hk : k < bs) (hX : X = X') : b r (bs * (I - w.r0 r) + k) = X' I k := by
  have hin : I - w.r0 r < w.size r := by have := ho.2; omega
  rw [← hX]
  exact hc r ho.1 _ I k (by unfold globalOf; rw [if_pos hin]; have := ho.2; congr 1; omega) hk

theorem bn_run [DecidableEq R] (D : BlockNonlin.Problem R) (C : Nat → Nat → Nat → Prop) (g : Nat → Nat → Nat → R) (h : BlockNonlin.ProblemOk D C g)
    (prog : BlockNonlin.Snes R) (s : PetscBlock.State R) :
    ∃ s', BlockNonlin.runSnes D prog s = some s' ∧
      ∀ i r I k, i < D.n → Owns (D.w i) r I → k < D.bs i → s'.x i r (D.bs i * (I - (D.w i).r0 r) + k) = BlockNonlin.ideal D C g prog i I k := by
  induction prog generalizing s with
  | done x => exact ⟨_, rfl, fun i r I k hi ho hk => bn_put (D.packed s.u) x s i r I k hi ho hk⟩
  | residual x next ih =>
    obtain ⟨t, e, hc, _⟩ := C107_residual D C g h { s with x := PetscBlock.putX (D.packed s.u) x s } (BlockNonlin.fromOwned D x)
      (fun i r I k hi ho hk => bn_put (D.packed s.u) x s i r I k hi ho hk)
    obtain ⟨s', e', hs'⟩ := ih (PetscBlock.owned (D.packed t.u) t.b) t
    refine ⟨s', ?_, ?_⟩
    · show Option.bind _ _ = _
      rw [e]
      exact e'
    · rw [bn_owned D h.block t.u t.b (BlockNonlin.Res D C g (BlockNonlin.fromOwned D x))
        (fun i r I k hi ho hk => bn_own _ _ _ _ (hc i hi).2.2 _ r I k ho hk rfl)] at hs'
      exact hs'
  | jacobian x next ih =>
    obtain ⟨t, e, _, _, hA⟩ := C107_jacobian D C g h { s with x := PetscBlock.putX (D.packed s.u) x s } (BlockNonlin.fromOwned D x)
      (fun i r I k hi ho hk => bn_put (D.packed s.u) x s i r I k hi ho hk)
    obtain ⟨s', e', hs'⟩ := ih (PetscBlock.entries (D.packed t.u) t.A) (PetscBlock.entries (D.packed t.u) t.P) t
    refine ⟨s', ?_, ?_⟩
    · show Option.bind _ _ = _
      rw [e]
      exact e'
    · rw [bn_entries D h.block t.u t.A _ (fun i j I k J l h1 h2 h3 h4 h5 h6 => (hA i j I k J l h1 h2 h3 h4 h5 h6).1),
        bn_entries D h.block t.u t.P _ (fun i j I k J l h1 h2 h3 h4 h5 h6 => (hA i j I k J l h1 h2 h3 h4 h5 h6).2)] at hs'
      exact hs'

/-- C107: `NonlinearProblem.solve` for several fields.  For every solver program and whatever the state: no exception in the callbacks,
the solver starts from the owned values of the functions, and the functions hold afterwards, on all ranks including ghosts, what the
solver returns when it is given the exact residuals and matrices of the problem. -/
theorem C107_solve [DecidableEq R] (D : BlockNonlin.Problem R) (C : Nat → Nat → Nat → Prop) (g : Nat → Nat → Nat → R)
    (h : BlockNonlin.ProblemOk D C g) (snes : (Nat → Nat → Nat → R) → BlockNonlin.Snes R) (s : PetscBlock.State R) (X : Nat → Nat → Nat → R)
    (hu : ∀ i r I k, i < D.n → Owns (D.w i) r I → k < D.bs i → s.u i r (D.bs i * (I - (D.w i).r0 r) + k) = X i I k) :
    ∃ s', BlockNonlin.solve D snes s = some s' ∧ ∀ i, i < D.n →
      ConsistentVector (D.w i) (D.bs i) (s'.u i) (BlockNonlin.ideal D C g (snes (BlockNonlin.toOwned D X)) i) ∧
      ConsistentVector (D.w i) (D.bs i) (s'.x i) (BlockNonlin.ideal D C g (snes (BlockNonlin.toOwned D X)) i) := by
  have hstart : PetscBlock.owned (D.packed (BlockNonlin.copyU D s).u) (BlockNonlin.copyU D s).x = BlockNonlin.toOwned D X := by
    apply bn_owned D h.block
    intro i r I k hi ho hk
    unfold BlockNonlin.copyU
    dsimp only
    rw [if_pos hi]
    refine (if_pos ?_).trans (hu i r I k hi ho hk)
    have hin : I - (D.w i).r0 r < (D.w i).size r := by have := ho.2; omega
    calc D.bs i * (I - (D.w i).r0 r) + k < D.bs i * (I - (D.w i).r0 r) + D.bs i := by omega
      _ = D.bs i * (I - (D.w i).r0 r + 1) := by ring
      _ ≤ _ := Nat.mul_le_mul_left _ (by omega)
  obtain ⟨t, e, ht⟩ := bn_run D C g h (snes (BlockNonlin.toOwned D X)) (BlockNonlin.copyU D s)
  have hc := bn_assign (D.packed t.u) h.valid t _ ht
  refine ⟨PetscBlock.assignX (D.packed t.u) t, ?_, fun i hi => ⟨(hc i hi).2, (hc i hi).1⟩⟩
  unfold BlockNonlin.solve
  show Option.bind (BlockNonlin.runSnes D (snes (PetscBlock.owned (D.packed (BlockNonlin.copyU D s).u) (BlockNonlin.copyU D s).x))
    (BlockNonlin.copyU D s)) _ = _
  rw [hstart, e]
  rfl

/-- C107: if the solver returns vectors with zero residual, the functions solve the discrete problem. -/
theorem C107_solution [DecidableEq R] (D : BlockNonlin.Problem R) (C : Nat → Nat → Nat → Prop) (g : Nat → Nat → Nat → R)
    (h : BlockNonlin.ProblemOk D C g) (snes : (Nat → Nat → Nat → R) → BlockNonlin.Snes R) (s : PetscBlock.State R) (X : Nat → Nat → Nat → R)
    (hu : ∀ i r I k, i < D.n → Owns (D.w i) r I → k < D.bs i → s.u i r (D.bs i * (I - (D.w i).r0 r) + k) = X i I k)
    (hz : ∀ i I k, i < D.n → I < BlockNonlin.dofs D i → k < D.bs i →
      BlockNonlin.Res D C g (BlockNonlin.ideal D C g (snes (BlockNonlin.toOwned D X))) i I k = 0) :
    ∃ s' Y, BlockNonlin.solve D snes s = some s' ∧ (∀ i, i < D.n → ConsistentVector (D.w i) (D.bs i) (s'.u i) (Y i)) ∧
      BlockNonlin.Solution D C g Y := by
  obtain ⟨s', e, hu'⟩ := C107_solve D C g h snes s X hu
  exact ⟨s', _, e, fun i hi => (hu' i hi).1, (C107_zero D C g _).mp hz⟩

/-! ## Example: `(u²)'' = v - 5` and `v = u` on three elements and two ranks, `u = 5` at both ends -/

namespace C107ex

/-- Entry of a local array. -/
def at' (q : Nat) (u : Nat → Nat → Int) (j i : Nat) : Int := if j < 2 ∧ i < 3 - q then u j i else 0

def D : BlockNonlin.Problem Int where
  P := 2
  n := 2
  w := fun _ => spWorld
  bs := fun _ => 1
  dm := fun _ => asmDofmap
  bcs := fun i => if i = 0 then vecBcs else fun _ => []
  F := fun i q u => C91ex.form q fun c n =>
    if i = 0 then (if n = 0 then 1 else -1) * (at' q u 0 c * at' q u 0 c - at' q u 0 (c + 1) * at' q u 0 (c + 1)) + at' q u 1 (c + n) - 5
    else at' q u 1 (c + n) - at' q u 0 (c + n)
  J := fun i j => some fun q u => C91ex.form q fun c n =>
    if i = 0 then (if j = 0 then [2 * at' q u 0 c, -2 * at' q u 0 (c + 1), -2 * at' q u 0 c, 2 * at' q u 0 (c + 1)].getD n 0 else [1, 0, 0, 1].getD n 0)
    else if j = 0 then [-1, 0, 0, -1].getD n 0 else [1, 0, 0, 1].getD n 0
  pre := some fun i j => if i = j then some fun q u => C91ex.form q fun c n => [at' q u i c, 0, 0, at' q u i (c + 1)].getD n 0 else none

theorem ok : BlockNonlin.ProblemOk D (fun i I _ => i = 0 ∧ (I = 0 ∨ I = 3)) (fun _ _ _ => 5) := by
  obtain ⟨_, _, hd, hr, _, hs⟩ := asm_hyps
  refine ⟨fun _ _ => rfl, fun _ _ => asmWorld_valid, fun _ _ => Nat.one_pos, fun _ _ _ _ _ => Or.inl le_rfl, ?_, ?_, ?_, ?_, ?_,
    fun _ _ q hq => ⟨hd q hq, hr q hq⟩, ?_, ?_, ?_⟩
  · intro i j _ _ a ha q _ u
    obtain rfl := Option.some.inj ha
    exact Or.inl le_rfl
  · intro p hp i j _ _ a ha q _ u
    obtain rfl := Option.some.inj hp
    have ha : (if i = j then _ else none) = some a := ha
    split at ha
    · obtain rfl := Option.some.inj ha
      exact Or.inl le_rfl
    · cases ha
  · intro i hi
    exact ⟨⟨i, hi, Option.some_ne_none _⟩, ⟨i, hi, Option.some_ne_none _⟩⟩
  · intro p hp i hi
    obtain rfl := Option.some.inj hp
    exact ⟨⟨i, hi, by simp⟩, ⟨i, hi, by simp⟩⟩
  · intro q hq u v huv
    have : at' q u = at' q v := by
      funext j i
      unfold at'
      split
      · rename_i hi
        apply huv j i hi.1
        have hi := hi.2
        have : q = 0 ∨ q = 1 := by have : q < 2 := hq; omega
        rcases this with rfl | rfl <;> exact hi
      · rfl
    refine ⟨?_, ?_, ?_⟩
    · intro i _
      simp only [D, this]
    · intro i j _ _ a ha
      obtain rfl := Option.some.inj ha
      simp only [this]
    · intro p hp i j _ _ a ha
      obtain rfl := Option.some.inj hp
      have ha : (if i = j then _ else none) = some a := ha
      split at ha
      · obtain rfl := Option.some.inj ha
        simp only [this]
      · cases ha
  · intro i _ q hq c hc
    have hc : c ∈ (if i = 0 then vecBcs else fun _ => []) q := hc
    split at hc
    · exact ⟨vecBlock_ok.bcOk q hq c hc, hs q hq (c, true) (by simpa [vecBcs, asmBcs] using hc)⟩
    · cases hc
  · intro i _
    by_cases hi : i = 0
    · subst hi
      intro q hq n I k hn hk
      have := vecValues q hq n I k hn hk
      refine ⟨this.1.trans ⟨fun h => ⟨rfl, h⟩, fun h => h.2⟩, this.2⟩
    · intro q hq n I k hn hk
      have he : D.bcs i q = [] := by simp [D, hi]
      rw [he]
      refine ⟨⟨?_, fun hC => absurd hC.1 hi⟩, ?_⟩
      · rintro ⟨c, hc, _⟩
        cases hc
      · rintro v ⟨pr, c, po, _, hc, _⟩
        simp at hc
  · intro i _ _
    refine ⟨Option.some_ne_none _, ?_⟩
    intro p hp
    obtain rfl := Option.some.inj hp
    simp

/-- Arbitrary earlier contents; functions 1, 2, 3, 4 and 5, 6, 7, 8 with wrong ghosts. -/
def s : PetscBlock.State Int := ⟨fun i q n => i + q + 7 * n,
  fun i q n => if q = 0 then [4 * i + 1, 4 * i + 2, 99].getD n 0 else [4 * i + 3, 4 * i + 4].getD n 0, fun _ _ _ => 8, fun _ _ _ _ => 3, fun _ _ _ _ => -1⟩

/-- A solver that asks for residual and matrices at the initial guess and returns 5 if they are as computed by hand. -/
def snes (x : Nat → Nat → Nat → Int) : BlockNonlin.Snes Int :=
  .residual x fun r => .jacobian x fun A P => .done fun _ _ _ =>
    if r 0 0 0 = -4 ∧ r 0 0 1 = -8 ∧ r 0 1 0 = -6 ∧ r 0 1 1 = -1 ∧ r 1 0 0 = 0 ∧ r 1 0 1 = 8 ∧ r 1 1 1 = 3 ∧
      A 0 0 0 0 = 1 ∧ A 0 0 1 1 = 8 ∧ A 0 0 1 2 = -6 ∧ A 0 1 0 0 = 0 ∧ A 0 1 1 1 = 2 ∧ A 1 0 0 0 = 0 ∧ A 1 0 1 1 = -2 ∧ A 1 1 0 0 = 1 ∧
      P 0 0 1 1 = 4 ∧ P 1 1 1 1 = 12 ∧ P 0 1 1 1 = 0 then 5 else 0

end C107ex

/-- The hypotheses of `C107_solve` are met. -/
example : ∃ s', BlockNonlin.solve C107ex.D C107ex.snes C107ex.s = some s' ∧ (∀ i, i < 2 → ConsistentVector spWorld 1 (s'.u i) (fun _ _ => 5)) ∧
    BlockNonlin.Solution C107ex.D (fun i I _ => i = 0 ∧ (I = 0 ∨ I = 3)) (fun _ _ _ => 5) (fun _ _ _ => 5) := by
  obtain ⟨s', e, _⟩ := C107_solve C107ex.D _ _ C107ex.ok C107ex.snes C107ex.s (fun i I _ => 4 * i + I + 1) (by
    intro i r I k hi ho hk
    have hk : k = 0 := by have : k < 1 := hk; omega
    have hi : i < 2 := hi
    have hr : r = 0 ∨ r = 1 := by have : r < 2 := ho.1; omega
    subst hk
    rcases hr with rfl | rfl
    · have h1 : I < 2 := ho.2.2
      interval_cases i <;> interval_cases I <;> rfl
    · have h0 : 2 ≤ I := ho.2.1
      have h1 : I < 4 := ho.2.2
      interval_cases i <;> interval_cases I <;> rfl)
  have hall : (BlockNonlin.solve C107ex.D C107ex.snes C107ex.s).map (fun s' => (List.range 2).all fun i =>
    ((List.range 3).all fun n => decide (s'.u i 0 n = 5)) && (List.range 2).all fun n => decide (s'.u i 1 n = 5)) = some true := by decide +kernel
  rw [e] at hall
  have hall := Option.some.inj hall
  refine ⟨s', e, ?_, ⟨fun _ _ _ _ _ _ _ => rfl, ?_⟩⟩
  · intro i hi q hq n I k hn hk
    have hk : k = 0 := by omega
    subst hk
    have hlt := SubMap.globalOf_lt spWorld q n I hn
    have hq : q = 0 ∨ q = 1 := by have : q < 2 := hq; omega
    have h1 := List.all_eq_true.mp hall i (List.mem_range.mpr hi)
    obtain ⟨h2, h3⟩ := (Bool.and_eq_true_iff.mp h1)
    rw [add_zero, one_mul]
    rcases hq with rfl | rfl
    · exact of_decide_eq_true (List.all_eq_true.mp h2 n (List.mem_range.mpr hlt))
    · exact of_decide_eq_true (List.all_eq_true.mp h3 n (List.mem_range.mpr hlt))
  · intro i I k hi hI hk _
    have hI : I < 4 := hI
    have hi : i < 2 := hi
    have hk : k = 0 := by have : k < 1 := hk; omega
    subst hk
    interval_cases i <;> interval_cases I <;> decide +kernel

end Verif.Props
