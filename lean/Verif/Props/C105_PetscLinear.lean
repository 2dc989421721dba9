import Verif.Props.C91_NonlinearProblem
import Verif.Spec.PetscLinear
/-!
# C105: what `fem.petsc.LinearProblem` hands to its solver and returns
-/
namespace Verif.Props
open Verif.Spec.Assemble Verif.Spec Verif.Spec.NonlinProb Verif.World Verif.Assembly Finset

variable {R : Type} [CommRing R]

theorem plin_base (D : PetscLin.Problem R) (C : Nat → Nat → Prop) (g : Nat → Nat → R) (h : PetscLin.ProblemOk D C g) :
    NonlinProb.ProblemOk D.base C g := by
  refine ⟨h.valid, h.block, fun q hq _ => h.linear q hq, fun q hq _ => h.bilinear q hq, ?_, ?_, h.dofmap, h.conditions, h.values⟩
  · intro p hp q hq _
    obtain ⟨p', hp', rfl⟩ := Option.map_eq_some_iff.mp hp
    exact h.precond p' hp' q hq
  · intro q _ u v _
    refine ⟨rfl, rfl, ?_⟩
    intro p hp
    obtain ⟨p', _, rfl⟩ := Option.map_eq_some_iff.mp hp
    rfl

/-- The vector that is assembled, lifted, gathered and given the prescribed values. -/
theorem plin_rhs [DecidableEq R] (D : PetscLin.Problem R) (C : Nat → Nat → Prop) (g : Nat → Nat → R) (h : PetscLin.ProblemOk D C g)
    (b : Nat → Nat → R) :
    ∃ b1 b2, LinProb.allSome D.w.P (PetscLin.vectorOn D b) = some b1 ∧
      LinProb.allSome D.w.P (fun q => PetscLin.liftOn D (b1 q) q) = some b2 ∧
      ∀ r I k, Owns D.w r I → k < D.bs →
        PetscLin.setBc D (Scatterer.scatterRev D.w D.bs (· + ·) b2 r) r (D.bs * (I - D.w.r0 r) + k) = PetscLin.rhs D C g I k := by
  classical
  let B : LiftBlock R := ⟨D.w, D.bs, true, D.a, D.dm, D.bcs, fun _ _ => 0, C, g, fun _ _ => 0⟩
  have hB : B.Ok D.w.P := ⟨h.valid, rfl, h.bilinear, fun q hq => (h.dofmap q hq).1, fun q hq => (h.dofmap q hq).2,
    fun q hq c hc => (h.conditions q hq c hc).1, h.values, fun _ _ _ _ _ _ _ => rfl⟩
  obtain ⟨c1, c2, e1, e2, e3⟩ := C46_lifting D.w h.valid D.bs D.dm (fun q hq => (h.dofmap q hq).1) [B] (by simpa using hB) false 1
    D.L h.linear
  have f1 : ∀ q, q < D.w.P → PetscLin.vectorOn D b q = some (c1 q) := fun q hq => e1 q hq
  obtain ⟨b1, hb1⟩ : ∃ b1, b1 = fun q => (PetscLin.vectorOn D b q).getD default := ⟨_, rfl⟩
  have k1 : LinProb.allSome D.w.P (PetscLin.vectorOn D b) = some b1 := by
    rw [hb1]; exact allSome_of fun q hq => ⟨_, f1 q hq⟩
  have g1 : ∀ q, q < D.w.P → b1 q = c1 q := fun q hq => Option.some.inj ((allSome_some k1 q hq).symm.trans (f1 q hq))
  have f2 : ∀ q, q < D.w.P → PetscLin.liftOn D (b1 q) q = some (c2 q) := by
    intro q hq
    rw [g1 q hq]
    exact e2 q hq
  obtain ⟨b2, hb2⟩ : ∃ b2, b2 = fun q => (PetscLin.liftOn D (b1 q) q).getD default := ⟨_, rfl⟩
  have k2 : LinProb.allSome D.w.P (fun q => PetscLin.liftOn D (b1 q) q) = some b2 := by
    rw [hb2]; exact allSome_of fun q hq => ⟨_, f2 q hq⟩
  have g2 : ∀ q, q < D.w.P → b2 q = c2 q := fun q hq => Option.some.inj ((allSome_some k2 q hq).symm.trans (f2 q hq))
  refine ⟨b1, b2, k1, k2, ?_⟩
  intro r I k ho hk
  have hi : I - D.w.r0 r < D.w.size r := by have := ho.2; omega
  have hgi : globalOf D.w r (I - D.w.r0 r) = some I := by
    unfold globalOf; rw [if_pos hi]; have := ho.2; congr 1; omega
  have hn : D.bs * (I - D.w.r0 r) + k < D.base.own r := by
    show D.bs * (I - D.w.r0 r) + k < D.bs * D.w.size r
    calc D.bs * (I - D.w.r0 r) + k < D.bs * (I - D.w.r0 r) + D.bs := by omega
      _ = D.bs * (I - D.w.r0 r + 1) := by ring
      _ ≤ _ := Nat.mul_le_mul_left _ hi
  have hset := C46_set D.w D.bs D.bcs (fun q hq c hc => (h.conditions q hq c hc).1) C g h.values (fun _ _ => 0) (fun _ _ => 0)
    (fun _ _ _ _ _ _ _ => rfl) false 1 (Scatterer.scatterRev D.w D.bs (· + ·) b2 r) r _ I k _ ho.1 hgi hk hn
  unfold PetscLin.rhs
  by_cases hC : C I k
  · rw [if_pos hC]
    refine (hset.1 hC).trans ?_
    simp
  · rw [if_neg hC]
    refine (hset.2 hC).trans ?_
    rw [rev_congr D.w h.valid D.bs b2 c2 g2 r _ k ho.1 hi hk, e3 r I k ho hk]
    unfold liftSum product PetscLin.mat
    simp [B]

/-- C105: whatever vectors, matrices and solution held before, KSP gets the matrix of the bilinear form with rows and columns of
constrained dofs as in the identity, the preconditioner likewise (or the matrix itself if no form is given for it), and the
right-hand side with the prescribed values and for free dofs the linear form less the contribution of the prescribed values.
If KSP raises, `u` is as it was; if it returns `x`, all ranks hold the entries of `x` in `u`, for owned and ghost dofs. -/
theorem C105_system [DecidableEq R] (D : PetscLin.Problem R) (C : Nat → Nat → Prop) (g : Nat → Nat → R) (h : PetscLin.ProblemOk D C g)
    (ksp : PetscLin.Ksp R) (s : NonlinProb.State R) :
    let A := toScalar D.w D.bs (withConditions C (PetscLin.mat D D.a))
    let P := toScalar D.w D.bs (withConditions C (PetscLin.mat D (D.pre.getD D.a)))
    let out := ksp A P (toOwned D.w D.bs (PetscLin.rhs D C g)) (NonlinProb.owned D.base s.x)
    (out = none → (PetscLin.solve D ksp s).2 = false ∧ (PetscLin.solve D ksp s).1.u = s.u) ∧
    ∀ x, out = some x → (PetscLin.solve D ksp s).2 = true ∧
      ConsistentVector D.w D.bs (PetscLin.solve D ksp s).1.u (fromOwned D.w D.bs x) ∧
      ConsistentVector D.w D.bs (PetscLin.solve D ksp s).1.x (fromOwned D.w D.bs x) := by
  classical
  have hb := plin_base D C g h
  obtain ⟨A, eA, hA⟩ := petsc_matrix D.base C g hb D.a h.bilinear
  obtain ⟨P, eP, hP⟩ : ∃ P, PetscLin.assemblePre D s.P A = some P ∧
      ∀ I k J l, I < D.w.r0 D.w.P → k < D.bs → l < D.bs → P (D.bs * I + k) (D.bs * J + l) =
        withConditions C (PetscLin.mat D (D.pre.getD D.a)) I k J l := by
    unfold PetscLin.assemblePre
    cases hp : D.pre with
    | none => exact ⟨A, rfl, hA⟩
    | some p => exact petsc_matrix D.base C g hb p (h.precond p hp)
  obtain ⟨b1, b2, k1, k2, hr⟩ := plin_rhs D C g h s.b
  obtain ⟨b4, hb4⟩ : ∃ b4, b4 = fun q => PetscLin.setBc D (Scatterer.scatterRev D.w D.bs (· + ·) b2 q) q := ⟨_, rfl⟩
  have oA : NonlinProb.entries D.base A = toScalar D.w D.bs (withConditions C (PetscLin.mat D D.a)) := entries_scalar D.base h.block A _ hA
  have oP : NonlinProb.entries D.base P = toScalar D.w D.bs (withConditions C (PetscLin.mat D (D.pre.getD D.a))) :=
    entries_scalar D.base h.block P _ hP
  have ob : NonlinProb.owned D.base b4 = toOwned D.w D.bs (PetscLin.rhs D C g) := by
    funext q i
    unfold NonlinProb.owned toOwned NonlinProb.Problem.own
    show (if q < D.w.P ∧ i < D.bs * D.w.size q then _ else _) = _
    split
    · rename_i hh
      have hi : i / D.bs < D.w.size q := Nat.div_lt_of_lt_mul hh.2
      have := hr q (D.w.r0 q + i / D.bs) (i % D.bs) ⟨hh.1, Nat.le_add_right _ _, Nat.add_lt_add_left hi _⟩ (Nat.mod_lt _ h.block)
      rw [Nat.add_sub_cancel_left, Nat.div_add_mod] at this
      rw [hb4]
      exact this
    · rfl
  have e : PetscLin.solve D ksp s = match ksp (toScalar D.w D.bs (withConditions C (PetscLin.mat D D.a)))
      (toScalar D.w D.bs (withConditions C (PetscLin.mat D (D.pre.getD D.a)))) (toOwned D.w D.bs (PetscLin.rhs D C g))
      (NonlinProb.owned D.base s.x) with
      | none => ({ s with A := A, P := P, b := b4 }, false)
      | some x => (NonlinProb.assignX D.base { s with A := A, P := P, b := b4, x := NonlinProb.place D.base x s.x }, true) := by
    have hz : NonlinProb.assemblePetsc D.base D.a 1 (NonlinProb.zeroEntries s.A) = some A := eA
    unfold PetscLin.solve
    simp only [hz, eP, k1, k2]
    have hb4' : (fun q => PetscLin.setBc D (Scatterer.scatterRev D.w D.bs (fun x1 x2 => x1 + x2) b2 q) q) = b4 := hb4.symm
    simp only [hb4', oA, oP, ob]
    rfl
  intro A' P' out
  rw [e]
  refine ⟨?_, ?_⟩
  · intro ho
    have ho : ksp _ _ _ _ = none := ho
    rw [ho]
    exact ⟨rfl, rfl⟩
  · intro x ho
    have ho : ksp _ _ _ _ = some x := ho
    rw [ho]
    obtain ⟨cx, cu⟩ := assign_consistent D.base h.valid
      { s with A := A, P := P, b := b4, x := NonlinProb.place D.base x s.x } (fromOwned D.w D.bs x)
      (fun r I k ho hk => place_owned D.base x s.x r I k ho hk)
    exact ⟨rfl, cu, cx⟩

/-- The system has the same solutions as the problem. -/
theorem plin_equiv (D : PetscLin.Problem R) (C : Nat → Nat → Prop) (g U : Nat → Nat → R) :
    (∀ I k, I < D.w.r0 D.w.P → k < D.bs → ∑ J ∈ range (D.w.r0 D.w.P), ∑ l ∈ range D.bs,
      withConditions C (PetscLin.mat D D.a) I k J l * U J l = PetscLin.rhs D C g I k) ↔
    LinProb.Solves D.w D.bs (fun q => elems (D.a q) (D.dm q) (D.dm q)) (fun q => velems (D.L q) (D.dm q)) C g U := by
  classical
  have hrow : ∀ I k, I < D.w.r0 D.w.P → k < D.bs → C I k → ∑ J ∈ range (D.w.r0 D.w.P), ∑ l ∈ range D.bs,
      withConditions C (PetscLin.mat D D.a) I k J l * U J l = U I k := by
    intro I k hI hk hC
    apply diag_row _ _ I k hI hk
    · unfold withConditions; rw [if_pos (Or.inl hC), if_pos ⟨rfl, rfl⟩]
    · intro J l _ _ hne
      unfold withConditions; rw [if_pos (Or.inl hC), if_neg hne]
  have hfree : ∀ I k, ¬ C I k → ∑ J ∈ range (D.w.r0 D.w.P), ∑ l ∈ range D.bs, PetscLin.mat D D.a I k J l * U J l =
      ∑ J ∈ range (D.w.r0 D.w.P), ∑ l ∈ range D.bs, withConditions C (PetscLin.mat D D.a) I k J l * U J l +
        product (D.w.r0 D.w.P) D.bs (PetscLin.mat D D.a I k) C U := by
    intro I k hC
    apply free_row
    · intro J l _ _ hCJ
      unfold withConditions
      rw [if_pos (Or.inr hCJ), if_neg]
      rintro ⟨rfl, rfl⟩
      exact hC hCJ
    · intro J l _ _ hCJ
      unfold withConditions
      rw [if_neg (by rintro (h | h) <;> contradiction)]
  have hprod : (∀ I k, I < D.w.r0 D.w.P → k < D.bs → C I k → U I k = g I k) → ∀ I k,
      product (D.w.r0 D.w.P) D.bs (PetscLin.mat D D.a I k) C U = product (D.w.r0 D.w.P) D.bs (PetscLin.mat D D.a I k) C g := by
    intro hc I k
    unfold product
    apply sum_congr rfl
    intro J hJ
    apply sum_congr rfl
    intro l hl
    split
    · rename_i hC
      rw [hc J l (mem_range.mp hJ) (mem_range.mp hl) hC]
    · rfl
  constructor
  · intro hs
    have hc : ∀ I k, I < D.w.r0 D.w.P → k < D.bs → C I k → U I k = g I k := by
      intro I k hI hk hC
      have := hs I k hI hk
      rw [hrow I k hI hk hC] at this
      unfold PetscLin.rhs at this
      rwa [if_pos hC] at this
    refine ⟨hc, ?_⟩
    intro I k hI hk hC
    have h1 := hfree I k hC
    rw [hs I k hI hk, hprod hc I k] at h1
    unfold PetscLin.rhs at h1
    rw [if_neg hC, sub_add_cancel] at h1
    exact h1
  · rintro ⟨hc, hf⟩ I k hI hk
    unfold PetscLin.rhs
    by_cases hC : C I k
    · rw [hrow I k hI hk hC, if_pos hC, hc I k hI hk hC]
    · rw [if_neg hC, ← hprod hc I k, ← hf I k hI hk hC]
      have h1 := hfree I k hC
      unfold PetscLin.mat at h1 ⊢
      rw [h1]; ring

/-- C105: if KSP returns a solution of the system that it was given, then all ranks hold in `u`, for owned and ghost dofs, one
vector that has the prescribed values and satisfies the equations of all free dofs. -/
theorem C105_solution [DecidableEq R] (D : PetscLin.Problem R) (C : Nat → Nat → Prop) (g : Nat → Nat → R) (h : PetscLin.ProblemOk D C g)
    (ksp : PetscLin.Ksp R) (hksp : ∀ A P b x y, ksp A P b x = some y → PetscLin.SolvesSystem D.w D.bs A b y) (s : NonlinProb.State R)
    (hs : (PetscLin.solve D ksp s).2 = true) :
    ∃ U : Nat → Nat → R, ConsistentVector D.w D.bs (PetscLin.solve D ksp s).1.u U ∧
      LinProb.Solves D.w D.bs (fun q => elems (D.a q) (D.dm q) (D.dm q)) (fun q => velems (D.L q) (D.dm q)) C g U := by
  obtain ⟨hn, hx⟩ := C105_system D C g h ksp s
  obtain ⟨o, ho⟩ : ∃ o, ksp (toScalar D.w D.bs (withConditions C (PetscLin.mat D D.a)))
    (toScalar D.w D.bs (withConditions C (PetscLin.mat D (D.pre.getD D.a)))) (toOwned D.w D.bs (PetscLin.rhs D C g))
    (NonlinProb.owned D.base s.x) = o := ⟨_, rfl⟩
  cases o with
  | none => rw [(hn ho).1] at hs; cases hs
  | some x =>
    refine ⟨_, (hx x ho).2.1, (plin_equiv D C g _).mp ?_⟩
    intro I k hI hk
    have := hksp _ _ _ _ _ ho I k hI hk
    obtain ⟨r, hr⟩ := exists_owner D.w I hI
    rw [from_owned D.w D.bs (toOwned D.w D.bs (PetscLin.rhs D C g)) r I k hr] at this
    have hlt : ∀ J l, J < D.w.r0 D.w.P → l < D.bs → D.bs * J + l < D.bs * D.w.r0 D.w.P := by
      intro J l hJ hl
      calc D.bs * J + l < D.bs * J + D.bs := by omega
        _ = D.bs * (J + 1) := by ring
        _ ≤ _ := Nat.mul_le_mul_left _ hJ
    have hd : ∀ a c, c < D.bs → (D.bs * a + c) / D.bs = a ∧ (D.bs * a + c) % D.bs = c := by
      intro a c hc
      rw [Nat.mul_add_div h.block, Nat.div_eq_of_lt hc, Nat.mul_add_mod, Nat.mod_eq_of_lt hc]
      exact ⟨rfl, rfl⟩
    have hin : D.bs * (I - D.w.r0 r) + k < D.bs * D.w.size r := by
      calc D.bs * (I - D.w.r0 r) + k < D.bs * (I - D.w.r0 r) + D.bs := by omega
        _ = D.bs * (I - D.w.r0 r + 1) := by ring
        _ ≤ _ := Nat.mul_le_mul_left _ (by have := hr.2; omega)
    have hR : toOwned D.w D.bs (PetscLin.rhs D C g) r (D.bs * (I - D.w.r0 r) + k) = PetscLin.rhs D C g I k := by
      unfold toOwned
      rw [if_pos ⟨hr.1, hin⟩, (hd _ k hk).1, (hd _ k hk).2]
      congr 1
      have := hr.2; omega
    rw [hR] at this
    rw [← this]
    apply sum_congr rfl
    intro J hJ
    apply sum_congr rfl
    intro l hl
    congr 1
    unfold toScalar
    have hJ := mem_range.mp hJ
    have hl := mem_range.mp hl
    rw [if_pos ⟨hlt I k hI hk, hlt J l hJ hl⟩, (hd I k hk).1, (hd I k hk).2, (hd J l hl).1, (hd J l hl).2]

/-- C105: neither the outcome nor what is returned depends on what the matrices, the right-hand side and `u` held before; the
entries of `x` are passed to KSP, which may start from them. -/
theorem C105_history [DecidableEq R] (D : PetscLin.Problem R) (ksp : PetscLin.Ksp R) (s t : NonlinProb.State R)
    (hx : ∀ q i, s.x q i = t.x q i) :
    (PetscLin.solve D ksp s).2 = (PetscLin.solve D ksp t).2 ∧ ((PetscLin.solve D ksp s).2 = true →
      (∀ q i, i < D.bs * (D.w.size q + (D.w.ghosts q).length) → (PetscLin.solve D ksp s).1.u q i = (PetscLin.solve D ksp t).1.u q i) ∧
      (PetscLin.solve D ksp s).1.x = (PetscLin.solve D ksp t).1.x ∧ (PetscLin.solve D ksp s).1.b = (PetscLin.solve D ksp t).1.b ∧
      (PetscLin.solve D ksp s).1.A = (PetscLin.solve D ksp t).1.A ∧ (PetscLin.solve D ksp s).1.P = (PetscLin.solve D ksp t).1.P) := by
  have hx : s.x = t.x := by funext q i; exact hx q i
  have hA : NonlinProb.zeroEntries s.A = NonlinProb.zeroEntries t.A := rfl
  have hP : ∀ A, PetscLin.assemblePre D s.P A = PetscLin.assemblePre D t.P A := fun _ => rfl
  have hb : PetscLin.vectorOn D s.b = PetscLin.vectorOn D t.b := rfl
  unfold PetscLin.solve
  simp only [hA, hP, hb, hx]
  split
  · exact ⟨rfl, fun h => by cases h⟩
  split
  · exact ⟨rfl, fun h => by cases h⟩
  split
  · exact ⟨rfl, fun h => by cases h⟩
  split
  · exact ⟨rfl, fun h => by cases h⟩
  split
  · exact ⟨rfl, fun h => by cases h⟩
  · refine ⟨rfl, fun _ => ⟨?_, rfl, rfl, rfl, rfl⟩⟩
    intro q i hi
    show (if i < D.base.dim q then _ else _) = (if i < D.base.dim q then _ else _)
    rw [if_pos (show i < D.base.dim q from hi), if_pos (show i < D.base.dim q from hi)]

/-! ## Options -/

theorem db_set_other {V : Type} (pfx : List Char) (l : List (List Char × V)) (db : PetscLin.Db V) (n : List Char)
    (h : ∀ o ∈ l, n ≠ pfx ++ o.1) : l.foldl (fun d o => d.set pfx o.1 o.2) db n = db n := by
  induction l generalizing db with
  | nil => rfl
  | cons o l ih =>
    rw [List.foldl_cons, ih _ (fun o' ho' => h o' (List.mem_cons_of_mem _ ho'))]
    exact if_neg (h o (List.mem_cons_self ..))

theorem db_del_other {V : Type} (pfx : List Char) (l : List (List Char × V)) (db : PetscLin.Db V) (n : List Char)
    (h : ∀ o ∈ l, n ≠ pfx ++ o.1) : l.foldl (fun d o => d.del pfx o.1) db n = db n := by
  induction l generalizing db with
  | nil => rfl
  | cons o l ih =>
    rw [List.foldl_cons, ih _ (fun o' ho' => h o' (List.mem_cons_of_mem _ ho'))]
    exact if_neg (h o (List.mem_cons_self ..))

theorem db_set_own {V : Type} (pfx : List Char) (l : List (List Char × V)) (hn : (l.map (·.1)).Nodup) (db : PetscLin.Db V)
    (k : List Char) (v : V) (h : (k, v) ∈ l) : l.foldl (fun d o => d.set pfx o.1 o.2) db (pfx ++ k) = some v := by
  induction l generalizing db with
  | nil => cases h
  | cons o l ih =>
    rw [List.map_cons, List.nodup_cons] at hn
    rw [List.foldl_cons]
    rcases List.mem_cons.mp h with rfl | h
    · rw [db_set_other]
      · exact if_pos rfl
      · intro o ho e
        exact hn.1 (List.mem_map.mpr ⟨o, ho, (List.append_cancel_left e).symm⟩)
    · exact ih hn.2 _ h

theorem db_del_none {V : Type} (pfx : List Char) (l : List (List Char × V)) (db : PetscLin.Db V) (n : List Char) (h : db n = none) :
    l.foldl (fun d o => d.del pfx o.1) db n = none := by
  induction l generalizing db with
  | nil => exact h
  | cons o l ih =>
    rw [List.foldl_cons]
    apply ih
    unfold PetscLin.Db.del
    split
    · rfl
    · exact h

theorem db_del_own {V : Type} (pfx : List Char) (l : List (List Char × V)) (db : PetscLin.Db V)
    (o : List Char × V) (h : o ∈ l) : l.foldl (fun d o => d.del pfx o.1) db (pfx ++ o.1) = none := by
  induction l generalizing db with
  | nil => cases h
  | cons o' l ih =>
    rw [List.foldl_cons]
    rcases List.mem_cons.mp h with rfl | h
    · exact db_del_none pfx l _ _ (if_pos rfl)
    · exact ih _ h

/-- C105: the constructor refuses an empty prefix only. -/
theorem C105_prefix {V : Type} (pfx : List Char) (opts : Option (List (List Char × V))) (fails : PetscLin.Db V → Bool) (db : PetscLin.Db V) :
    PetscLin.configure pfx opts fails db = none ↔ pfx = [] := by
  unfold PetscLin.configure
  by_cases h : pfx = []
  · simp [h]
  · rw [if_neg h]
    cases opts with
    | none => simp [h]
    | some l =>
      simp only [h, iff_false]
      split <;> simp

/-- C105: when options are passed, KSP is configured from the database in which they replace what it holds under the prefix;
afterwards none of them is left and all other options are as they were.  When none are passed (`None`), KSP does not read
the database. -/
theorem C105_options_partial {V : Type} (pfx : List Char) (hp : pfx ≠ []) (l : List (List Char × V)) (hn : (l.map (·.1)).Nodup)
    (fails : PetscLin.Db V → Bool) (db : PetscLin.Db V) :
    PetscLin.configure pfx none fails db = some (true, ⟨none, db⟩) ∧
    ∃ ok seen db', PetscLin.configure pfx (some l) fails db = some (ok, ⟨some seen, db'⟩) ∧ (ok = true ↔ fails seen = false) ∧
      (∀ o ∈ l, seen (pfx ++ o.1) = some o.2) ∧ (∀ n, (∀ o ∈ l, n ≠ pfx ++ o.1) → seen n = db n ∧ db' n = db n) ∧
      (ok = true → ∀ o ∈ l, db' (pfx ++ o.1) = none) := by
  refine ⟨?_, ?_⟩
  · unfold PetscLin.configure
    rw [if_neg hp]
  · have hs : ∀ o ∈ l, l.foldl (fun d o => d.set pfx o.1 o.2) db (pfx ++ o.1) = some o.2 :=
      fun o ho => db_set_own pfx l hn db o.1 o.2 ho
    have ho : ∀ n, (∀ o ∈ l, n ≠ pfx ++ o.1) → l.foldl (fun d o => d.set pfx o.1 o.2) db n = db n := fun n h => db_set_other pfx l db n h
    unfold PetscLin.configure
    rw [if_neg hp]
    simp only []
    cases hf : fails (l.foldl (fun d o => d.set pfx o.1 o.2) db) with
    | true => exact ⟨false, _, _, if_pos rfl, by simp [hf], hs, fun n h => ⟨ho n h, ho n h⟩, fun h => by cases h⟩
    | false =>
      refine ⟨true, _, _, if_neg (by decide), by simp [hf], hs, fun n h => ⟨ho n h, ?_⟩, fun _ o h => db_del_own pfx l _ o h⟩
      rw [db_del_other pfx l _ n h, ho n h]

/-- C105: if the database held none of the options that are passed and KSP accepts them, the database is as it was. -/
theorem C105_tidy {V : Type} (pfx : List Char) (hp : pfx ≠ []) (l : List (List Char × V)) (hn : (l.map (·.1)).Nodup)
    (fails : PetscLin.Db V → Bool) (db : PetscLin.Db V) (hdb : ∀ o ∈ l, db (pfx ++ o.1) = none)
    (seen db' : PetscLin.Db V) (h : PetscLin.configure pfx (some l) fails db = some (true, ⟨some seen, db'⟩)) : db' = db := by
  obtain ⟨_, ok, seen', db2, e, _, _, h2, h3⟩ := C105_options_partial pfx hp l hn fails db
  rw [h] at e
  cases e
  funext n
  by_cases hex : ∃ o ∈ l, n = pfx ++ o.1
  · obtain ⟨o, ho, rfl⟩ := hex
    rw [h3 rfl o ho, hdb o ho]
  · push Not at hex
    exact (h2 n hex).2

/-- C105, refuted: "tidy up global options": an option that the user has set under the same prefix (on the command line) and
that is also passed is gone afterwards. -/
theorem C105_refuted_lost : ∃ (pfx : List Char) (l : List (List Char × Nat)) (db : PetscLin.Db Nat) (c : PetscLin.Configured Nat),
    PetscLin.configure pfx (some l) (fun _ => false) db = some (true, c) ∧ db ['p', 'k'] = some 1 ∧ c.db ['p', 'k'] = none :=
  ⟨['p'], [(['k'], 2)], fun n => if n = ['p', 'k'] then some 1 else none, _, rfl, rfl, rfl⟩

/-- C105, refuted: when KSP refuses one of the options, all that were passed stay in the database. -/
theorem C105_refuted_left : ∃ (pfx : List Char) (l : List (List Char × Nat)) (db : PetscLin.Db Nat) (fails : PetscLin.Db Nat → Bool)
    (c : PetscLin.Configured Nat),
    PetscLin.configure pfx (some l) fails db = some (false, c) ∧ db ['p', 'k'] = none ∧ c.db ['p', 'k'] = some 2 :=
  ⟨['p'], [(['k'], 2)], fun _ => none, fun _ => true, _, rfl, rfl, rfl⟩

/-- The hypotheses of `C105_tidy` are met. -/
example : ∃ seen db', PetscLin.configure ['p', '_'] (some [(['a'], 1), (['b'], 2)]) (fun _ => false)
      (fun n => if n = ['p', '_', 'c'] then some 7 else none) = some (true, ⟨some seen, db'⟩) ∧
    seen ['p', '_', 'b'] = some 2 ∧ seen ['p', '_', 'c'] = some 7 ∧ db' ['p', '_', 'c'] = some 7 ∧ db' ['p', '_', 'b'] = none ∧
    (([(['a'], 1), (['b'], 2)] : List (List Char × Nat)).map (·.1)).Nodup ∧
    ∀ o ∈ ([(['a'], 1), (['b'], 2)] : List (List Char × Nat)),
      (fun n : List Char => if n = ['p', '_', 'c'] then some 7 else none) (['p', '_'] ++ o.1) = (none : Option Nat) :=
  ⟨_, _, rfl, rfl, rfl, rfl, rfl, by decide, by decide⟩

/-! ## Example: four dofs on two ranks, fixed at both ends -/
namespace C105ex

/-- A preconditioner that is twice the diagonal of the elements. -/
def pre (q : Nat) : Form Int where
  numTypes := 1
  ints := fun ty _ => if ty = .cell then
    [{ dom0 := if q = 0 then [0, 1] else [0], dom1 := if q = 0 then [0, 1] else [0], tensor := fun _ n => [2, 0, 0, 2].getD n 0 }] else []

def D : PetscLin.Problem Int := ⟨spWorld, 1, asmForm, C90ex.L, some pre, asmDofmap, vecBcs⟩

theorem ok : PetscLin.ProblemOk D (fun I _ => I = 0 ∨ I = 3) (fun _ _ => 5) := by
  obtain ⟨hF, _, hd, hr, _, hs⟩ := asm_hyps
  refine ⟨asmWorld_valid, Nat.one_pos, hF, fun _ _ => Or.inl le_rfl, ?_, fun q hq => ⟨hd q hq, hr q hq⟩,
    fun q hq c hc => ⟨vecBlock_ok.bcOk q hq c hc, ?_⟩, vecValues⟩
  · intro p hp q _
    obtain rfl := Option.some.inj hp
    exact Or.inl le_rfl
  · exact hs q hq (c, true) (by simpa [vecBcs, asmBcs, D] using hc)

/-- A solver that can solve this one system. -/
def ksp : PetscLin.Ksp Int := fun A P b _ =>
  if (List.range 4).all (fun I => (List.range 4).all fun J => decide (A I J = C90ex.M I J)) ∧ P 1 1 = 4 ∧ P 0 0 = 1 ∧ P 1 2 = 0 ∧
    b 0 0 = 5 ∧ b 0 1 = 8 ∧ b 1 0 = 5 ∧ b 1 1 = 5 then some fun q i => if q = 0 then [5, 7].getD i 0 else [6, 5].getD i 0
  else none

theorem ksp_ok : ∀ A P b x y, ksp A P b x = some y → PetscLin.SolvesSystem D.w D.bs A b y := by
  intro A P b x y h
  unfold ksp at h
  split at h
  · rename_i hc
    obtain ⟨hA, _, _, _, b0, b1, b2, b3⟩ := hc
    have h7 : ∀ I, I < 4 → ∀ J, J < 4 → A I J = C90ex.M I J := by
      intro I hI J hJ
      exact of_decide_eq_true (List.all_eq_true.mp (List.all_eq_true.mp hA I (List.mem_range.mpr hI)) J (List.mem_range.mpr hJ))
    cases h
    intro I k hI hk
    have hI : I < 4 := hI
    have hk : k = 0 := by have : k < 1 := hk; omega
    subst hk
    show ∑ J ∈ range 4, ∑ l ∈ range 1, A (1 * I + 0) (1 * J + l) * fromOwned spWorld 1 _ J l = fromOwned spWorld 1 b I 0
    have e : ∀ J ∈ range 4, ∑ l ∈ range 1, A (1 * I + 0) (1 * J + l) *
        fromOwned spWorld 1 (fun q i => if q = 0 then [5, 7].getD i 0 else [6, 5].getD i 0) J l =
        C90ex.M I J * [5, 7, 6, 5].getD J 0 := by
      intro J hJ
      have hJ := mem_range.mp hJ
      rw [sum_range_one, add_zero, add_zero, one_mul, one_mul, h7 I hI J hJ]
      congr 1
      interval_cases J <;> rfl
    rw [sum_congr rfl e]
    interval_cases I
    · rw [from_owned spWorld 1 b 0 0 0 (by unfold Owns; decide +kernel)]; exact b0.symm
    · rw [from_owned spWorld 1 b 0 1 0 (by unfold Owns; decide +kernel)]; exact b1.symm
    · rw [from_owned spWorld 1 b 1 2 0 (by unfold Owns; decide +kernel)]; exact b2.symm
    · rw [from_owned spWorld 1 b 1 3 0 (by unfold Owns; decide +kernel)]; exact b3.symm
  · cases h

/-- Arbitrary earlier contents. -/
def s : NonlinProb.State Int := ⟨fun q n => q + 3 * n + 1, fun _ n => 7 - n, fun _ _ => -1, fun _ _ => 99, fun _ _ => 4⟩

end C105ex

/-- The hypotheses of `C105_solution` are met, and the solution is the expected one on both ranks, with the ghost. -/
example : (List.range 3).map ((PetscLin.solve C105ex.D C105ex.ksp C105ex.s).1.u 0) = [5, 7, 6] ∧
    (List.range 2).map ((PetscLin.solve C105ex.D C105ex.ksp C105ex.s).1.u 1) = [6, 5] ∧
    ∃ U : Nat → Nat → Int, ConsistentVector C105ex.D.w 1 (PetscLin.solve C105ex.D C105ex.ksp C105ex.s).1.u U ∧
      LinProb.Solves C105ex.D.w 1 (fun q => elems (asmForm q) (asmDofmap q) (asmDofmap q))
      (fun q => velems (C90ex.L q) (asmDofmap q)) (fun I _ => I = 0 ∨ I = 3) (fun _ _ => 5) U := by
  refine ⟨by decide +kernel, by decide +kernel, ?_⟩
  exact C105_solution C105ex.D _ _ C105ex.ok C105ex.ksp C105ex.ksp_ok C105ex.s (by decide +kernel)

end Verif.Props
