import Verif.Props.C47_System
import Verif.Props.C86_SuperLu
import Verif.Spec.LinearProblem
/-!
# C90: what `LinearProblem.solve` returns

The class that assembles, lifts, solves with SuperLU_DIST and copies the solution.
-/
namespace Verif.Props
open Verif.Spec.Assemble Verif.Spec Verif.Spec.LinProb Verif.World Verif.Assembly Verif.LinProb Finset

variable {R : Type} [CommRing R]

theorem allSome_some {α : Type} [Inhabited α] {P : Nat} {f : Nat → Option α} {g : Nat → α} (h : allSome P f = some g) :
    ∀ q, q < P → f q = some (g q) := by
  unfold allSome at h
  split at h
  · rename_i hall
    cases h
    intro q hq
    have := List.all_eq_true.mp hall q (List.mem_range.mpr hq)
    obtain ⟨v, hv⟩ := Option.isSome_iff_exists.mp this
    show f q = some ((f q).getD default)
    rw [hv]; rfl
  · cases h

theorem allSome_of {α : Type} [Inhabited α] {P : Nat} {f : Nat → Option α} (h : ∀ q, q < P → ∃ v, f q = some v) :
    allSome P f = some (fun q => (f q).getD default) := by
  unfold allSome
  rw [if_pos]
  rw [List.all_eq_true]
  intro q hq
  obtain ⟨v, hv⟩ := h q (List.mem_range.mp hq)
  rw [hv]; rfl

/-- Values of a reverse scatter for owned dofs depend on the arrays of the ranks only. -/
theorem rev_congr (w : World) (hw : w.Valid) (bs : Nat) (b b' : Nat → Nat → R) (h : ∀ q, q < w.P → b q = b' q) (r i j : Nat)
    (hr : r < w.P) (hi : i < w.size r) (hj : j < bs) :
    Scatterer.scatterRev w bs (· + ·) b r (bs * i + j) = Scatterer.scatterRev w bs (· + ·) b' r (bs * i + j) := by
  rw [Nat.mul_comm bs i, C11_reverse_scatter w hw bs _ b r i j hi hj, C11_reverse_scatter w hw bs _ b' r i j hi hj, h r hr]
  congr 1
  apply List.filterMap_congr
  intro q hq
  rw [h q (List.mem_range.mp hq)]

/-- After a forward scatter every rank holds the owners' values. -/
theorem fwd_consistent (w : World) (hw : w.Valid) (bs : Nat) (x : Nat → Nat → R) (X : Nat → Nat → R)
    (hx : ∀ r I k, Owns w r I → k < bs → x r (bs * (I - w.r0 r) + k) = X I k) :
    ConsistentVector w bs (fun q => Scatterer.scatterFwd w bs x q) X := by
  intro q hq i I k hi hk
  obtain ⟨c1, c2⟩ := C10_forward_scatter w hw bs x q hq
  by_cases ho : i < w.size q
  · have hI : I = w.r0 q + i := by unfold globalOf at hi; rw [if_pos ho] at hi; exact (Option.some.inj hi).symm
    have hlt : bs * i + k < bs * w.size q := by
      calc bs * i + k < bs * i + bs := by omega
        _ = bs * (i + 1) := by ring
        _ ≤ _ := Nat.mul_le_mul_left _ ho
    simp only []
    rw [c2 _ hlt]
    have := hx q I k ⟨hq, by omega, by omega⟩ hk
    rwa [hI, Nat.add_sub_cancel_left, ← hI] at this
  · unfold globalOf at hi
    rw [if_neg ho] at hi
    obtain ⟨hlt, _⟩ := List.getElem?_eq_some_iff.mp hi
    have hl : (w.owners q).length = (w.ghosts q).length := hw.len q hq
    have hown : (w.owners q)[i - w.size q]? = some (w.owners q)[i - w.size q] := List.getElem?_eq_getElem (by omega)
    have he : bs * i + k = bs * w.size q + ((i - w.size q) * bs + k) := by
      obtain ⟨d, rfl⟩ : ∃ d, i = w.size q + d := ⟨i - w.size q, by omega⟩
      rw [Nat.add_sub_cancel_left]; ring
    simp only []
    rw [he, c1 _ _ _ hown hi k hk, Nat.mul_comm]
    have ho := hw.owner q hq _ _ _ hown hi
    exact hx _ I k ⟨ho.1, ho.2.2.1, ho.2.2.2⟩ hk

/-- Lifting without a current solution is lifting with a current solution that is zero. -/
theorem lift_zero [DecidableEq R] (D : Problem R) (q : Nat) (b : Nat → R) :
    liftedOn D b q = applyLifting [some ⟨D.a q, D.dm q, D.dim q⟩] (D.dm q) [D.bcs q] [fun _ => 0] 1 b := by
  unfold liftedOn
  by_cases he : (D.bcs q).isEmpty
  · rw [if_pos he]
    simp [applyLifting, applyLifting1, List.isEmpty_iff.mp he]
  · rw [if_neg he]
    simp [applyLifting, applyLifting1]

theorem set_zero [DecidableEq R] (c : BC R) (n : Nat) (v : Nat → R) (alpha : R) :
    c.set n v (some fun _ => 0) alpha = c.set n v none alpha := by
  unfold BC.set
  simp only [sub_zero]

/-- The right-hand side that the problem hands over is that of C47, for owned dofs. -/
theorem rhs_system [DecidableEq R] (D : Problem R) (C : Nat → Nat → Prop) (g : Nat → Nat → R) (h : ProblemOk D C g)
    (b b' : Nat → Nat → R) (hb : ∀ q, q < D.w.P → b q = b' q) (r I k : Nat) (ho : Owns D.w r I) (hk : k < D.bs) :
    rhsOn D b r (D.bs * (I - D.w.r0 r) + k) =
      systemVector D.w D.bs D.bcs (fun _ _ => 0) b' 1 r (D.bs * (I - D.w.r0 r) + k) := by
  have hi : I - D.w.r0 r < D.w.size r := by have := ho.2; omega
  have hgi : globalOf D.w r (I - D.w.r0 r) = some I := by
    unfold globalOf; rw [if_pos hi]; have := ho.2; congr 1; omega
  have hn : D.bs * (I - D.w.r0 r) + k < D.dim r := by
    unfold Problem.dim
    calc D.bs * (I - D.w.r0 r) + k < D.bs * (I - D.w.r0 r) + D.bs := by omega
      _ = D.bs * (I - D.w.r0 r + 1) := by ring
      _ ≤ _ := Nat.mul_le_mul_left _ (by omega)
  have hset := fun v => C46_set D.w D.bs D.bcs (fun q hq c hc => (h.conditions q hq c hc).1) C g h.values (fun _ _ => 0) (fun _ _ => 0)
    (fun _ _ _ _ _ _ _ => rfl) false 1 v r _ I k _ ho.1 hgi hk hn
  have e1 : rhsOn D b r = (D.bcs r).foldl (fun v c => c.set (D.dim r) v none 1) (Scatterer.scatterRev D.w D.bs (· + ·) b r) := by
    unfold rhsOn
    by_cases he : (D.bcs r).isEmpty
    · simp only []
      rw [if_pos he, List.isEmpty_iff.mp he]; rfl
    · simp only []
      rw [if_neg he]
  have e2 : systemVector D.w D.bs D.bcs (fun _ _ => 0) b' 1 r =
      (D.bcs r).foldl (fun v c => c.set (D.dim r) v none 1) (Scatterer.scatterRev D.w D.bs (· + ·) b' r) := by
    unfold systemVector
    simp only [set_zero]
    rfl
  rw [e1, e2]
  by_cases hC : C I k
  · exact ((hset _).1 hC).trans ((hset _).1 hC).symm
  · refine ((hset _).2 hC).trans (Eq.trans ?_ ((hset _).2 hC).symm)
    exact rev_congr D.w h.valid D.bs b b' hb r _ k ho.1 hi hk

/-- The owner of a row holds all of it. -/
theorem block_local (D : Problem R) (hw : D.w.Valid) (A : Nat → Nat → R) (r I k J l : Nat) (ho : Owns D.w r I) (hk : k < D.bs)
    (hl : l < D.bs) :
    blockVal D.w D.cols D.bs D.bs (csr D A) (D.bs * I + k) (D.bs * J + l) =
      localEntry D.w D.cols (fun q i => (D.pat q).offsets.getD i 0) (fun q => (D.pat q).edges) (D.bs * D.bs) A r I J (k * D.bs + l) := by
  have hb : 0 < D.bs := by omega
  have hd : ∀ a c, c < D.bs → (D.bs * a + c) / D.bs = a ∧ (D.bs * a + c) % D.bs = c := by
    intro a c hc
    rw [Nat.mul_add_div hb, Nat.div_eq_of_lt hc, Nat.mul_add_mod, Nat.mod_eq_of_lt hc]
    exact ⟨rfl, rfl⟩
  have hi : I - D.w.r0 r < D.w.size r := by have := ho.2; omega
  have hgi : globalOf D.w r (I - D.w.r0 r) = some I := by
    unfold globalOf; rw [if_pos hi]; have := ho.2; congr 1; omega
  unfold blockVal localEntry
  rw [(hd I k hk).1, (hd I k hk).2, (hd J l hl).1, (hd J l hl).2]
  refine Eq.trans (sum_eq_single r ?_ ?_) (Eq.trans (sum_eq_single (I - D.w.r0 r) ?_ ?_) (Eq.trans ?_ (sum_eq_single (I - D.w.r0 r) ?_ ?_).symm))
  · intro q hq hne
    apply sum_eq_zero
    intro i hi'
    rw [if_neg]
    intro he
    have := mem_range.mp hi'
    exact hne (range_unique D.w ⟨by omega, by omega⟩ ho.2)
  · intro hn
    exact absurd (mem_range.mpr ho.1) hn
  · intro i _ hne
    rw [if_neg]
    intro he
    exact hne (by omega)
  · intro hn
    exact absurd (mem_range.mpr hi) hn
  · rw [if_pos (by have := ho.2; omega), sum_Ico_eq_sum_range]
    apply sum_congr rfl
    intro t _
    simp only [hgi, true_and, csr]
    rw [show ((D.pat r).offsets.getD (I - D.w.r0 r) 0 + t) * D.bs * D.bs + k * D.bs + l =
      ((D.pat r).offsets.getD (I - D.w.r0 r) 0 + t) * (D.bs * D.bs) + (k * D.bs + l) by ring]
    by_cases hc : globalOf D.cols r ((D.pat r).edges.getD ((D.pat r).offsets.getD (I - D.w.r0 r) 0 + t) 0) = some J
    · exact (if_pos hc).trans (if_pos hc).symm
    · exact (if_neg hc).trans (if_neg hc).symm
  · intro i _ hne
    apply sum_eq_zero
    intro t _
    rw [if_neg]
    rintro ⟨h1, _⟩
    exact hne (SubMap.globalOf_inj D.w hw r ho.1 i _ I h1 hgi)
  · intro hn
    exact absurd (mem_range.mpr (by omega)) hn

theorem pattern_block (D : Problem R) (C : Nat → Nat → Prop) (g : Nat → Nat → R) (h : ProblemOk D C g) (A : Nat → Nat → R) :
    D.cols.Valid ∧ BlockMatOk D.w D.cols (csr D A) := by
  obtain ⟨p, hp, hf⟩ := h.pattern
  have hF := fun q hq => (h.bilinear q hq).1
  have hok := fun q hq => (h.bilinear q hq).2
  have hr := fun q hq => (h.dofmap q hq).2
  obtain ⟨hv, hm, _⟩ := pattern_facts D.w D.w h.valid h.valid rfl D.a D.dm D.dm hF hok hr hr p D.pat hp hf
  refine ⟨hv, ⟨?_, fun _ _ => rfl, ?_⟩⟩
  · intro q hq
    refine ⟨?_, ?_⟩
    · have hp' : ∀ q, q < D.w.P → Props.runIns SP.new (patternOps (D.a q) (D.dm q) (D.dm q)) = .ok (p q) := by
        intro q hq; rw [← buildPattern_eq]; exact hp q hq
      obtain ⟨p1, rows, h1, h2, h3, h4, _⟩ := finalize_facts D.w D.w h.valid h.valid rfl _
        (ops_range D.w D.w D.a D.dm D.dm hF hok hr hr) p hp' q hq
      have : p1 = D.pat q := by rw [hf q hq] at h1; injection h1 with h; exact h.symm
      subst this
      show (D.pat q).offsets.getD 0 0 = 0
      rw [h4, rows_getD rows 0 (Nat.zero_le _)]
      exact Offsets.excl_zero _
    · intro i hi
      exact hm.mono q hq i (by have : i < D.w.size q := hi; omega)
  · intro q hq k hk
    have hk : k < (D.pat q).offsets.getD (D.w.size q) 0 := hk
    have hmono : ∀ n, n ≤ (D.w.ghosts q).length → (D.pat q).offsets.getD (D.w.size q) 0 ≤ (D.pat q).offsets.getD (D.w.size q + n) 0 := by
      intro n
      induction n with
      | zero => intro _; exact Nat.le_refl _
      | succ n ih => intro hn; exact le_trans (ih (by omega)) (hm.mono q hq (D.w.size q + n) (by omega))
    have hlen := hm.len q hq
    have := hmono _ (Nat.le_refl _)
    have hkl : k < (D.pat q).edges.length := by omega
    have hr' := hm.range q hq _ (List.getElem_mem hkl)
    have := globalOf_some D.cols q _ hr'
    show ∃ J, globalOf D.cols q ((D.pat q).edges.getD k 0) = some J
    rw [List.getD_eq_getElem?_getD, List.getElem?_eq_getElem hkl]
    exact this

theorem sum_unblocked (n bs : Nat) (hb : 0 < bs) (f : Nat → R) :
    ∑ J ∈ range (n * bs), f J = ∑ J ∈ range n, ∑ l ∈ range bs, f (bs * J + l) := by
  induction n with
  | zero => simp
  | succ n ih =>
    rw [Nat.succ_mul, sum_range_add, ih, sum_range_succ]
    congr 1
    apply sum_congr rfl
    intro l _
    rw [Nat.mul_comm]

/-- What a call that returns has done. -/
theorem solve_steps [DecidableEq R] {intMax : Nat} {D : Problem R} {lib : Lib R} {s s' : LinProb.State R} (hs : LinProb.solve intMax D lib s = (s', none)) :
    (∀ q, q < D.w.P → (matrixOn D s.A q).2 = true) ∧
    ∃ (N : Nat → SuperLu.NRLoc R) (b1 b2 : Nat → Nat → R) (l : Nat → List R),
      (∀ q, q < D.w.P → handedOver intMax D (gathered D fun q => (matrixOn D s.A q).1) q = .ok (N q)) ∧
      (∀ q, q < D.w.P → vectorOn D s.b q = some (b1 q)) ∧ (∀ q, q < D.w.P → liftedOn D (b1 q) q = some (b2 q)) ∧
      (∀ q, q < D.w.P → SuperLu.solve lib.gssvx N (fun q => toList (D.dim q) (rhsOn D b2 q)) (fun q => toList (D.dim q) (s.x q)) q =
        some (l q)) ∧
      lib.info N (fun q => (toList (D.dim q) (rhsOn D b2 q)).take (N q).mLoc) ≤ 0 ∧
      s'.u = fun q => Scatterer.scatterFwd D.w D.bs (fun q i => (l q).getD i 0) q := by
  unfold LinProb.solve at hs
  simp only [] at hs
  split at hs
  · cases hs
  rename_i hall
  have hall : (List.range D.w.P).all (fun q => (matrixOn D s.A q).2) = true := by simpa using hall
  refine ⟨fun q hq => List.all_eq_true.mp hall q (List.mem_range.mpr hq), ?_⟩
  split at hs
  · cases hs
  rename_i N hN
  unfold solveRhs at hs
  split at hs
  · cases hs
  rename_i b1 hb1
  split at hs
  · cases hs
  rename_i b2 hb2
  unfold finish at hs
  simp only [] at hs
  split at hs
  · cases hs
  rename_i l hl
  split at hs
  · cases hs
  rename_i hinfo
  have e := (Prod.mk.inj hs).1
  refine ⟨N, b1, b2, l, ?_, allSome_some hb1, allSome_some hb2, allSome_some hl, by omega, ?_⟩
  · intro q hq
    have h := allSome_some hN q hq
    revert h
    generalize handedOver intMax D (gathered D fun q => (matrixOn D s.A q).1) q = v
    intro h
    cases v with
    | error _ => cases h
    | ok v => cases h; rfl
  · rw [← e]

/-- C90: when `solve` returns and the library reported no failure, all ranks hold in the array of `u`, for owned and ghost dofs, one vector that has the
prescribed value in each constrained dof and satisfies the equations in each free dof, whatever `A`, `b`, `x` and `u` held
before. -/
theorem C90_solve_partial [DecidableEq R] (intMax : Nat) (D : Problem R) (C : Nat → Nat → Prop) (g : Nat → Nat → R) (h : ProblemOk D C g)
    (lib : Lib R) (hlib : LibOk D.w.P (D.w.r0 D.w.P * D.bs) lib) (hneg : ∀ N b, 0 ≤ lib.info N b) (s s' : LinProb.State R)
    (hs : LinProb.solve intMax D lib s = (s', none)) :
    ∃ U : Nat → Nat → R, ConsistentVector D.w D.bs s'.u U ∧
      Solves D.w D.bs (fun q => elems (D.a q) (D.dm q) (D.dm q)) (fun q => velems (D.L q) (D.dm q)) C g U := by
  obtain ⟨hne, N, b1, b2, l, hN, hb1, hb2, hl, hinfo, hu⟩ := solve_steps hs
  obtain ⟨p, hp, hf⟩ := h.pattern
  obtain ⟨hv, hM⟩ := pattern_block D C g h (gathered D fun q => (matrixOn D s.A q).1)
  obtain ⟨c1, c2, e1, e2, e3⟩ := C47_system D.w h.valid D.bs h.block D.a D.L D.dm (fun q hq => (h.bilinear q hq).1) h.linear
    (fun q hq => (h.bilinear q hq).2) (fun q hq => (h.dofmap q hq).1) (fun q hq => (h.dofmap q hq).2) p D.pat hp hf D.bcs
    (fun q hq c hc => (h.conditions q hq c hc).1) (fun q hq c hc => (h.conditions q hq c hc).2) C g h.values (fun _ _ => 0)
    (fun _ _ => 0) (fun _ _ _ _ _ _ _ => rfl) hne 1
  have hbc : ∀ q, q < D.w.P → b2 q = c2 q := by
    intro q hq
    have h1 : vectorOn D s.b q = some (c1 q) := e1 q hq
    have h2 := e2 q hq
    have : b1 q = c1 q := Option.some.inj ((hb1 q hq).symm.trans h1)
    have h3 := hb2 q hq
    rw [lift_zero, this] at h3
    exact Option.some.inj (h3.symm.trans h2)
  have hrhs := rhs_system D C g h b2 c2 hbc
  -- sizes of the parts
  have hsz : ∀ q, q < D.w.P → (N q).mLoc = D.w.size q * D.bs ∧ (N q).firstRow = D.w.r0 q * D.bs ∧
      (N q).n = SuperLu.sizeGlobal D.w * D.bs := by
    intro q hq
    rw [(supermatrix_ok (hN q hq)).1]
    exact ⟨rfl, rfl, rfl⟩
  have hdim : ∀ q, q < D.w.P → (N q).mLoc ≤ D.dim q := by
    intro q hq
    rw [(hsz q hq).1, Nat.mul_comm]
    exact Nat.mul_le_mul_left _ (Nat.le_add_right _ _)
  have hdecomp : ∀ q t, t < D.w.size q * D.bs → t / D.bs < D.w.size q ∧ t % D.bs < D.bs := by
    intro q t ht
    exact ⟨Nat.div_lt_of_lt_mul (by rwa [Nat.mul_comm]), Nat.mod_lt _ h.block⟩
  -- the right-hand side as a global vector
  obtain ⟨b, hb⟩ : ∃ b : Nat → List R, b = fun q => (toList (D.dim q) (rhsOn D b2 q)).take (N q).mLoc := ⟨_, rfl⟩
  have hown : ∀ I, I < D.w.r0 D.w.P → ∃ r, Owns D.w r I := exists_owner D.w
  choose! own hown using hown
  obtain ⟨B, hB⟩ : ∃ B : Nat → R, B = fun I => systemVector D.w D.bs D.bcs (fun _ _ => 0) c2 1 (own (I / D.bs))
      (D.bs * (I / D.bs - D.w.r0 (own (I / D.bs))) + I % D.bs) := ⟨_, rfl⟩
  have hBg : IsGlobal D.w.P N b B := by
    intro q hq t ht
    have ht' := ht
    rw [(hsz q hq).1] at ht'
    obtain ⟨d1, d2⟩ := hdecomp q t ht'
    have hI : ((N q).firstRow + t) / D.bs = D.w.r0 q + t / D.bs := by
      rw [(hsz q hq).2.1, Nat.mul_comm, Nat.mul_add_div h.block]
    have hm : ((N q).firstRow + t) % D.bs = t % D.bs := by
      rw [(hsz q hq).2.1, Nat.mul_comm, Nat.mul_add_mod]
    have hO : Owns D.w q (D.w.r0 q + t / D.bs) := ⟨hq, Nat.le_add_right _ _, Nat.add_lt_add_left d1 _⟩
    have hoq : own (D.w.r0 q + t / D.bs) = q := SubMap.owns_unique D.w _ _ _ (hown _ (owns_lt D.w q _ hO)) hO
    rw [hb, hB]
    simp only []
    rw [hI, hm, hoq, ← hrhs q _ _ hO d2, List.getElem?_take_of_lt ht, Nat.add_sub_cancel_left, Nat.div_add_mod]
    unfold LinProb.toList
    rw [List.getElem?_map, List.getElem?_range (show t < D.dim q from lt_of_lt_of_le ht (hdim q hq)), Option.map_some]
  have hblen : ∀ q, q < D.w.P → (b q).length = (N q).mLoc := by
    intro q hq
    rw [hb]
    simp only [LinProb.toList, List.length_take, List.length_map, List.length_range]
    exact Nat.min_eq_left (hdim q hq)
  obtain ⟨g1, X, g2, g3⟩ := hlib N b B (fun q hq =>
    ⟨C86_layout intMax D.w D.cols D.bs D.bs h.block _ hM hv rfl q hq (N q) (hN q hq), (hsz q hq).2.2⟩)
    (fun I hI => (C86_rows D.w D.bs _ (fun _ _ => rfl) N intMax D.cols D.bs h.block hN I hI).1) hBg hblen (by
      rw [hb]; exact le_antisymm hinfo (hneg _ _))
  have hlg : ∀ q, q < D.w.P → ∀ t, t < (N q).mLoc → (l q).getD t 0 = X ((N q).firstRow + t) := by
    intro q hq t ht
    have h1 := hl q hq
    unfold SuperLu.solve at h1
    split at h1
    · cases h1
    have h2 := Option.some.inj h1
    rw [← h2, ← hb, List.getD_eq_getElem?_getD, List.getElem?_append_left (by rw [g1 q hq]; exact ht), g2 q hq t ht]
    rfl
  refine ⟨fun I k => X (D.bs * I + k), ?_, ?_⟩
  · rw [hu]
    apply fwd_consistent D.w h.valid
    intro r I k ho hk
    have hi : I - D.w.r0 r < D.w.size r := by have := ho.2; omega
    have hlt : D.bs * (I - D.w.r0 r) + k < D.w.size r * D.bs := by
      calc D.bs * (I - D.w.r0 r) + k < D.bs * (I - D.w.r0 r) + D.bs := by omega
        _ = D.bs * (I - D.w.r0 r + 1) := by ring
        _ ≤ _ := by rw [Nat.mul_comm]; exact Nat.mul_le_mul_right _ hi
    show (l r).getD (D.bs * (I - D.w.r0 r) + k) 0 = X (D.bs * I + k)
    rw [hlg r ho.1 _ (by rw [(hsz r ho.1).1]; exact hlt), (hsz r ho.1).2.1]
    congr 1
    have := ho.2.1
    obtain ⟨d, rfl⟩ : ∃ d, I = D.w.r0 r + d := ⟨I - D.w.r0 r, by omega⟩
    rw [Nat.add_sub_cancel_left]; ring
  · have hsys := (e3 (fun I k => X (D.bs * I + k))).mp (by
      intro r I k ho hk
      have hlt := owns_lt D.w r I ho
      have hn : D.bs * I + k < SuperLu.sizeGlobal D.w * D.bs := by
        unfold SuperLu.sizeGlobal
        calc D.bs * I + k < D.bs * I + D.bs := by omega
          _ = (I + 1) * D.bs := by ring
          _ ≤ _ := Nat.mul_le_mul_right _ hlt
      have hr := g3 _ hn
      have hdv : (D.bs * I + k) / D.bs = I ∧ (D.bs * I + k) % D.bs = k := by
        rw [Nat.mul_add_div h.block, Nat.div_eq_of_lt hk, Nat.mul_add_mod, Nat.mod_eq_of_lt hk]
        exact ⟨rfl, rfl⟩
      have hor : own I = r := SubMap.owns_unique D.w _ _ _ (hown I hlt) ho
      rw [hB] at hr
      simp only [] at hr
      rw [hdv.1, hdv.2, hor] at hr
      rw [← hr, sum_unblocked _ _ h.block]
      apply sum_congr rfl
      intro J _
      apply sum_congr rfl
      intro l hl
      rw [C86_matrix intMax D.w D.cols D.bs D.bs h.block h.block _ hM N hN]
      rw [block_local D h.valid _ r I k J l ho hk (mem_range.mp hl)]
      rfl)
    refine ⟨?_, hsys.2⟩
    intro I k hI hk hC
    have := hsys.1 I k hI hk hC
    rwa [one_mul, sub_zero] at this

/-- C90: neither the outcome nor the solution depends on what `A`, `b`, `x` and `u` held before: a problem can be solved
again after its data have changed. -/
theorem C90_history [DecidableEq R] (intMax : Nat) (D : Problem R) (lib : Lib R) (s t : LinProb.State R) :
    (LinProb.solve intMax D lib s).2 = (LinProb.solve intMax D lib t).2 ∧
    ((LinProb.solve intMax D lib s).2 = none → (LinProb.solve intMax D lib s).1 = (LinProb.solve intMax D lib t).1) := by
  have hA : matrixOn D s.A = matrixOn D t.A := rfl
  have hb : vectorOn D s.b = vectorOn D t.b := rfl
  have hx : ∀ N b, SuperLu.solve lib.gssvx N b (fun q => LinProb.toList (D.dim q) (s.x q)) =
      SuperLu.solve lib.gssvx N b (fun q => LinProb.toList (D.dim q) (t.x q)) := by
    intro N b
    funext q
    unfold SuperLu.solve
    simp [LinProb.toList]
  unfold LinProb.solve solveRhs finish
  simp only [hA, hb, hx]
  split
  · exact ⟨rfl, fun h => by cases h⟩
  split
  · exact ⟨rfl, fun h => by cases h⟩
  split
  · exact ⟨rfl, fun h => by cases h⟩
  split
  · exact ⟨rfl, fun h => by cases h⟩
  split
  · exact ⟨rfl, fun h => by cases h⟩
  split
  · exact ⟨rfl, fun h => by cases h⟩
  · exact ⟨rfl, fun _ => rfl⟩

/-- C90: when `solve` raises an exception, `u` is as it was. -/
theorem C90_unchanged [DecidableEq R] (intMax : Nat) (D : Problem R) (lib : Lib R) (s : LinProb.State R) (e : LinProb.Err)
    (h : (LinProb.solve intMax D lib s).2 = some e) : (LinProb.solve intMax D lib s).1.u = s.u := by
  revert h
  unfold LinProb.solve solveRhs finish
  simp only []
  split
  · intro _; rfl
  split
  · intro _; rfl
  split
  · intro _; rfl
  split
  · intro _; rfl
  split
  · intro _; rfl
  split
  · intro _; rfl
  · intro h; cases h

/-- C90: `solve` raises an exception exactly when a constrained dof is not coupled with itself by the bilinear form (its
diagonal entry is not in the matrix), when a size does not fit into the integers of the library, or when the library
returns a positive code. -/
theorem C90_errors [DecidableEq R] (intMax : Nat) (D : Problem R) (C : Nat → Nat → Prop) (g : Nat → Nat → R) (h : ProblemOk D C g)
    (lib : Lib R) (s : LinProb.State R) :
    ((LinProb.solve intMax D lib s).2 = some .assembly ↔ ∃ I k, I < D.w.r0 D.w.P ∧ k < D.bs ∧ C I k ∧
      ¬ Couples D.w D.w (fun q => elems (D.a q) (D.dm q) (D.dm q)) I I) ∧
    ((LinProb.solve intMax D lib s).2 = some .matrix ↔
      (∀ I k, I < D.w.r0 D.w.P → k < D.bs → C I k → Couples D.w D.w (fun q => elems (D.a q) (D.dm q) (D.dm q)) I I) ∧
      ∃ q, q < D.w.P ∧ ¬ (D.w.r0 D.w.P * D.bs < intMax ∧ D.w.size q * D.bs < intMax ∧ D.w.r0 q * D.bs < intMax ∧
        (D.pat q).offsets.getD (D.w.size q) 0 * D.bs * D.bs < intMax)) ∧
    ((LinProb.solve intMax D lib s).2 = none ∨ (LinProb.solve intMax D lib s).2 ∈ [some .assembly, some .matrix, some .solver]) := by
  obtain ⟨p, hp, hf⟩ := h.pattern
  have hcons : Consistent D.w D.bs (fun q => (D.bcs q).map (·, true)) C := by
    intro q hq i I k hi hk
    rw [← (h.values q hq i I k hi hk).1]
    simp [Constrained]
  have hsort : ∀ q, q < D.w.P → SortedBcs ((D.bcs q).map (·, true)) := by
    intro q hq c hcm
    obtain ⟨c', hc', rfl⟩ := List.mem_map.mp hcm
    exact (h.conditions q hq c' hc').2
  have hdiag : (List.range D.w.P).all (fun q => (matrixOn D s.A q).2) = true ↔
      ∀ I k, I < D.w.r0 D.w.P → k < D.bs → C I k → Couples D.w D.w (fun q => elems (D.a q) (D.dm q) (D.dm q)) I I := by
    rw [List.all_eq_true]
    have hd := fun q hq => C45_diagonal_error D.w h.valid D.bs h.block D.a D.dm (fun q hq => (h.bilinear q hq).1)
      (fun q hq => (h.bilinear q hq).2) (fun q hq => (h.dofmap q hq).1) (fun q hq => (h.dofmap q hq).2) p D.pat hp hf _ C hcons hsort 1 q hq
    constructor
    · intro hall I k hI hk hC
      obtain ⟨r, ho⟩ := exists_owner D.w I hI
      exact (hd r ho.1).mp (hall r (List.mem_range.mpr ho.1)) I k ho hk hC
    · intro hall q hq
      exact (hd q (List.mem_range.mp hq)).mpr (fun I k ho hk hC => hall I k (owns_lt D.w q I ho) hk hC)
  have hmat : ∀ A, allSome D.w.P (fun q => (handedOver intMax D A q).toOption) = none ↔
      ∃ q, q < D.w.P ∧ ¬ (D.w.r0 D.w.P * D.bs < intMax ∧ D.w.size q * D.bs < intMax ∧ D.w.r0 q * D.bs < intMax ∧
        (D.pat q).offsets.getD (D.w.size q) 0 * D.bs * D.bs < intMax) := by
    intro A
    have hq : ∀ q, ((handedOver intMax D A q).toOption).isSome = true ↔
        (D.w.r0 D.w.P * D.bs < intMax ∧ D.w.size q * D.bs < intMax ∧ D.w.r0 q * D.bs < intMax ∧
        (D.pat q).offsets.getD (D.w.size q) 0 * D.bs * D.bs < intMax) := by
      intro q
      have := C86_refused intMax D.w D.cols D.bs D.bs q (csr D A q)
      have e : (((handedOver intMax D A q).toOption).isSome = true) ↔
          ∃ N, SuperLu.createSupermatrix intMax D.w D.cols D.bs D.bs (csr D A q) q = .ok N := by
        unfold handedOver
        cases SuperLu.createSupermatrix intMax D.w D.cols D.bs D.bs (csr D A q) q with
        | error _ => simp [Except.toOption]
        | ok v => simp [Except.toOption]
      rw [e, this]
      exact ⟨fun h => h.2, fun h => ⟨rfl, h⟩⟩
    unfold allSome
    split
    · rename_i hall
      constructor
      · intro h; cases h
      · rintro ⟨q, hqP, hn⟩
        exact absurd ((hq q).mp (List.all_eq_true.mp hall q (List.mem_range.mpr hqP))) hn
    · rename_i hall
      refine ⟨fun _ => ?_, fun _ => rfl⟩
      by_contra hcon
      push Not at hcon
      apply hall
      rw [List.all_eq_true]
      intro q hqm
      refine (hq q).mpr ?_
      exact hcon q (List.mem_range.mp hqm)
  have hvec : ∃ b1, allSome D.w.P (vectorOn D s.b) = some b1 := by
    refine ⟨_, allSome_of ?_⟩
    intro q hq
    obtain ⟨b, h1, _⟩ := assembleVector_ok (D.L q) (D.dm q) (fun t => ((h.dofmap q hq).1 t).1) (h.linear q hq) (fun _ => 0)
    exact ⟨b, h1⟩
  have hlift : ∀ b1 : Nat → Nat → R, ∃ b2, allSome D.w.P (fun q => liftedOn D (b1 q) q) = some b2 := by
    intro b1
    refine ⟨_, allSome_of ?_⟩
    intro q hq
    let B : LiftBlock R := ⟨D.w, D.bs, true, D.a, D.dm, D.bcs, fun _ _ => 0, C, g, fun _ _ => 0⟩
    have hB : B.Ok D.w.P := ⟨h.valid, rfl, fun q hq => (h.bilinear q hq).1, fun q hq => (h.dofmap q hq).1, fun q hq => (h.dofmap q hq).2,
      fun q hq c hc => (h.conditions q hq c hc).1, h.values, fun _ _ _ _ _ _ _ => rfl⟩
    obtain ⟨b', h3, _⟩ := lift_rank D.w h.valid D.bs D.dm (fun q hq => (h.dofmap q hq).1) [B] (by simpa using hB) true 1 q hq (b1 q)
    rw [lift_zero]
    exact ⟨b', h3⟩
  have hsolve : ∀ (N : Nat → SuperLu.NRLoc R) (b : Nat → List R) (t : Nat → Nat → R), (∀ q, (b q).length = D.dim q) → ∃ l, allSome D.w.P (SuperLu.solve lib.gssvx N b
      (fun q => LinProb.toList (D.dim q) (t q))) = some l := by
    intro N b t hl
    refine ⟨_, allSome_of ?_⟩
    intro q _
    unfold SuperLu.solve
    rw [if_neg (by simp [LinProb.toList, hl q])]
    exact ⟨_, rfl⟩
  unfold LinProb.solve
  simp only []
  by_cases hall : (List.range D.w.P).all (fun q => (matrixOn D s.A q).2) = true
  · have hc := hdiag.mp hall
    rw [if_neg (by simp [hall])]
    cases hm : allSome D.w.P (fun q => (handedOver intMax D (gathered D fun q => (matrixOn D s.A q).1) q).toOption) with
    | none =>
      have hm' := (hmat _).mp hm
      refine ⟨⟨fun h => (by cases h), ?_⟩, ⟨fun _ => ⟨hc, hm'⟩, fun _ => rfl⟩, by simp⟩
      rintro ⟨I, k, h1, h2, h3, h4⟩
      exact absurd (hc I k h1 h2 h3) h4
    | some N =>
      have hm' := (hmat (gathered D fun q => (matrixOn D s.A q).1)).not.mp (by rw [hm]; simp)
      have key : ∀ s' : LinProb.State R, s'.b = s.b → (solveRhs D lib N s').2 = none ∨ (solveRhs D lib N s').2 = some .solver := by
        intro s' hsb
        obtain ⟨b1, hb1⟩ := hvec
        obtain ⟨b2, hb2⟩ := hlift b1
        unfold solveRhs
        rw [hsb, hb1]
        simp only []
        rw [hb2]
        unfold finish
        simp only []
        obtain ⟨l, hl⟩ := hsolve N (fun q => LinProb.toList (D.dim q) (rhsOn D b2 q)) s'.x (fun q => by simp [LinProb.toList])
        rw [hl]
        simp only []
        split
        · exact Or.inr rfl
        · exact Or.inl rfl
      have hk := key { s with A := gathered D fun q => (matrixOn D s.A q).1 } rfl
      simp only []
      refine ⟨⟨?_, ?_⟩, ⟨?_, ?_⟩, ?_⟩
      · intro h; rcases hk with hk | hk <;> (rw [hk] at h; cases h)
      · rintro ⟨I, k, h1, h2, h3, h4⟩
        exact absurd (hc I k h1 h2 h3) h4
      · intro h; rcases hk with hk | hk <;> (rw [hk] at h; cases h)
      · rintro ⟨_, hx⟩
        exact absurd hx hm'
      · rcases hk with hk | hk
        · exact Or.inl hk
        · right; rw [hk]; simp
  · rw [if_pos (by simpa using hall)]
    have hn := fun hh => hall (hdiag.mpr hh)
    refine ⟨⟨fun _ => ?_, fun _ => rfl⟩, ⟨fun h => (by cases h), fun hx => absurd hx.1 hn⟩, by simp⟩
    by_contra hcon
    push Not at hcon
    exact hn hcon

/-- C90: a class that denotes a scalar type is refused for every function that is passed, also one with values of that
type. -/
theorem C90_dtype_class (n name : String) : checkDtype (.cls n) (some name) = none := by
  unfold checkDtype functionDtype
  simp

/-- C90: the scalar type used is the one asked for, and that of the function that is passed; without one, none is refused. -/
theorem C90_dtype (d r : DType) (u : Option String) : checkDtype d u = some r ↔ r = d ∧ ∀ name, u = some name → d = .inst name := by
  unfold checkDtype functionDtype
  cases u with
  | none => simp [eq_comm]
  | some name =>
    by_cases h : d = .inst name
    · simp [h, eq_comm]
    · simp [h]

/-- C90, refuted: "must match `u.dtype`": a function of the default scalar type is refused with the default argument, which
denotes the same scalar type. -/
theorem C90_refuted_dtype : ∃ name : String, defaultScalar.name = name ∧ checkDtype defaultScalar (some name) = none :=
  ⟨"float64", rfl, C90_dtype_class _ _⟩

example : checkDtype (.inst "float64") (some "float64") = some (.inst "float64") ∧
    checkDtype (.inst "float32") (some "float64") = none ∧ checkDtype defaultScalar none = some (.cls "float64") := by decide +kernel

/-! ## Example: four dofs on two ranks, fixed at both ends -/
namespace C90ex

def L (q : Nat) : Form Int where
  numTypes := 1
  ints := fun ty _ => if ty = .cell then
    [{ dom0 := if q = 0 then [0, 1] else [0], dom1 := if q = 0 then [0, 1] else [0],
       tensor := fun _ n => if n = 0 then (if q = 0 then 1 else -2) else 2 }] else []

def p (q : Nat) : SP.Pattern :=
  match buildPattern (asmForm q) (asmDofmap q) (asmDofmap q) with
  | .ok p => p
  | .error _ => SP.new

def pat (q : Nat) : SP.Pattern :=
  match SP.finalize spWorld spWorld p q with
  | .ok p => p
  | .error _ => SP.new

def D : Problem Int := ⟨spWorld, 1, asmForm, L, asmDofmap, pat, vecBcs⟩

theorem ok : ProblemOk D (fun I _ => I = 0 ∨ I = 3) (fun _ _ => 5) := by
  obtain ⟨hF, hok, hd, hr, _, hs⟩ := asm_hyps
  refine ⟨asmWorld_valid, Nat.one_pos, fun q hq => ⟨hF q hq, hok q hq⟩, fun _ _ => Or.inl le_rfl, fun q hq => ⟨hd q hq, hr q hq⟩,
    ⟨p, ?_, ?_⟩, fun q hq c hc => ⟨vecBlock_ok.bcOk q hq c hc, ?_⟩, vecValues⟩
  · intro q hq
    have : q = 0 ∨ q = 1 := by have : q < 2 := hq; omega
    rcases this with rfl | rfl <;> rfl
  · intro q hq
    have : q = 0 ∨ q = 1 := by have : q < 2 := hq; omega
    rcases this with rfl | rfl <;> rfl
  · exact hs q hq (c, true) (by simpa [vecBcs, asmBcs, D] using hc)

/-- The matrix of the system: both conditions applied. -/
def M (I J : Nat) : Int := [1, 0, 0, 0, 0, 2, -1, 0, 0, -1, 2, 0, 0, 0, 0, 1].getD (4 * I + J) 0

def isM (N : Nat → SuperLu.NRLoc Int) : Bool := (List.range 4).all fun I => (List.range 4).all fun J => decide (distVal 2 N I J = M I J)

/-- A library that can solve this one system. -/
def lib : Lib Int where
  gssvx := fun _ _ q => if q = 0 then [5, 7] else [6, 5]
  info := fun N b => if b 0 = [5, 8] ∧ b 1 = [5, 5] ∧ (N 0).mLoc = 2 ∧ (N 1).mLoc = 2 ∧ (N 0).firstRow = 0 ∧ (N 1).firstRow = 2 ∧
    isM N = true then 0 else 1

theorem lib_ok : LibOk D.w.P (D.w.r0 D.w.P * D.bs) lib := by
  intro N b B _ _ hB hl hi
  have hi : (if b 0 = [5, 8] ∧ b 1 = [5, 5] ∧ (N 0).mLoc = 2 ∧ (N 1).mLoc = 2 ∧ (N 0).firstRow = 0 ∧ (N 1).firstRow = 2 ∧
    isM N = true then (0 : Int) else 1) = 0 := hi
  split at hi
  · rename_i hc
    obtain ⟨h1, h2, h3, h4, h5, h6, h7'⟩ := hc
    have h7 : ∀ I, I < 4 → ∀ J, J < 4 → distVal 2 N I J = M I J := by
      intro I hI J hJ
      exact of_decide_eq_true (List.all_eq_true.mp (List.all_eq_true.mp h7' I (List.mem_range.mpr hI)) J (List.mem_range.mpr hJ))
    have hcase : ∀ q, q < D.w.P → q = 0 ∨ q = 1 := by intro q hq; have : q < 2 := hq; omega
    have hb0 := hB 0 (by decide)
    have hb1 := hB 1 (by decide)
    rw [h1, h3, h5] at hb0
    rw [h2, h4, h6] at hb1
    have B0 := hb0 0 (by decide)
    have B1 := hb0 1 (by decide)
    have B2 := hb1 0 (by decide)
    have B3 := hb1 1 (by decide)
    simp at B0 B1 B2 B3
    refine ⟨?_, fun I => [5, 7, 6, 5].getD I 0, ?_, ?_⟩
    · intro q hq
      rcases hcase q hq with rfl | rfl
      · rw [h3]; rfl
      · rw [h4]; rfl
    · intro q hq t ht
      rcases hcase q hq with rfl | rfl
      · rw [h3] at ht
        rw [h5]
        interval_cases t <;> rfl
      · rw [h4] at ht
        rw [h6]
        interval_cases t <;> rfl
    · intro I hI
      have hI : I < 4 := hI
      show ∑ J ∈ range 4, distVal 2 N I J * _ = B I
      have : ∀ J ∈ range 4, distVal 2 N I J * [5, 7, 6, 5].getD J 0 = M I J * [5, 7, 6, 5].getD J 0 := by
        intro J hJ
        rw [h7 I hI J (mem_range.mp hJ)]
      rw [sum_congr rfl this]
      interval_cases I
      · rw [← B0]; decide
      · rw [← B1]; decide
      · rw [← B2]; decide
      · rw [← B3]; decide
  · cases hi

/-- Arbitrary earlier contents. -/
def s : LinProb.State Int := ⟨fun q n => q + 3 * n + 1, fun _ n => 7 - n, fun _ _ => -1, fun _ _ => 99⟩

end C90ex

/-- The hypotheses of `C90_solve_partial` are met, and the solution is the expected one on both ranks, with the ghost. -/
example : ∃ s', LinProb.solve 1000 C90ex.D C90ex.lib C90ex.s = (s', none) ∧
    (List.range 3).map (s'.u 0) = [5, 7, 6] ∧ (List.range 2).map (s'.u 1) = [6, 5] ∧
    ∃ U : Nat → Nat → Int, ConsistentVector C90ex.D.w 1 s'.u U ∧ Solves C90ex.D.w 1 (fun q => elems (asmForm q) (asmDofmap q) (asmDofmap q))
      (fun q => velems (C90ex.L q) (asmDofmap q)) (fun I _ => I = 0 ∨ I = 3) (fun _ _ => 5) U := by
  have e : (LinProb.solve 1000 C90ex.D C90ex.lib C90ex.s).2 = none := by decide +kernel
  refine ⟨(LinProb.solve 1000 C90ex.D C90ex.lib C90ex.s).1, Prod.ext rfl e, by decide +kernel, by decide +kernel, ?_⟩
  refine C90_solve_partial 1000 C90ex.D _ _ C90ex.ok C90ex.lib C90ex.lib_ok ?_ C90ex.s _ (Prod.ext rfl e)
  intro N b
  show 0 ≤ (if _ then (0 : Int) else 1)
  split <;> decide

/-- The library leaves the right-hand side where the solution should be and returns a negative code. -/
def C90ex.bad : Lib Int := ⟨fun _ b => b, fun _ _ => -1⟩

/-- C90, refuted: `solve` returns without an exception although the library reported a failure with a negative code (an
argument it does not accept), and the returned function does not solve the problem. -/
theorem C90_refuted_negative : ∃ (D : Problem Int) (C : Nat → Nat → Prop) (g : Nat → Nat → Int) (lib : Lib Int) (s s' : LinProb.State Int),
    ProblemOk D C g ∧ LibOk D.w.P (D.w.r0 D.w.P * D.bs) lib ∧ LinProb.solve 1000 D lib s = (s', none) ∧
    ¬ ∃ U : Nat → Nat → Int, ConsistentVector D.w D.bs s'.u U ∧
      Solves D.w D.bs (fun q => elems (D.a q) (D.dm q) (D.dm q)) (fun q => velems (D.L q) (D.dm q)) C g U := by
  have e : (LinProb.solve 1000 C90ex.D C90ex.bad C90ex.s).2 = none := by decide +kernel
  refine ⟨C90ex.D, _, _, C90ex.bad, C90ex.s, (LinProb.solve 1000 C90ex.D C90ex.bad C90ex.s).1, C90ex.ok, ?_, Prod.ext rfl e, ?_⟩
  · intro N b B _ _ _ _ h
    exact absurd (show (-1 : Int) = 0 from h) (by decide)
  · rintro ⟨U, hU, hS⟩
    have h0 : (5 : Int) = U 0 0 := (by decide +kernel : (5 : Int) = (LinProb.solve 1000 C90ex.D C90ex.bad C90ex.s).1.u 0 (1 * 0 + 0)).trans
      (hU 0 (by decide) 0 0 0 rfl (by decide))
    have h1 : (8 : Int) = U 1 0 := (by decide +kernel : (8 : Int) = (LinProb.solve 1000 C90ex.D C90ex.bad C90ex.s).1.u 0 (1 * 1 + 0)).trans
      (hU 0 (by decide) 1 1 0 rfl (by decide))
    have h2 : (5 : Int) = U 2 0 := (by decide +kernel : (5 : Int) = (LinProb.solve 1000 C90ex.D C90ex.bad C90ex.s).1.u 1 (1 * 0 + 0)).trans
      (hU 1 (by decide) 0 2 0 rfl (by decide))
    have h3 : (5 : Int) = U 3 0 := (by decide +kernel : (5 : Int) = (LinProb.solve 1000 C90ex.D C90ex.bad C90ex.s).1.u 1 (1 * 1 + 0)).trans
      (hU 1 (by decide) 1 3 0 rfl (by decide))
    have hf := hS.free 1 0 (by decide) (by decide) (by decide)
    have hL : globalVec C90ex.D.w C90ex.D.bs (fun q => velems (C90ex.D.L q) (C90ex.D.dm q)) 1 0 = 3 := by decide +kernel
    have hA : ∀ J, J < 4 → globalOp C90ex.D.w C90ex.D.w C90ex.D.bs C90ex.D.bs (fun q => elems (C90ex.D.a q) (C90ex.D.dm q) (C90ex.D.dm q)) 1 0 J 0 =
        [-1, 2, -1, 0].getD J 0 := by decide +kernel
    rw [hL] at hf
    have hf : ∑ J ∈ range 4, ∑ l ∈ range 1, globalOp C90ex.D.w C90ex.D.w C90ex.D.bs C90ex.D.bs
      (fun q => elems (C90ex.D.a q) (C90ex.D.dm q) (C90ex.D.dm q)) 1 0 J l * U J l = 3 := hf
    simp only [sum_range_succ, sum_range_zero, zero_add] at hf
    rw [hA 0 (by decide), hA 1 (by decide), hA 2 (by decide), hA 3 (by decide), ← h0, ← h1, ← h2, ← h3] at hf
    revert hf; decide

end Verif.Props
