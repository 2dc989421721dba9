import Verif.Props.C46_Vector
/-!
# C47: the system with Dirichlet conditions

Assembling matrix and vector, lifting, the reverse scatters and setting boundary values give a system that is
equivalent to the original equations for the free dofs together with the conditions.
-/
namespace Verif.Props
open Verif.Spec.Assemble Verif.Spec Verif.World Verif.Assembly Finset

variable {R : Type} [CommRing R]

/-- A matrix row for a free dof splits into free and constrained columns. -/
theorem free_row (n bs : Nat) (A u : Nat → Nat → R) (C : Nat → Nat → Prop) (A' : Nat → Nat → R)
    (h1 : ∀ J l, J < n → l < bs → C J l → A' J l = 0) (h2 : ∀ J l, J < n → l < bs → ¬ C J l → A' J l = A J l) :
    ∑ J ∈ range n, ∑ l ∈ range bs, A J l * u J l = ∑ J ∈ range n, ∑ l ∈ range bs, A' J l * u J l + product n bs A C u := by
  classical
  unfold product
  rw [← sum_add_distrib]
  apply sum_congr rfl
  intro J hJ
  rw [← sum_add_distrib]
  apply sum_congr rfl
  intro l hl
  by_cases hc : C J l
  · rw [if_pos hc, h1 J l (mem_range.mp hJ) (mem_range.mp hl) hc]; ring
  · rw [if_neg hc, h2 J l (mem_range.mp hJ) (mem_range.mp hl) hc, add_zero]

/-- A matrix row for a constrained dof is a row of the identity. -/
theorem diag_row (n bs I k : Nat) (hI : I < n) (hk : k < bs) (A' u : Nat → Nat → R)
    (h1 : A' I k = 1) (h2 : ∀ J l, J < n → l < bs → ¬ (I = J ∧ k = l) → A' J l = 0) :
    ∑ J ∈ range n, ∑ l ∈ range bs, A' J l * u J l = u I k := by
  rw [sum_eq_single I]
  · rw [sum_eq_single k]
    · rw [h1, one_mul]
    · intro l hl hne
      rw [h2 I l hI (mem_range.mp hl) (fun h => hne h.2.symm), zero_mul]
    · intro h; exact absurd (mem_range.mpr hk) h
  · intro J hJ hne
    apply sum_eq_zero
    intro l hl
    rw [h2 J l (mem_range.mp hJ) (mem_range.mp hl) (fun h => hne h.1.symm), zero_mul]
  · intro h; exact absurd (mem_range.mpr hI) h

theorem exists_owner (w : World) (I : Nat) (h : I < w.r0 w.P) : ∃ r, Owns w r I := by
  have : ∀ n, I < w.r0 n → n ≤ w.P → ∃ r, Owns w r I := by
    intro n
    induction n with
    | zero => intro h; simp [World.r0, Offsets.excl] at h
    | succ n ih =>
      intro h hn
      by_cases hi : I < w.r0 n
      · exact ih hi (by omega)
      · have e : w.r0 (n + 1) = w.r0 n + w.size n := Offsets.excl_succ w.size n
        exact ⟨n, by omega, by omega, by omega⟩
  exact this w.P h (Nat.le_refl _)

theorem owns_lt (w : World) (r I : Nat) (h : Owns w r I) : I < w.r0 w.P := by
  obtain ⟨hr, h1, h2⟩ := h
  have h3 : w.r0 (r + 1) = w.r0 r + w.size r := Offsets.excl_succ w.size r
  have h4 : w.r0 (r + 1) ≤ w.r0 w.P := Offsets.excl_mono w.size hr
  omega

section
variable [DecidableEq R] (w : World) (hw : w.Valid) (bs : Nat) (h0 : 0 < bs)
  (F L : Nat → Form R) (dm : Nat → Nat → Assembly.Dofmap)
  (hF : ∀ q, q < w.P → Accepted (F q)) (hL : ∀ q, q < w.P → VAccepted (L q)) (hok : ∀ q, q < w.P → FormOk (F q))
  (hd : ∀ q, q < w.P → DofmapOk bs (dm q)) (hr : ∀ q, q < w.P → DofsOk w q (dm q))
  (p p' : Nat → SP.Pattern) (hp : ∀ q, q < w.P → buildPattern (F q) (dm q) (dm q) = .ok (p q))
  (hf : ∀ q, q < w.P → SP.finalize w w p q = .ok (p' q))
  (bcs : Nat → List (BC R)) (hbok : ∀ q, q < w.P → ∀ c ∈ bcs q, BcOk c)
  (hs : ∀ q, q < w.P → ∀ c ∈ bcs q, c.dofs.Pairwise (· ≤ ·))
  (C : Nat → Nat → Prop) (g : Nat → Nat → R) (hc : ConsistentValues w bs bcs C g)
  (x0 : Nat → Nat → R) (X : Nat → Nat → R) (hx : ConsistentVector w bs x0 X)

/-- The matrix that the owner of row `I` holds. -/
noncomputable def systemMatrix (r I k J l : Nat) : R :=
  localEntry w (patternCols w p') (fun q => (graphOf p' q).rowPtr) (fun q => (graphOf p' q).cols) (bs * bs)
    (MatScatter.scatterRev w (patternCols w p') (graphOf p') (bs * bs)
      (fun q => (assembledOn w w bs bs F dm dm p' (fun q => (bcs q).map (·, true)) (fun q => (bcs q).map (·, true)) true 1 q).1))
    r I J (k * bs + l)

/-- The right-hand side on rank `q` from the lifted vectors of all ranks: reverse scatter, then boundary values. -/
def systemVector (b : Nat → Nat → R) (alpha : R) (q : Nat) : Nat → R :=
  (bcs q).foldl (fun v c => c.set (bs * (w.size q + (w.ghosts q).length)) v (some (x0 q)) alpha) (Scatterer.scatterRev w bs (· + ·) b q)

include hw h0 hF hL hok hd hr hp hf hbok hs hc hx in
/-- C47: if no rank raises an error when setting the diagonal (see C45), then for every vector `u`: `u` solves the
assembled system if and only if `u` has the value `alpha` (boundary value - current solution) in each constrained dof
and satisfies the original equations in each free dof. -/
theorem C47_system (hne : ∀ q, q < w.P → (assembledOn w w bs bs F dm dm p' (fun q => (bcs q).map (·, true))
      (fun q => (bcs q).map (·, true)) true 1 q).2 = true) (alpha : R) :
    ∃ b1 b2 : Nat → Nat → R, (∀ q, q < w.P → assembleVector (L q) (dm q) (fun _ => 0) = some (b1 q)) ∧
      (∀ q, q < w.P → applyLifting [some ⟨F q, dm q, bs * (w.size q + (w.ghosts q).length)⟩] (dm q) [bcs q] [x0 q] alpha (b1 q) =
        some (b2 q)) ∧
      ∀ u : Nat → Nat → R,
        (∀ r I k, Owns w r I → k < bs → ∑ J ∈ range (w.r0 w.P), ∑ l ∈ range bs, systemMatrix w bs F dm p' bcs r I k J l * u J l =
          systemVector w bs bcs x0 b2 alpha r (bs * (I - w.r0 r) + k)) ↔
        ((∀ I k, I < w.r0 w.P → k < bs → C I k → u I k = alpha * (g I k - X I k)) ∧
          ∀ I k, I < w.r0 w.P → k < bs → ¬ C I k →
            ∑ J ∈ range (w.r0 w.P), ∑ l ∈ range bs, globalOp w w bs bs (fun q => elems (F q) (dm q) (dm q)) I k J l * u J l =
              globalVec w bs (fun q => velems (L q) (dm q)) I k) := by
  have hcons : Consistent w bs (fun q => (bcs q).map (·, true)) C := by
    intro q hq i I k hi hk
    rw [← (hc q hq i I k hi hk).1]
    simp [Constrained]
  have hsort : ∀ q, q < w.P → SortedBcs ((bcs q).map (·, true)) := by
    intro q hq c hcm
    obtain ⟨c', h, rfl⟩ := List.mem_map.mp hcm
    exact hs q hq c' h
  let B : LiftBlock R := ⟨w, bs, true, F, dm, bcs, x0, C, g, X⟩
  have hB : B.Ok w.P := ⟨hw, rfl, hF, hd, hr, hbok, hc, hx⟩
  obtain ⟨b1, b2, e1, e2, e3⟩ := C46_lifting w hw bs dm hd [B] (by simpa using hB) true alpha L hL
  refine ⟨b1, b2, e1, e2, ?_⟩
  have hlift : ∀ I k, liftSum w bs dm [B] true alpha I k = product (w.r0 w.P) bs
      (fun J l => globalOp w w bs bs (fun q => elems (F q) (dm q) (dm q)) I k J l) C (fun J l => alpha * (g J l - X J l)) := by
    intro I k
    simp [liftSum, B]
  have hM := fun r I J k l hown hk hl => C45_matrix_diagonal w hw bs h0 F dm hF hok hd hr p p' hp hf _ C hcons hsort 1 hne
    r I J k l hown hk hl (systemMatrix w bs F dm p' bcs r I k J l) rfl
  have hrhs : ∀ r I k, Owns w r I → k < bs →
      (C I k → systemVector w bs bcs x0 b2 alpha r (bs * (I - w.r0 r) + k) = alpha * (g I k - X I k)) ∧
      (¬ C I k → systemVector w bs bcs x0 b2 alpha r (bs * (I - w.r0 r) + k) =
        globalVec w bs (fun q => velems (L q) (dm q)) I k - product (w.r0 w.P) bs
      (fun J l => globalOp w w bs bs (fun q => elems (F q) (dm q) (dm q)) I k J l) C (fun J l => alpha * (g J l - X J l))) := by
    intro r I k hown hk
    have hi : I - w.r0 r < w.size r := by have := hown.2; omega
    have hgi : globalOf w r (I - w.r0 r) = some I := by
      unfold globalOf; rw [if_pos hi]; have := hown.2; congr 1; omega
    have hn : bs * (I - w.r0 r) + k < bs * (w.size r + (w.ghosts r).length) := by
      calc bs * (I - w.r0 r) + k < bs * (I - w.r0 r) + bs := by omega
        _ = bs * (I - w.r0 r + 1) := by ring
        _ ≤ _ := Nat.mul_le_mul_left _ (by omega)
    obtain ⟨s1, s2⟩ := C46_set w bs bcs hbok C g hc x0 X hx true alpha (Scatterer.scatterRev w bs (· + ·) b2 r) r _ I k _ hown.1 hgi hk hn
    refine ⟨fun h => by simpa [systemVector] using s1 h, ?_⟩
    intro h
    have := s2 h
    rw [e3 r I k hown hk, hlift] at this
    simpa [systemVector] using this
  have hrow : ∀ r I k, Owns w r I → k < bs → ∀ u : Nat → Nat → R,
      (C I k → ∑ J ∈ range (w.r0 w.P), ∑ l ∈ range bs, systemMatrix w bs F dm p' bcs r I k J l * u J l = u I k) ∧
      (¬ C I k → ∑ J ∈ range (w.r0 w.P), ∑ l ∈ range bs, globalOp w w bs bs (fun q => elems (F q) (dm q) (dm q)) I k J l * u J l =
        ∑ J ∈ range (w.r0 w.P), ∑ l ∈ range bs, systemMatrix w bs F dm p' bcs r I k J l * u J l +
          product (w.r0 w.P) bs (fun J l => globalOp w w bs bs (fun q => elems (F q) (dm q) (dm q)) I k J l) C u) := by
    intro r I k hown hk u
    refine ⟨?_, ?_⟩
    · intro hC
      exact diag_row _ bs I k (owns_lt w r I hown) hk (fun J l => systemMatrix w bs F dm p' bcs r I k J l) u
        ((hM r I I k k hown hk hk).1 hC ⟨rfl, rfl⟩) (fun J l _ hl hne => (hM r I J k l hown hk hl).2.1 (Or.inl hC) hne)
    · intro hC
      refine free_row _ bs _ u C (fun J l => systemMatrix w bs F dm p' bcs r I k J l) ?_ ?_
      · intro J l _ hl hCJ
        exact (hM r I J k l hown hk hl).2.1 (Or.inr hCJ) (by rintro ⟨rfl, rfl⟩; exact hC hCJ)
      · intro J l _ hl hCJ
        exact (hM r I J k l hown hk hl).2.2 (by rintro (h | h); exacts [hC h, hCJ h])
  have hprod : ∀ (A u v : Nat → Nat → R), (∀ I k, I < w.r0 w.P → k < bs → C I k → u I k = v I k) →
      product (w.r0 w.P) bs A C u = product (w.r0 w.P) bs A C v := by
    classical
    intro A u v h
    unfold product
    apply sum_congr rfl
    intro J hJ
    apply sum_congr rfl
    intro l hl
    split
    · rename_i hCJ
      rw [h J l (mem_range.mp hJ) (mem_range.mp hl) hCJ]
    · rfl
  intro u
  constructor
  · intro h
    have hcon : ∀ I k, I < w.r0 w.P → k < bs → C I k → u I k = alpha * (g I k - X I k) := by
      intro I k hI hk hC
      obtain ⟨r, hown⟩ := exists_owner w I hI
      rw [← (hrow r I k hown hk u).1 hC, h r I k hown hk, (hrhs r I k hown hk).1 hC]
    refine ⟨hcon, ?_⟩
    intro I k hI hk hC
    obtain ⟨r, hown⟩ := exists_owner w I hI
    rw [(hrow r I k hown hk u).2 hC, h r I k hown hk, (hrhs r I k hown hk).2 hC, hprod _ u _ hcon, sub_add_cancel]
  · rintro ⟨hcon, hfree⟩ r I k hown hk
    by_cases hC : C I k
    · rw [(hrow r I k hown hk u).1 hC, (hrhs r I k hown hk).1 hC]
      exact hcon I k (owns_lt w r I hown) hk hC
    · rw [(hrhs r I k hown hk).2 hC, ← hfree I k (owns_lt w r I hown) hk hC, (hrow r I k hown hk u).2 hC, hprod _ u _ hcon,
        add_sub_cancel_right]

include hw h0 hF hok hd hr hp hf hs hc in
/-- C47: the system matrix is symmetric if the matrix of the form is symmetric. -/
theorem C47_symmetric (hne : ∀ q, q < w.P → (assembledOn w w bs bs F dm dm p' (fun q => (bcs q).map (·, true))
      (fun q => (bcs q).map (·, true)) true 1 q).2 = true)
    (hsym : ∀ I k J l, globalOp w w bs bs (fun q => elems (F q) (dm q) (dm q)) I k J l =
      globalOp w w bs bs (fun q => elems (F q) (dm q) (dm q)) J l I k)
    (r I k r' J l : Nat) (hI : Owns w r I) (hJ : Owns w r' J) (hk : k < bs) (hl : l < bs) :
    systemMatrix w bs F dm p' bcs r I k J l = systemMatrix w bs F dm p' bcs r' J l I k := by
  have hcons : Consistent w bs (fun q => (bcs q).map (·, true)) C := by
    intro q hq i I k hi hk
    rw [← (hc q hq i I k hi hk).1]
    simp [Constrained]
  have hsort : ∀ q, q < w.P → SortedBcs ((bcs q).map (·, true)) := by
    intro q hq c hcm
    obtain ⟨c', h, rfl⟩ := List.mem_map.mp hcm
    exact hs q hq c' h
  obtain ⟨a1, a2, a3⟩ := C45_matrix_diagonal w hw bs h0 F dm hF hok hd hr p p' hp hf _ C hcons hsort 1 hne r I J k l hI hk hl _ rfl
  obtain ⟨b1, b2, b3⟩ := C45_matrix_diagonal w hw bs h0 F dm hF hok hd hr p p' hp hf _ C hcons hsort 1 hne r' J I l k hJ hl hk _ rfl
  unfold systemMatrix
  by_cases h : C I k ∨ C J l
  · by_cases he : I = J ∧ k = l
    · obtain ⟨rfl, rfl⟩ := he
      have hC : C I k := h.elim id id
      rw [a1 hC ⟨rfl, rfl⟩, b1 hC ⟨rfl, rfl⟩]
    · rw [a2 h he, b2 h.symm (fun h => he ⟨h.1.symm, h.2.symm⟩)]
  · rw [a3 h, b3 (fun hh => h hh.symm), hsym]

end

/-- The hypotheses are met by the example of C45 and C46. -/
example : ∃ p' : Nat → SP.Pattern, ∃ b1 b2 : Nat → Nat → Int,
    (∀ q, q < spWorld.P → assembleVector (vecForm q) (asmDofmap q) (fun _ => 0) = some (b1 q)) ∧
    ∀ u : Nat → Nat → Int,
      (∀ r I k, Owns spWorld r I → k < 1 → ∑ J ∈ range (spWorld.r0 spWorld.P), ∑ l ∈ range 1,
        systemMatrix spWorld 1 asmForm asmDofmap p' vecBcs r I k J l * u J l =
          systemVector spWorld 1 vecBcs (fun _ _ => 2) b2 1 r (1 * (I - spWorld.r0 r) + k)) →
      u 0 0 = 3 ∧ u 3 0 = 3 := by
  obtain ⟨hF, hok, hd, hr, hc, hs⟩ := asm_hyps
  obtain ⟨p, p', hp, hf⟩ := C45_create spWorld spWorld asmWorld_valid asmWorld_valid rfl asmForm asmDofmap asmDofmap hF hok hr hr
  have hcons : Consistent spWorld 1 (fun q => (vecBcs q).map (·, true)) (fun I _ => I = 0 ∨ I = 3) := hc
  have hne : ∀ q, q < spWorld.P → (assembledOn spWorld spWorld 1 1 asmForm asmDofmap asmDofmap p' (fun q => (vecBcs q).map (·, true))
      (fun q => (vecBcs q).map (·, true)) true 1 q).2 = true := by
    intro q hq
    rw [C45_diagonal_error spWorld asmWorld_valid 1 Nat.one_pos asmForm asmDofmap hF hok hd hr p p' hp hf _ _ hcons hs 1 q hq]
    intro I k _ _ hC
    rcases hC with rfl | rfl
    · exact ⟨0, by decide, ⟨[0, 1], [0, 1], fun r s => if r * 2 + s = 0 ∨ r * 2 + s = 3 then 1 else -1⟩, by
        simp [elems, asmForm, asmDofmap, intElems, cellElems, List.range_succ], 0, by simp, 0, by simp, rfl, rfl⟩
    · exact ⟨1, by decide, ⟨[0, 1], [0, 1], fun r s => if r * 2 + s = 0 ∨ r * 2 + s = 3 then 1 else -1⟩, by
        simp [elems, asmForm, asmDofmap, intElems, cellElems, List.range_succ], 1, by simp, 1, by simp, rfl, rfl⟩
  obtain ⟨b1, b2, e1, _, e3⟩ := C47_system spWorld asmWorld_valid 1 Nat.one_pos asmForm vecForm asmDofmap hF (fun _ _ => Or.inl le_rfl) hok hd hr
    p p' hp hf vecBcs (vecBlock_ok.bcOk) (fun q hq c hc => hs q hq (c, true) (by simpa [vecBcs, asmBcs] using hc)) _ _ vecValues
    (fun _ _ => 2) (fun _ _ => 2) (fun _ _ _ _ _ _ _ => rfl) hne 1
  refine ⟨p', b1, b2, e1, ?_⟩
  intro u hu
  have := ((e3 u).mp hu).1
  exact ⟨this 0 0 (by decide) (by decide) (Or.inl rfl), this 3 0 (by decide) (by decide) (Or.inr rfl)⟩

end Verif.Props
