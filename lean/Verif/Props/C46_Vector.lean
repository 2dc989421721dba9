import Verif.Lemmas.AssemblyBc
import Verif.Props.C45_Assembly
/-!
# C46: assembled vectors, lifting and boundary values
-/
namespace Verif.Props
open Verif.Spec.Assemble Verif.Spec Verif.World Verif.Assembly Finset

variable {R : Type} [CommRing R]

/-! ## Sums over ranks -/

theorem globalOf_lt_total (w : World) (hw : w.Valid) (r : Nat) (hr : r < w.P) (i g : Nat) (h : globalOf w r i = some g) :
    g < w.r0 w.P := by
  obtain ⟨p, hp, h1, h2⟩ := SubMap.owns_of_globalOf w hw r hr i g h
  have h3 : w.r0 (p + 1) = w.r0 p + w.size p := Offsets.excl_succ w.size p
  have h4 : w.r0 (p + 1) ≤ w.r0 w.P := Offsets.excl_mono w.size hp
  omega

/-- After a reverse scatter the owner holds the sum over all ranks that have the block. -/
theorem scatter_owner (w : World) (hw : w.Valid) (bs : Nat) (x : Nat → Nat → R) (r I k : Nat) (hown : Owns w r I) (hk : k < bs)
    (V : Nat → R) (hV : ∀ q, q < w.P → ∀ i, globalOf w q i = some I → x q (bs * i + k) = V q)
    (hZ : ∀ q, q < w.P → (∀ i, globalOf w q i ≠ some I) → V q = 0) :
    Scatterer.scatterRev w bs (· + ·) x r (bs * (I - w.r0 r) + k) = ∑ q ∈ range w.P, V q := by
  obtain ⟨hr, h1, h2⟩ := hown
  have hi : I - w.r0 r < w.size r := by omega
  have hgr : globalOf w r (I - w.r0 r) = some I := by
    unfold globalOf; rw [if_pos hi]; congr 1; omega
  rw [Nat.mul_comm bs, C11_reverse_scatter w hw bs (· + ·) x r _ k hi hk, foldl_add_eq, sum_filterMap_range,
    ← add_sum_erase (range w.P) V (mem_range.mpr hr), Nat.mul_comm _ bs, hV r hr _ hgr]
  congr 1
  have hsub : w.r0 r + (I - w.r0 r) = I := by omega
  rw [hsub, ← add_sum_erase (range w.P) _ (mem_range.mpr hr)]
  have hself : ghostAt w r I = none := by
    cases h : ghostAt w r I with
    | none => rfl
    | some k =>
      have hg := ghostAt_some w r I k h
      have : globalOf w r (w.size r + k) = some I := by
        unfold globalOf; rw [if_neg (by omega), Nat.add_sub_cancel_left]; exact hg
      have := SubMap.globalOf_inj w hw r hr _ _ I hgr this
      omega
  rw [hself]
  simp only [Option.map_none, Option.getD_none, zero_add]
  apply sum_congr rfl
  intro q hq
  obtain ⟨hqr, hqP⟩ := mem_erase.mp hq
  rw [mem_range] at hqP
  cases h : ghostAt w q I with
  | none =>
    simp only [Option.map_none, Option.getD_none]
    symm
    apply hZ q hqP
    intro i hgi
    unfold globalOf at hgi
    split at hgi
    · rename_i hlt
      have := Option.some.inj hgi
      exact hqr (SubMap.owns_unique w q r I ⟨hqP, by omega, by omega⟩ ⟨hr, h1, h2⟩)
    · rw [ghostAt_of w q I _ (hw.nodup q hqP) hgi] at h
      cases h
  | some k' =>
    have hg := ghostAt_some w q I k' h
    simp only [Option.map_some, Option.getD_some]
    rw [← hV q hqP (w.size q + k') (by unfold globalOf; rw [if_neg (by omega), Nat.add_sub_cancel_left]; exact hg)]
    congr 1
    ring

/-- Contribution of one rank to a vector. -/
def rankVec (w : World) (bs q : Nat) (es : List (VElem R)) (I k : Nat) : R :=
  (es.map fun e => ∑ a ∈ range e.rows.length, if (e.rows[a]?).bind (globalOf w q) = some I then e.val (bs * a + k) else 0).sum

theorem rankVec_local (w : World) (hw : w.Valid) (bs q : Nat) (hq : q < w.P) (es : List (VElem R)) (I k i : Nat)
    (hi : globalOf w q i = some I) : rankVec w bs q es I k = localVec bs es i k := by
  unfold rankVec localVec VElem.entry
  simp only [bind_iff w hw q hq _ i I hi]

theorem rankVec_zero (w : World) (bs q : Nat) (es : List (VElem R)) (I k : Nat) (h : ∀ i, globalOf w q i ≠ some I) :
    rankVec w bs q es I k = 0 := by
  unfold rankVec
  apply List.sum_eq_zero
  intro x hx
  obtain ⟨e, he, rfl⟩ := List.mem_map.mp hx
  apply sum_eq_zero
  intro a _
  rw [if_neg]
  intro hb
  obtain ⟨y, _, hy⟩ := Option.bind_eq_some_iff.mp hb
  exact h y hy

open Classical in
/-- Products with constrained dofs in local and global numbering. -/
theorem lift_global (w0 w1 : World) (hw0 : w0.Valid) (hw1 : w1.Valid) (bs0 bs1 q : Nat) (hq0 : q < w0.P) (hq1 : q < w1.P)
    (es : List (Elem R)) (K : Nat → Prop) (h : Nat → R) (C : Nat → Nat → Prop) (H : Nat → Nat → R)
    (hC : ∀ j J l, globalOf w1 q j = some J → l < bs1 → (K (bs1 * j + l) ↔ C J l) ∧ (C J l → h (bs1 * j + l) = H J l))
    (i I m : Nat) (hi : globalOf w0 q i = some I) :
    (∑ j ∈ range (w1.size q + (w1.ghosts q).length), ∑ l ∈ range bs1,
      if K (bs1 * j + l) then localOp bs0 bs1 es i m j l * h (bs1 * j + l) else 0) =
    product (w1.r0 w1.P) bs1 (fun J l => rankOp w0 w1 bs0 bs1 q es I m J l) C H := by
  unfold product
  have hr : ∀ J ∈ range (w1.r0 w1.P), (∑ l ∈ range bs1, if C J l then rankOp w0 w1 bs0 bs1 q es I m J l * H J l else 0) =
      ∑ j ∈ range (w1.size q + (w1.ghosts q).length), if globalOf w1 q j = some J then
        ∑ l ∈ range bs1, if K (bs1 * j + l) then localOp bs0 bs1 es i m j l * h (bs1 * j + l) else 0 else 0 := by
    intro J _
    by_cases hJ : ∃ j, globalOf w1 q j = some J
    · obtain ⟨j, hj⟩ := hJ
      symm
      rw [sum_eq_single j]
      · rw [if_pos hj]
        symm
        apply sum_congr rfl
        intro l hl
        obtain ⟨h1, h2⟩ := hC j J l hj (mem_range.mp hl)
        by_cases hc : C J l
        · rw [if_pos hc, if_pos (h1.mpr hc), rankOp_local w0 w1 hw0 hw1 bs0 bs1 q hq0 hq1 es I m J l i j hi hj, h2 hc]
        · rw [if_neg hc, if_neg (fun h => hc (h1.mp h))]
      · intro j' _ hne
        rw [if_neg]
        intro hj'
        exact hne (SubMap.globalOf_inj w1 hw1 q hq1 j' j J hj' hj)
      · intro hn
        exact absurd (mem_range.mpr (SubMap.globalOf_lt w1 q j J hj)) hn
    · rw [sum_eq_zero, sum_eq_zero]
      · intro j _
        rw [if_neg (fun h => hJ ⟨j, h⟩)]
      · intro l _
        rw [rankOp_zero, zero_mul, ite_self]
        rintro ⟨e, _, i', _, j', _, _, hj'⟩
        exact hJ ⟨j', hj'⟩
  rw [sum_congr rfl hr]
  symm
  rw [sum_comm]
  apply sum_congr rfl
  intro j hj
  obtain ⟨J, hJ⟩ := globalOf_some w1 q j (mem_range.mp hj)
  rw [sum_eq_single J]
  · rw [if_pos hJ]
  · intro J' _ hne
    rw [if_neg]
    intro h
    rw [hJ] at h
    exact hne (Option.some.inj h).symm
  · intro hn
    exact absurd (mem_range.mpr (globalOf_lt_total w1 hw1 q hq1 j J hJ)) hn

theorem product_sum (n bs : Nat) (P : Nat) (A : Nat → Nat → Nat → R) (C : Nat → Nat → Prop) (v : Nat → Nat → R) :
    ∑ q ∈ range P, product n bs (A q) C v = product n bs (fun J l => ∑ q ∈ range P, A q J l) C v := by
  classical
  unfold product
  rw [sum_comm]
  apply sum_congr rfl
  intro J _
  rw [sum_comm]
  apply sum_congr rfl
  intro l _
  split
  · rw [sum_mul]
  · simp

/-- C46: on meshes with one cell type, or with only cell integrals, as many for each type, assembling a linear form
into a zero vector never raises an error, and after a reverse scatter the owner of each block holds the sum of all
element vectors of all ranks. -/
theorem C46_vector (w : World) (hw : w.Valid) (bs : Nat) (L : Nat → Form R) (dm : Nat → Nat → Assembly.Dofmap)
    (hL : ∀ q, q < w.P → VAccepted (L q)) (hd : ∀ q, q < w.P → DofmapOk bs (dm q)) :
    ∃ b : Nat → Nat → R, (∀ q, q < w.P → assembleVector (L q) (dm q) (fun _ => 0) = some (b q)) ∧
      ∀ r I k, Owns w r I → k < bs → Scatterer.scatterRev w bs (· + ·) b r (bs * (I - w.r0 r) + k) =
        globalVec w bs (fun q => velems (L q) (dm q)) I k := by
  have h : ∀ q, ∃ b, q < w.P → (assembleVector (L q) (dm q) (fun _ => 0) = some b ∧
      ∀ i k, k < bs → b (bs * i + k) = localVec bs (velems (L q) (dm q)) i k) := by
    intro q
    by_cases hq : q < w.P
    · obtain ⟨b, h1, h2⟩ := assembleVector_ok (L q) (dm q) (fun t => (hd q hq t).1) (hL q hq) (fun _ => 0)
      exact ⟨b, fun _ => ⟨h1, fun i k hk => by rw [h2 i k hk, zero_add]⟩⟩
    · exact ⟨fun _ => 0, fun h => absurd h hq⟩
  choose b hb using h
  refine ⟨b, fun q hq => (hb q hq).1, ?_⟩
  intro r I k hown hk
  rw [scatter_owner w hw bs b r I k hown hk (fun q => rankVec w bs q (velems (L q) (dm q)) I k)]
  · rfl
  · intro q hq i hi
    rw [(hb q hq).2 i k hk, rankVec_local w hw bs q hq _ I k i hi]
  · intro q hq hno
    exact rankVec_zero w bs q _ I k hno

/-! ## Lifting -/

/-- A block of a system: trial space, form, conditions and current solution on all ranks, and what the conditions and
the current solution mean in global numbering. -/
structure LiftBlock (R : Type) where
  w : World
  bs : Nat
  present : Bool
  F : Nat → Form R
  dm : Nat → Nat → Assembly.Dofmap
  bcs : Nat → List (BC R)
  x0 : Nat → Nat → R
  C : Nat → Nat → Prop
  g : Nat → Nat → R
  X : Nat → Nat → R

structure LiftBlock.Ok (B : LiftBlock R) (P : Nat) : Prop where
  valid : B.w.Valid
  ranks : B.w.P = P
  form : ∀ q, q < P → Accepted (B.F q)
  dofmap : ∀ q, q < P → DofmapOk B.bs (B.dm q)
  dofs : ∀ q, q < P → DofsOk B.w q (B.dm q)
  bcOk : ∀ q, q < P → ∀ c ∈ B.bcs q, BcOk c
  values : ConsistentValues B.w B.bs B.bcs B.C B.g
  vector : ConsistentVector B.w B.bs B.x0 B.X

/-- The arguments of `apply_lifting` on rank `q`. -/
def liftForms (blocks : List (LiftBlock R)) (q : Nat) : List (Option (Block R)) :=
  blocks.map fun B => if B.present then some ⟨B.F q, B.dm q, B.bs * (B.w.size q + (B.w.ghosts q).length)⟩ else none

/-- What lifting subtracts for component `k` of block `I` of the test space: the constrained columns of the matrix of
each block, times the distance of the boundary values from the current solution. -/
noncomputable def liftSum (w0 : World) (bs0 : Nat) (dm0 : Nat → Nat → Assembly.Dofmap) (blocks : List (LiftBlock R)) (useX : Bool) (alpha : R)
    (I k : Nat) : R :=
  (blocks.map fun B => if B.present then product (B.w.r0 B.w.P) B.bs
    (fun J l => globalOp w0 B.w bs0 B.bs (fun q => elems (B.F q) (dm0 q) (B.dm q)) I k J l) B.C
    (fun J l => alpha * (B.g J l - if useX then B.X J l else 0)) else 0).sum

section
variable [DecidableEq R] (w0 : World) (hw0 : w0.Valid) (bs0 : Nat) (dm0 : Nat → Nat → Assembly.Dofmap)
  (hd0 : ∀ q, q < w0.P → DofmapOk bs0 (dm0 q))
  (blocks : List (LiftBlock R)) (hB : ∀ B ∈ blocks, B.Ok w0.P)
  (useX : Bool) (alpha : R)

omit [DecidableEq R] in
noncomputable def rankLift (B : LiftBlock R) (useX : Bool) (alpha : R) (q I k : Nat) : R :=
  if B.present then product (B.w.r0 B.w.P) B.bs
    (fun J l => rankOp w0 B.w bs0 B.bs q (elems (B.F q) (dm0 q) (B.dm q)) I k J l) B.C
    (fun J l => alpha * (B.g J l - if useX then B.X J l else 0)) else 0

include hw0 hd0 in
theorem lift_block (B : LiftBlock R) (hB : B.Ok w0.P) (hp : B.present = true) (q : Nat) (hq : q < w0.P) (b : Nat → R) :
    ∃ b', applyLifting1 (B.F q) (dm0 q) (B.dm q) (B.bs * (B.w.size q + (B.w.ghosts q).length)) (B.bcs q)
        (if useX then some (B.x0 q) else none) alpha b = some b' ∧
      ∀ i I k, globalOf w0 q i = some I → k < bs0 →
        b' (bs0 * i + k) = b (bs0 * i + k) - rankLift w0 bs0 dm0 B useX alpha q I k := by
  classical
  obtain ⟨b', h1, v, h2, h3⟩ := applyLifting1_ok bs0 B.bs (B.F q) (dm0 q) (B.dm q) (hd0 q hq) (hB.dofmap q hq) (hB.form q hq)
    (B.w.size q + (B.w.ghosts q).length) (hB.dofs q hq) (B.bcs q) (hB.bcOk q hq) (if useX then some (B.x0 q) else none) alpha b
  refine ⟨b', h1, ?_⟩
  intro i I k hi hk
  rw [h3 i k hk]
  congr 1
  unfold rankLift
  rw [if_pos hp]
  have hq1 : q < B.w.P := by rw [hB.ranks]; exact hq
  refine Eq.trans ?_ (lift_global w0 B.w hw0 hB.valid bs0 B.bs q hq hq1 (elems (B.F q) (dm0 q) (B.dm q))
    (fun p => ∃ c ∈ B.bcs q, p ∈ c.dofs)
    (fun p => alpha * (v p - ((if useX then some (B.x0 q) else none).getD fun _ => 0) p)) B.C
    (fun J l => alpha * (B.g J l - if useX then B.X J l else 0)) ?_ i I k hi)
  · apply sum_congr rfl
    intro j _
    apply sum_congr rfl
    intro l _
    congr
  intro j J l hj hl
  obtain ⟨c1, c2⟩ := hB.values q hq1 j J l hj hl
  refine ⟨c1, ?_⟩
  intro hC
  have hlt : B.bs * j + l < B.bs * (B.w.size q + (B.w.ghosts q).length) := by
    have h3 := SubMap.globalOf_lt B.w q j J hj
    calc B.bs * j + l < B.bs * j + B.bs := by omega
      _ = B.bs * (j + 1) := by ring
      _ ≤ _ := Nat.mul_le_mul_left _ h3
  beta_reduce
  rw [c2 _ (h2 _ hlt (c1.mpr hC))]
  congr 2
  cases useX
  · simp
  · simp [hB.vector q hq1 j J l hj hl]

include hw0 hd0 hB in
/-- C46: `apply_lifting` never raises an error; on each rank it subtracts that rank's share of the lifting. -/
theorem lift_rank (q : Nat) (hq : q < w0.P) (b : Nat → R) :
    ∃ b', applyLifting (liftForms blocks q) (dm0 q) (blocks.map fun B => B.bcs q)
        (if useX then blocks.map fun B => B.x0 q else []) alpha b = some b' ∧
      ∀ i I k, globalOf w0 q i = some I → k < bs0 →
        b' (bs0 * i + k) = b (bs0 * i + k) - (blocks.map fun B => rankLift w0 bs0 dm0 B useX alpha q I k).sum := by
  unfold applyLifting
  by_cases hall : (liftForms blocks q).all Option.isNone
  · rw [if_pos hall]
    refine ⟨b, rfl, ?_⟩
    intro i I k _ _
    rw [List.sum_eq_zero, sub_zero]
    intro x hx
    obtain ⟨B, hBm, rfl⟩ := List.mem_map.mp hx
    unfold rankLift
    rw [if_neg]
    intro hp
    rw [List.all_eq_true] at hall
    have := hall _ (List.mem_map_of_mem (f := fun (B : LiftBlock R) => if B.present then
      some (⟨B.F q, B.dm q, B.bs * (B.w.size q + (B.w.ghosts q).length)⟩ : Block R) else none) hBm)
    simp [hp] at this
  · rw [if_neg hall, if_neg (by cases useX <;> simp [liftForms]), if_neg (by simp [liftForms])]
    have key : ∀ m, m ≤ blocks.length → ∃ b', (List.range m).foldlM (fun b j =>
        match ((liftForms blocks q)[j]?).join with
        | none => some b
        | some B => applyLifting1 B.form (dm0 q) B.dm1 B.dim ((blocks.map fun B => B.bcs q).getD j [])
          ((if useX then blocks.map fun B => B.x0 q else [])[j]?) alpha b) b = some b' ∧
        ∀ i I k, globalOf w0 q i = some I → k < bs0 →
          b' (bs0 * i + k) = b (bs0 * i + k) - ((blocks.take m).map fun B => rankLift w0 bs0 dm0 B useX alpha q I k).sum := by
      intro m
      induction m with
      | zero => intro _; exact ⟨b, rfl, by intros; simp⟩
      | succ m ih =>
        intro hm
        obtain ⟨b1, h1, h2⟩ := ih (by omega)
        have hget : blocks[m]? = some blocks[m] := List.getElem?_eq_getElem (by omega)
        have hmem : blocks[m] ∈ blocks := List.getElem_mem _
        have htake : blocks.take (m + 1) = blocks.take m ++ [blocks[m]] := by rw [List.take_add_one, hget]; rfl
        have hform : ((liftForms blocks q)[m]?).join = if blocks[m].present then
            some ⟨blocks[m].F q, blocks[m].dm q, blocks[m].bs * (blocks[m].w.size q + (blocks[m].w.ghosts q).length)⟩ else none := by
          unfold liftForms
          rw [List.getElem?_map, hget]
          rfl
        rw [List.range_succ, List.foldlM_append, h1]
        by_cases hp : blocks[m].present = true
        · obtain ⟨b', h3, h4⟩ := lift_block w0 hw0 bs0 dm0 hd0 useX alpha blocks[m] (hB _ hmem) hp q hq b1
          refine ⟨b', ?_, ?_⟩
          · have hb : (blocks.map fun B => B.bcs q).getD m [] = blocks[m].bcs q := by
              rw [List.getD_eq_getElem?_getD, List.getElem?_map, hget]; rfl
            have hx : ((if useX then blocks.map fun B => B.x0 q else [])[m]?) = if useX then some (blocks[m].x0 q) else none := by
              cases useX
              · rfl
              · simp [hget]
            simp only [Option.bind_eq_bind, Option.bind_some, List.foldlM_cons, List.foldlM_nil]
            rw [hform, if_pos hp]
            simp only [hb, hx, h3]
            rfl
          · intro i I k hi hk
            rw [h4 i I k hi hk, h2 i I k hi hk, htake, List.map_append, List.sum_append]
            simp [sub_sub]
        · refine ⟨b1, ?_, ?_⟩
          · simp only [Option.bind_eq_bind, Option.bind_some, List.foldlM_cons, List.foldlM_nil]
            rw [hform, if_neg hp]
            rfl
          · intro i I k hi hk
            rw [h2 i I k hi hk, htake, List.map_append, List.sum_append]
            simp [rankLift, hp]
    obtain ⟨b', h1, h2⟩ := key blocks.length (Nat.le_refl _)
    rw [List.take_length] at h2
    have hlen : (liftForms blocks q).length = blocks.length := by simp [liftForms]
    rw [hlen]
    exact ⟨b', h1, h2⟩

omit [DecidableEq R] in
theorem rankLift_zero (B : LiftBlock R) (q I k : Nat) (h : ∀ i, globalOf w0 q i ≠ some I) :
    rankLift w0 bs0 dm0 B useX alpha q I k = 0 := by
  classical
  unfold rankLift product
  split
  · apply sum_eq_zero
    intro J _
    apply sum_eq_zero
    intro l _
    beta_reduce
    rw [rankOp_zero, zero_mul, ite_self]
    rintro ⟨e, _, i, _, j, _, hi, _⟩
    exact h i hi
  · rfl

omit [DecidableEq R] in
include hB in
theorem rankLift_sum (I k : Nat) :
    ∑ q ∈ range w0.P, (blocks.map fun B => rankLift w0 bs0 dm0 B useX alpha q I k).sum =
      liftSum w0 bs0 dm0 blocks useX alpha I k := by
  unfold liftSum
  induction blocks with
  | nil => simp
  | cons B blocks ih =>
    simp only [List.map_cons, List.sum_cons, sum_add_distrib]
    rw [ih (fun B h => hB B (by simp [h]))]
    congr 1
    unfold rankLift
    split
    · rw [product_sum]
      rfl
    · simp

include hw0 hd0 hB in
/-- C46: assembling a linear form and lifting with all blocks of a system never raises an error, and after a reverse
scatter the owner of each block of the test space holds the sum of all element vectors minus, for each block, the
constrained columns of the matrix times `alpha` (boundary value - current solution). -/
theorem C46_lifting (L : Nat → Form R) (hL : ∀ q, q < w0.P → VAccepted (L q)) :
    ∃ b1 b2 : Nat → Nat → R, (∀ q, q < w0.P → assembleVector (L q) (dm0 q) (fun _ => 0) = some (b1 q)) ∧
      (∀ q, q < w0.P → applyLifting (liftForms blocks q) (dm0 q) (blocks.map fun B => B.bcs q)
        (if useX then blocks.map fun B => B.x0 q else []) alpha (b1 q) = some (b2 q)) ∧
      ∀ r I k, Owns w0 r I → k < bs0 → Scatterer.scatterRev w0 bs0 (· + ·) b2 r (bs0 * (I - w0.r0 r) + k) =
        globalVec w0 bs0 (fun q => velems (L q) (dm0 q)) I k - liftSum w0 bs0 dm0 blocks useX alpha I k := by
  have h : ∀ q, ∃ b1 b2, q < w0.P → (assembleVector (L q) (dm0 q) (fun _ => 0) = some b1 ∧
      applyLifting (liftForms blocks q) (dm0 q) (blocks.map fun B => B.bcs q)
        (if useX then blocks.map fun B => B.x0 q else []) alpha b1 = some b2 ∧
      ∀ i I k, globalOf w0 q i = some I → k < bs0 → b2 (bs0 * i + k) =
        localVec bs0 (velems (L q) (dm0 q)) i k - (blocks.map fun B => rankLift w0 bs0 dm0 B useX alpha q I k).sum) := by
    intro q
    by_cases hq : q < w0.P
    · obtain ⟨b, h1, h2⟩ := assembleVector_ok (L q) (dm0 q) (fun t => (hd0 q hq t).1) (hL q hq) (fun _ => 0)
      obtain ⟨b', h3, h4⟩ := lift_rank w0 hw0 bs0 dm0 hd0 blocks hB useX alpha q hq b
      exact ⟨b, b', fun _ => ⟨h1, h3, fun i I k hi hk => by rw [h4 i I k hi hk, h2 i k hk, zero_add]⟩⟩
    · exact ⟨fun _ => 0, fun _ => 0, fun h => absurd h hq⟩
  choose b1 b2 hb using h
  refine ⟨b1, b2, fun q hq => (hb q hq).1, fun q hq => (hb q hq).2.1, ?_⟩
  intro r I k hown hk
  rw [scatter_owner w0 hw0 bs0 b2 r I k hown hk (fun q => rankVec w0 bs0 q (velems (L q) (dm0 q)) I k -
    (blocks.map fun B => rankLift w0 bs0 dm0 B useX alpha q I k).sum)]
  · rw [sum_sub_distrib, rankLift_sum w0 bs0 dm0 blocks hB useX alpha I k]
    rfl
  · intro q hq i hi
    rw [(hb q hq).2.2 i I k hi hk, rankVec_local w0 hw0 bs0 q hq _ I k i hi]
  · intro q hq hno
    rw [rankVec_zero w0 bs0 q _ I k hno, List.sum_eq_zero, sub_zero]
    intro x hx
    obtain ⟨B, _, rfl⟩ := List.mem_map.mp hx
    exact rankLift_zero w0 bs0 dm0 useX alpha B q I k hno

end

/-- C46: setting the boundary values writes `alpha` (boundary value - current solution) into every constrained dof of
the array of a rank, owned or ghost, and leaves the others as they are. -/
theorem C46_set [DecidableEq R] (w : World) (bs : Nat) (bcs : Nat → List (BC R)) (hok : ∀ q, q < w.P → ∀ c ∈ bcs q, BcOk c)
    (C : Nat → Nat → Prop) (g : Nat → Nat → R) (hc : ConsistentValues w bs bcs C g) (x0 : Nat → Nat → R) (X : Nat → Nat → R)
    (hx : ConsistentVector w bs x0 X) (useX : Bool) (alpha : R) (b : Nat → R) (q i I k n : Nat) (hq : q < w.P) (hi : globalOf w q i = some I)
    (hk : k < bs) (hn : bs * i + k < n) :
    (C I k → (bcs q).foldl (fun v c => c.set n v (if useX then some (x0 q) else none) alpha) b (bs * i + k) =
      alpha * (g I k - if useX then X I k else 0)) ∧
    (¬ C I k → (bcs q).foldl (fun v c => c.set n v (if useX then some (x0 q) else none) alpha) b (bs * i + k) = b (bs * i + k)) := by
  obtain ⟨c1, c2⟩ := hc q hq i I k hi hk
  obtain ⟨s1, s2⟩ := set_all (bcs q) (hok q hq) n b (if useX then some (x0 q) else none) alpha (bs * i + k)
  refine ⟨?_, ?_⟩
  · intro h
    obtain ⟨v, hv, e⟩ := s2 hn (c1.mpr h)
    rw [e, c2 v hv]
    congr 2
    cases useX
    · simp
    · simp [hx q hq i I k hi hk]
  · intro h
    exact s1 (Or.inl fun hh => h (c1.mp hh))

/-! ## Several cell types with facet integrals -/

/-- A form on a mesh with two cell types, with one exterior facet of the first type. -/
def mixForm : Form Int where
  numTypes := 2
  ints := fun ty t => if ty = .exteriorFacet ∧ t = 0 then [{ dom0 := [0, 0], dom1 := [0, 0], tensor := fun _ _ => 1 }] else []

def mixDofmap (t : Nat) : Assembly.Dofmap := { bs := 1, width := 1, dofs := fun _ => [t] }

def mixWorld : World := { P := 1, size := fun _ => 2, ghosts := fun _ => [], owners := fun _ => [] }

/-- C46 is false for facet integrals on meshes with several cell types: the facet is assembled once for each cell type,
into dofs of a cell of the other type, without an error (the same form as a matrix is rejected). -/
theorem C46_refuted_mixed_facets :
    ∃ b, assembleVector mixForm mixDofmap (fun _ => 0) = some b ∧
      b 1 ≠ globalVec mixWorld 1 (fun _ => velems mixForm mixDofmap) 1 0 := by
  refine ⟨_, rfl, ?_⟩
  decide +kernel

/-! ## Example

The space of the example in C45; boundary value 5 and a linear form with element vectors (1, 2). -/

def vecForm (q : Nat) : Form Int where
  numTypes := 1
  ints := fun ty _ => if ty = .cell then
    [{ dom0 := if q = 0 then [0, 1] else [0], dom1 := if q = 0 then [0, 1] else [0],
       tensor := fun _ n => if n = 0 then 1 else 2 }] else []

def vecBcs (q : Nat) : List (BC Int) := [⟨if q = 0 then [0] else [1], .const 1 fun _ => 5⟩]

def vecBlock : LiftBlock Int where
  w := spWorld
  bs := 1
  present := true
  F := asmForm
  dm := asmDofmap
  bcs := vecBcs
  x0 := fun _ _ => 2
  C := fun I _ => I = 0 ∨ I = 3
  g := fun _ _ => 5
  X := fun _ _ => 2

theorem vecValues : ConsistentValues spWorld 1 vecBcs (fun I _ => I = 0 ∨ I = 3) (fun _ _ => 5) := by
  intro q hq i I k hi hk
  refine ⟨?_, ?_⟩
  · have := asm_hyps.2.2.2.2.1 q hq i I k hi hk
    rw [← this]
    simp [Constrained, vecBcs, asmBcs]
  · rintro v ⟨pre, c, post, j, e, h1, _, _, h2⟩
    have hc : c ∈ vecBcs q := by rw [e]; simp
    simp only [vecBcs, List.mem_singleton] at hc
    subst hc
    exact h2

theorem vecBlock_ok : vecBlock.Ok spWorld.P := by
  obtain ⟨hF, hok, hd, hr, hc, hs⟩ := asm_hyps
  exact ⟨asmWorld_valid, rfl, hF, hd, hr, fun q _ c hc => by
    simp only [vecBlock, vecBcs, List.mem_singleton] at hc; subst hc; trivial, vecValues, fun _ _ _ _ _ _ _ => rfl⟩

/-- The hypotheses of `C46_lifting` are met. -/
example : ∃ b1 b2 : Nat → Nat → Int, (∀ q, q < spWorld.P → assembleVector (vecForm q) (asmDofmap q) (fun _ => 0) = some (b1 q)) ∧
      (∀ q, q < spWorld.P → applyLifting (liftForms [vecBlock] q) (asmDofmap q) [vecBcs q] [fun _ => 2] 1 (b1 q) = some (b2 q)) ∧
      ∀ r I k, Owns spWorld r I → k < 1 → Scatterer.scatterRev spWorld 1 (· + ·) b2 r (1 * (I - spWorld.r0 r) + k) =
        globalVec spWorld 1 (fun q => velems (vecForm q) (asmDofmap q)) I k - liftSum spWorld 1 asmDofmap [vecBlock] true 1 I k :=
  C46_lifting spWorld asmWorld_valid 1 asmDofmap asm_hyps.2.2.1 [vecBlock] (by simpa using vecBlock_ok) true 1 vecForm
    (fun _ _ => Or.inl le_rfl)

example : globalVec spWorld 1 (fun q => velems (vecForm q) (asmDofmap q)) 2 0 = 3 := by decide +kernel

end Verif.Props
