import Verif.Lemmas.AssemblyGlobal
/-!
# C45: the assembled matrix
-/
namespace Verif.Props
open Verif.Spec.Assemble Verif.Spec Verif.World Verif.Assembly Finset

variable {R : Type} [CommRing R]

/-- C45: `assemble_matrix` raises an error exactly when a form on a mesh with several cell types
has integrals other than cell integrals. -/
theorem C45_rejects {σ : Type} (ms : MatSet σ R) (lifting : Bool) (F : Form R) (dm0 dm1 : Nat → Assembly.Dofmap) (bc0 bc1 : List Bool) (s : σ)
    (bs0 bs1 : Nat) (hd0 : DofmapOk bs0 dm0) (hd1 : DofmapOk bs1 dm1) :
    assembleMatrix ms lifting F dm0 dm1 bc0 bc1 s = none ↔ ¬ Accepted F := by
  constructor
  · intro h hF
    obtain ⟨cs, h1, _⟩ := does_matrix lifting bc0 bc1 F dm0 dm1 hd0 hd1 hF
    rw [h1] at h
    cases h
  · intro hF
    unfold Accepted at hF
    push Not at hF
    obtain ⟨hn, t, ht, ty, hty, hne⟩ := hF
    have hbad : ∀ s, assembleType ms lifting F dm0 dm1 bc0 bc1 s t = none := by
      intro s
      unfold assembleType
      simp only
      by_cases hi : F.ints .interiorFacet t = []
      · rw [if_neg (by simp [hi]), if_pos]
        refine ⟨hn, ty, ?_, hne⟩
        cases ty <;> simp_all [otherTypes]
      · rw [if_pos ⟨hn, hi⟩]
    have hfold : ∀ (l : List Nat) s, t ∈ l → l.foldlM (assembleType ms lifting F dm0 dm1 bc0 bc1) s = none := by
      intro l
      induction l with
      | nil => intro s h; cases h
      | cons u l ih =>
        intro s h
        rw [List.foldlM_cons]
        cases hu : assembleType ms lifting F dm0 dm1 bc0 bc1 s u with
        | none => rfl
        | some s' =>
          rcases List.mem_cons.mp h with rfl | h
          · rw [hbad s] at hu; cases hu
          · exact ih s' h
    exact hfold _ s (List.mem_range.mpr ht)

theorem mem_ownedDofs (bs size : Nat) (bcs : List (BC R × Bool)) (hs : SortedBcs bcs) (d : Nat) :
    d ∈ ownedDofs bs size bcs ↔ d < bs * size ∧ Constrained bcs d := by
  unfold ownedDofs Constrained
  have key : ∀ dofs : List Nat, dofs.Pairwise (· ≤ ·) → (d ∈ dofs.take (numOwned bs size dofs) ↔ d < bs * size ∧ d ∈ dofs) := by
    intro dofs hp
    have hpart := Std.partitioned_of_sorted (fun c : Nat => c) dofs hp (bs * size)
    obtain ⟨hle, hlo, hhi⟩ := Std.lowerBound_spec _ dofs hpart
    unfold numOwned
    constructor
    · intro h
      refine ⟨?_, List.mem_of_mem_take h⟩
      obtain ⟨k, hk⟩ := List.getElem?_of_mem h
      rw [List.getElem?_take] at hk
      split at hk
      · rename_i hlt
        obtain ⟨hkl', rfl⟩ := List.getElem?_eq_some_iff.mp hk
        simpa using hlo k hkl' hlt
      · cases hk
    · rintro ⟨hd, h⟩
      obtain ⟨k, hk⟩ := List.getElem?_of_mem h
      obtain ⟨hkl', rfl⟩ := List.getElem?_eq_some_iff.mp hk
      apply List.mem_of_getElem? (i := k)
      rw [List.getElem?_take, if_pos, hk]
      by_contra hcon
      have := hhi k hkl' (by omega)
      simp at this
      omega
  simp only [List.mem_flatMap]
  constructor
  · rintro ⟨c, hc, h⟩
    split at h
    · rename_i hf
      obtain ⟨h1, h2⟩ := (key c.1.dofs (hs c hc)).mp h
      exact ⟨h1, c, hc, hf, h2⟩
    · cases h
  · rintro ⟨hd, c, hc, hf, h⟩
    exact ⟨c, hc, by rw [if_pos hf]; exact (key c.1.dofs (hs c hc)).mpr ⟨hd, h⟩⟩

section
variable (w0 w1 : World) (hw0 : w0.Valid) (hw1 : w1.Valid) (hP : w0.P = w1.P)
  (bs0 bs1 : Nat) (h0 : 0 < bs0) (h1 : 0 < bs1)
  (F : Nat → Form R) (dm0 dm1 : Nat → Nat → Assembly.Dofmap)
  (hF : ∀ q, q < w0.P → Accepted (F q)) (hok : ∀ q, q < w0.P → FormOk (F q))
  (hd0 : ∀ q, q < w0.P → DofmapOk bs0 (dm0 q)) (hd1 : ∀ q, q < w0.P → DofmapOk bs1 (dm1 q))
  (hr0 : ∀ q, q < w0.P → DofsOk w0 q (dm0 q)) (hr1 : ∀ q, q < w0.P → DofsOk w1 q (dm1 q))
  (p p' : Nat → SP.Pattern) (hp : ∀ q, q < w0.P → buildPattern (F q) (dm0 q) (dm1 q) = .ok (p q))
  (hf : ∀ q, q < w0.P → SP.finalize w0 w1 p q = .ok (p' q))
  (bcs0 bcs1 : Nat → List (BC R × Bool)) (C0 C1 : Nat → Nat → Prop)
  (hc0 : Consistent w0 bs0 bcs0 C0) (hc1 : Consistent w1 bs1 bcs1 C1)

/-- The matrix of rank `q` after `assemble_matrix` in Python. -/
def assembledOn (w0 w1 : World) (bs0 bs1 : Nat) (F : Nat → Form R) (dm0 dm1 : Nat → Nat → Assembly.Dofmap) (p' : Nat → SP.Pattern)
    (bcs0 bcs1 : Nat → List (BC R × Bool)) (same : Bool) (diag : R) (q : Nat) : MatState R :=
  assembleCsr (csrOf (p' q)) bs0 bs1 (F q) (dm0 q) (dm1 q) (bs0 * (w0.size q + (w0.ghosts q).length))
    (bs1 * (w1.size q + (w1.ghosts q).length)) (w0.size q) (bcs0 q) (bcs1 q) same diag (fun _ => 0)

/-- The arrays of the matrix for `scatter_reverse`. -/
def graphOf (p' : Nat → SP.Pattern) (q : Nat) : MatScatter.Graph := ⟨fun i => (p' q).offsets.getD i 0, (p' q).edges⟩

include hw0 hw1 hP h0 h1 hF hok hd0 hd1 hr0 hr1 hp hf

open Classical in
/-- Values after the insertions on one rank, in local indices. -/
theorem assembled_local (bc0 bc1 : List Bool) (q : Nat) (hq : q < w0.P) :
    ∃ data, assembleMatrix (matInsert (· + ·) (csrOf (p' q)) bs0 bs1 bs0 bs1) false (F q) (dm0 q) (dm1 q) bc0 bc1
        ((fun _ => 0 : Nat → R), true) = some (data, true) ∧
      ∀ i k j l pos, i < w0.size q + (w0.ghosts q).length → k < bs0 → l < bs1 →
        Stored (csrOf (p' q)) bs0 bs1 (bs0 * i + k) (bs1 * j + l) pos →
        data pos = if marked bc0 (bs0 * i + k) ∨ marked bc1 (bs1 * j + l) then 0
          else localOp bs0 bs1 (elems (F q) (dm0 q) (dm1 q)) i k j l := by
  obtain ⟨_, _, hfacts⟩ := pattern_facts w0 w1 hw0 hw1 hP F dm0 dm1 hF hok hr0 hr1 p p' hp hf
  obtain ⟨hPok, _, _, hfit⟩ := hfacts q hq
  obtain ⟨cs, e1, g⟩ := does_matrix false bc0 bc1 (F q) (dm0 q) (dm1 q) (hd0 q hq) (hd1 q hq) (hF q hq)
  have hfits : ∀ c ∈ cs, Fits (csrOf (p' q)) (w0.size q + (w0.ghosts q).length) c.rows c.cols := by
    intro c hc i hi j hj
    obtain ⟨e, he, hie, hje⟩ := g.cover c hc i hi j hj
    exact hfit e he i hie j hje
  obtain ⟨data, e2, hd⟩ := runCalls_add hPok h0 h1 cs (fun _ => 0) hfits
  refine ⟨data, by rw [e1, e2], ?_⟩
  intro i k j l pos hi hk hl hs
  have e3 : (bs0 * i + k) / bs0 = i := by rw [Nat.mul_add_div h0, Nat.div_eq_of_lt hk, Nat.add_zero]
  have e4 : (bs1 * j + l) / bs1 = j := by rw [Nat.mul_add_div h1, Nat.div_eq_of_lt hl, Nat.add_zero]
  have e5 : (bs0 * i + k) % bs0 = k := by rw [Nat.mul_add_mod, Nat.mod_eq_of_lt hk]
  have e6 : (bs1 * j + l) % bs1 = l := by rw [Nat.mul_add_mod, Nat.mod_eq_of_lt hl]
  have := hd _ _ _ (by rw [e3]; exact hi) hs
  rw [e3, e4, e5, e6, g.sum i k j l hk hl (by simp), zero_add] at this
  rw [this]
  simp [removed]

include hc0 hc1

open Classical in
/-- What rank `q` stores for a global entry after the insertions. -/
theorem assembled_entry (q : Nat) (hq : q < w0.P) (data : Nat → Nat → R)
    (hV : ∀ i k j l pos, i < w0.size q + (w0.ghosts q).length → k < bs0 → l < bs1 →
        Stored (csrOf (p' q)) bs0 bs1 (bs0 * i + k) (bs1 * j + l) pos → data q pos =
        if marked (matrixMarkers (bs0 * (w0.size q + (w0.ghosts q).length)) (bcs0 q)) (bs0 * i + k) ∨
          marked (matrixMarkers (bs1 * (w1.size q + (w1.ghosts q).length)) (bcs1 q)) (bs1 * j + l) then 0
          else localOp bs0 bs1 (elems (F q) (dm0 q) (dm1 q)) i k j l)
    (I k J l : Nat) (hk : k < bs0) (hl : l < bs1) :
    localEntry w0 (patternCols w1 p') (fun q i => (p' q).offsets.getD i 0) (fun q => (p' q).edges) (bs0 * bs1) data q I J
        (k * bs1 + l) =
      if C0 I k ∨ C1 J l then 0 else rankOp w0 w1 bs0 bs1 q (elems (F q) (dm0 q) (dm1 q)) I k J l := by
  obtain ⟨hv, _, hfacts⟩ := pattern_facts w0 w1 hw0 hw1 hP F dm0 dm1 hF hok hr0 hr1 p p' hp hf
  obtain ⟨hPok, hpre, _, hfit⟩ := hfacts q hq
  have hq1 : q < w1.P := hP ▸ hq
  obtain ⟨hA, hB⟩ := localEntry_eq w0 (patternCols w1 p') hw0 hv q hq hq1 (fun q i => (p' q).offsets.getD i 0)
    (fun q => (p' q).edges) bs0 bs1 data hPok _ hV I k J l hk hl
  have hlt : ∀ n i k bs : Nat, i < n → k < bs → bs * i + k < bs * n := by
    intro n i k bs hi hk
    calc bs * i + k < bs * i + bs := by omega
      _ = bs * (i + 1) := by ring
      _ ≤ bs * n := Nat.mul_le_mul_left _ hi
  by_cases hex : ∃ e ∈ elems (F q) (dm0 q) (dm1 q), ∃ i ∈ e.rows, ∃ j ∈ e.cols, globalOf w0 q i = some I ∧ globalOf w1 q j = some J
  · obtain ⟨e, he, i, hi, j, hj, hgi, hgj⟩ := hex
    have hrow := (hfit e he i hi j hj)
    rw [hA i j hgi (hpre j J hgj) hrow.2, rankOp_local w0 w1 hw0 hw1 bs0 bs1 q hq hq1 _ I k J l i j hgi hgj,
      matrixMarkers_iff, matrixMarkers_iff, hc0 q hq i I k hgi hk, hc1 q hq1 j J l hgj hl]
    have b0 := hlt _ i k bs0 (SubMap.globalOf_lt w0 q i I hgi) hk
    have b1 := hlt _ j l bs1 (SubMap.globalOf_lt w1 q j J hgj) hl
    simp only [b0, b1, true_and]
  · rw [rankOp_zero w0 w1 bs0 bs1 q _ I k J l hex, ite_self]
    by_cases hst : ∃ i j, globalOf w0 q i = some I ∧ globalOf (patternCols w1 p') q j = some J ∧ j ∈ (csrOf (p' q)).row i
    · obtain ⟨i, j, hgi, hgj, hrow⟩ := hst
      rw [hA i j hgi hgj hrow, localOp_zero, ite_self]
      rintro ⟨e, he, hi, hj⟩
      obtain ⟨t, c, hjd⟩ := (elems_dofs he).2 j hj
      obtain ⟨J', hJ'⟩ := globalOf_some w1 q j (hr1 q hq t c j hjd)
      have : J' = J := by have := hpre j J' hJ'; rw [hgj] at this; exact (Option.some.inj this).symm
      exact hex ⟨e, he, i, hi, j, hj, hgi, this ▸ hJ'⟩
    · exact hB hst

/-- C45, test and trial space differ: assembling a form with Dirichlet conditions never raises an error, and after
`scatter_reverse` the owner of global block row `I` holds, for each component, the sum of the element tensors of all
ranks, and zero in constrained rows and columns. -/
theorem C45_matrix (diag : R) (r I J k l : Nat) (hown : Owns w0 r I) (hk : k < bs0) (hl : l < bs1) :
    (∀ q, q < w0.P → (assembledOn w0 w1 bs0 bs1 F dm0 dm1 p' bcs0 bcs1 false diag q).2 = true) ∧
    (C0 I k ∨ C1 J l → localEntry w0 (patternCols w1 p') (fun q => (graphOf p' q).rowPtr) (fun q => (graphOf p' q).cols) (bs0 * bs1)
        (MatScatter.scatterRev w0 (patternCols w1 p') (graphOf p') (bs0 * bs1)
          (fun q => (assembledOn w0 w1 bs0 bs1 F dm0 dm1 p' bcs0 bcs1 false diag q).1)) r I J (k * bs1 + l) = 0) ∧
    (¬ (C0 I k ∨ C1 J l) → localEntry w0 (patternCols w1 p') (fun q => (graphOf p' q).rowPtr) (fun q => (graphOf p' q).cols) (bs0 * bs1)
        (MatScatter.scatterRev w0 (patternCols w1 p') (graphOf p') (bs0 * bs1)
          (fun q => (assembledOn w0 w1 bs0 bs1 F dm0 dm1 p' bcs0 bcs1 false diag q).1)) r I J (k * bs1 + l) =
        globalOp w0 w1 bs0 bs1 (fun q => elems (F q) (dm0 q) (dm1 q)) I k J l) := by
  classical
  obtain ⟨hv, hm, hfacts⟩ := pattern_facts w0 w1 hw0 hw1 hP F dm0 dm1 hF hok hr0 hr1 p p' hp hf
  have hl1 := assembled_local w0 w1 hw0 hw1 hP bs0 bs1 h0 h1 F dm0 dm1 hF hok hd0 hd1 hr0 hr1 p p' hp hf
  have hb : k * bs1 + l < bs0 * bs1 := by
    calc k * bs1 + l < k * bs1 + bs1 := by omega
      _ = (k + 1) * bs1 := by ring
      _ ≤ bs0 * bs1 := Nat.mul_le_mul_right _ hk
  have hsum : localEntry w0 (patternCols w1 p') (fun q => (graphOf p' q).rowPtr) (fun q => (graphOf p' q).cols) (bs0 * bs1)
        (MatScatter.scatterRev w0 (patternCols w1 p') (graphOf p') (bs0 * bs1)
          (fun q => (assembledOn w0 w1 bs0 bs1 F dm0 dm1 p' bcs0 bcs1 false diag q).1)) r I J (k * bs1 + l) =
      if C0 I k ∨ C1 J l then 0 else globalOp w0 w1 bs0 bs1 (fun q => elems (F q) (dm0 q) (dm1 q)) I k J l := by
    rw [C18_owner w0 (patternCols w1 p') (graphOf p') hw0 hv hP hm (bs0 * bs1) _ r I J _ hb hown]
    unfold globalEntry
    rw [globalOp_eq]
    have : ∀ q ∈ range w0.P, localEntry w0 (patternCols w1 p') (fun q => (graphOf p' q).rowPtr) (fun q => (graphOf p' q).cols)
        (bs0 * bs1) (fun q => (assembledOn w0 w1 bs0 bs1 F dm0 dm1 p' bcs0 bcs1 false diag q).1) q I J (k * bs1 + l) =
        if C0 I k ∨ C1 J l then 0 else rankOp w0 w1 bs0 bs1 q (elems (F q) (dm0 q) (dm1 q)) I k J l := by
      intro q hq
      have hq := mem_range.mp hq
      obtain ⟨data, e, hd⟩ := hl1 (matrixMarkers (bs0 * (w0.size q + (w0.ghosts q).length)) (bcs0 q))
        (matrixMarkers (bs1 * (w1.size q + (w1.ghosts q).length)) (bcs1 q)) q hq
      refine assembled_entry w0 w1 hw0 hw1 hP bs0 bs1 h0 h1 F dm0 dm1 hF hok hd0 hd1 hr0 hr1 p p' hp hf bcs0 bcs1 C0 C1 hc0 hc1
        q hq _ ?_ I k J l hk hl
      intro i k j l pos hi hk hl hs
      have : (assembledOn w0 w1 bs0 bs1 F dm0 dm1 p' bcs0 bcs1 false diag q).1 = data := by
        simp [assembledOn, assembleCsr, e]
      rw [this]
      exact hd i k j l pos hi hk hl hs
    rw [sum_congr rfl this]
    split <;> simp
  refine ⟨?_, ?_, ?_⟩
  · intro q hq
    obtain ⟨data, e, _⟩ := hl1 (matrixMarkers (bs0 * (w0.size q + (w0.ghosts q).length)) (bcs0 q))
      (matrixMarkers (bs1 * (w1.size q + (w1.ghosts q).length)) (bcs1 q)) q hq
    simp [assembledOn, assembleCsr, e]
  · intro h; rw [hsum, if_pos h]
  · intro h; rw [hsum, if_neg h]

end

/-! ## Diagonal blocks -/

section
variable (w : World) (hw : w.Valid) (bs : Nat) (h0 : 0 < bs)
  (F : Nat → Form R) (dm : Nat → Nat → Assembly.Dofmap)
  (hF : ∀ q, q < w.P → Accepted (F q)) (hok : ∀ q, q < w.P → FormOk (F q))
  (hd : ∀ q, q < w.P → DofmapOk bs (dm q)) (hr : ∀ q, q < w.P → DofsOk w q (dm q))
  (p p' : Nat → SP.Pattern) (hp : ∀ q, q < w.P → buildPattern (F q) (dm q) (dm q) = .ok (p q))
  (hf : ∀ q, q < w.P → SP.finalize w w p q = .ok (p' q))
  (bcs : Nat → List (BC R × Bool)) (C : Nat → Nat → Prop) (hc : Consistent w bs bcs C)
  (hs : ∀ q, q < w.P → SortedBcs (bcs q))
include hw h0 hF hok hd hr hp hf hc hs

/-- The owned constrained dofs of a rank. -/
theorem owned_iff (q : Nat) (hq : q < w.P) (i k I : Nat) (hk : k < bs) (hg : globalOf w q i = some I) :
    bs * i + k ∈ ownedDofs bs (w.size q) (bcs q) ↔ Owns w q I ∧ C I k := by
  rw [mem_ownedDofs bs _ _ (hs q hq), hc q hq i I k hg hk, globalOf_owned w hw q i I hq hg]
  have : bs * i + k < bs * w.size q ↔ i < w.size q := by
    constructor
    · intro h
      by_contra hcon
      have : bs * w.size q ≤ bs * i := Nat.mul_le_mul_left _ (by omega)
      omega
    · intro h
      calc bs * i + k < bs * i + bs := by omega
        _ = bs * (i + 1) := by ring
        _ ≤ bs * w.size q := Nat.mul_le_mul_left _ h
  rw [this]

theorem hasDiag_iff (q : Nat) (hq : q < w.P) (i k : Nat) (hi : i < w.size q) (hk : k < bs) :
    HasDiag (csrOf (p' q)) bs (bs * i + k) ↔ Couples w w (fun q => elems (F q) (dm q) (dm q)) (w.r0 q + i) (w.r0 q + i) := by
  obtain ⟨hv, _, hfacts⟩ := pattern_facts w w hw hw rfl F dm dm hF hok hr hr p p' hp hf
  obtain ⟨_, hpre, hown, _⟩ := hfacts q hq
  have hg : globalOf w q i = some (w.r0 q + i) := by unfold globalOf; rw [if_pos hi]
  unfold HasDiag
  rw [Nat.mul_add_div h0, Nat.div_eq_of_lt hk, Nat.add_zero, ← hown i hi]
  constructor
  · intro h; exact ⟨i, h, hpre i _ hg⟩
  · rintro ⟨c, hc', h⟩
    have := SubMap.globalOf_inj _ hv q hq c i _ h (hpre i _ hg)
    subst this
    exact hc'

theorem assembled_diag (diag : R) (q : Nat) (hq : q < w.P) :
    ((assembledOn w w bs bs F dm dm p' bcs bcs true diag q).2 = true ↔
      ∀ d ∈ ownedDofs bs (w.size q) (bcs q), HasDiag (csrOf (p' q)) bs d) ∧
    ((assembledOn w w bs bs F dm dm p' bcs bcs true diag q).2 = true → ∀ i k j l pos,
      i < w.size q + (w.ghosts q).length → k < bs → l < bs →
      Stored (csrOf (p' q)) bs bs (bs * i + k) (bs * j + l) pos →
      ((bs * i + k = bs * j + l ∧ bs * i + k ∈ ownedDofs bs (w.size q) (bcs q)) →
        (assembledOn w w bs bs F dm dm p' bcs bcs true diag q).1 pos = diag) ∧
      (¬ (bs * i + k = bs * j + l ∧ bs * i + k ∈ ownedDofs bs (w.size q) (bcs q)) →
        (assembledOn w w bs bs F dm dm p' bcs bcs true diag q).1 pos =
        (assembledOn w w bs bs F dm dm p' bcs bcs false diag q).1 pos)) := by
  classical
  obtain ⟨_, _, hfacts⟩ := pattern_facts w w hw hw rfl F dm dm hF hok hr hr p p' hp hf
  obtain ⟨hPok, _, _, _⟩ := hfacts q hq
  obtain ⟨data, e, _⟩ := assembled_local w w hw hw rfl bs bs h0 h0 F dm dm hF hok hd hd hr hr p p' hp hf
    (matrixMarkers (bs * (w.size q + (w.ghosts q).length)) (bcs q))
    (matrixMarkers (bs * (w.size q + (w.ghosts q).length)) (bcs q)) q hq
  have e1 : assembledOn w w bs bs F dm dm p' bcs bcs true diag q =
      setDiagonal (matInsert Csr.setOp (csrOf (p' q)) bs bs 1 1) (ownedDofs bs (w.size q) (bcs q)) diag (data, true) := by
    simp [assembledOn, assembleCsr, e, setDiagonalBcs_eq]
  have e2 : (assembledOn w w bs bs F dm dm p' bcs bcs false diag q).1 = data := by
    simp [assembledOn, assembleCsr, e]
  have hrange : ∀ d ∈ ownedDofs bs (w.size q) (bcs q), d / bs < w.size q + (w.ghosts q).length := by
    intro d hd'
    have := ((mem_ownedDofs bs _ _ (hs q hq) d).mp hd').1
    have : d / bs < w.size q := Nat.div_lt_of_lt_mul this
    omega
  obtain ⟨a1, a2⟩ := setDiagonal_spec hPok h0 diag (ownedDofs bs (w.size q) (bcs q)) data hrange
  rw [e1, e2]
  refine ⟨a1, ?_⟩
  intro hok' i k j l pos hi hk hl hst
  have e3 : (bs * i + k) / bs = i := by rw [Nat.mul_add_div h0, Nat.div_eq_of_lt hk, Nat.add_zero]
  have := a2 hok' _ _ _ (by rw [e3]; exact hi) hst
  constructor
  · intro h; rw [this, if_pos h]
  · intro h; rw [this, if_neg h]

/-- C45: for the same test and trial space, a rank raises an error exactly when one of its owned constrained dofs
has no diagonal entry, that is, when no rank has an element that couples the block of the dof with itself. -/
theorem C45_diagonal_error (diag : R) (q : Nat) (hq : q < w.P) :
    (assembledOn w w bs bs F dm dm p' bcs bcs true diag q).2 = true ↔
      ∀ I k, Owns w q I → k < bs → C I k → Couples w w (fun q => elems (F q) (dm q) (dm q)) I I := by
  rw [(assembled_diag w hw bs h0 F dm hF hok hd hr p p' hp hf bcs C hc hs diag q hq).1]
  constructor
  · intro h I k hI hk hC
    obtain ⟨i, rfl⟩ : ∃ i, I = w.r0 q + i := ⟨I - w.r0 q, by have := hI.2; omega⟩
    have hi : i < w.size q := by have := hI.2; omega
    have hg : globalOf w q i = some (w.r0 q + i) := by unfold globalOf; rw [if_pos hi]
    have hmem := (owned_iff w hw bs h0 F dm hF hok hd hr p p' hp hf bcs C hc hs q hq i k _ hk hg).mpr ⟨hI, hC⟩
    exact (hasDiag_iff w hw bs h0 F dm hF hok hd hr p p' hp hf bcs C hc hs q hq i k hi hk).mp (h _ hmem)
  · intro h d hd'
    have hlt := ((mem_ownedDofs bs _ _ (hs q hq) d).mp hd').1
    have hi : d / bs < w.size q := Nat.div_lt_of_lt_mul hlt
    have hk : d % bs < bs := Nat.mod_lt _ h0
    have hdd : bs * (d / bs) + d % bs = d := Nat.div_add_mod d bs
    have hg : globalOf w q (d / bs) = some (w.r0 q + d / bs) := by unfold globalOf; rw [if_pos hi]
    obtain ⟨hO, hC⟩ := (owned_iff w hw bs h0 F dm hF hok hd hr p p' hp hf bcs C hc hs q hq _ _ _ hk hg).mp (by rw [hdd]; exact hd')
    have := (hasDiag_iff w hw bs h0 F dm hF hok hd hr p p' hp hf bcs C hc hs q hq _ _ hi hk).mpr (h _ _ hO hk hC)
    rw [hdd] at this
    exact this

/-- C45, same test and trial space, no rank raised an error: after `scatter_reverse` the owner of global block row `I`
holds `diag` on the diagonal of constrained dofs, zero elsewhere in constrained rows and columns, and the sum of
the element tensors of all ranks in all other entries. -/
theorem C45_matrix_diagonal (diag : R)
    (hne : ∀ q, q < w.P → (assembledOn w w bs bs F dm dm p' bcs bcs true diag q).2 = true)
    (r I J k l : Nat) (hown : Owns w r I) (hk : k < bs) (hl : l < bs) (A : R)
    (hA : A = localEntry w (patternCols w p') (fun q => (graphOf p' q).rowPtr) (fun q => (graphOf p' q).cols) (bs * bs)
        (MatScatter.scatterRev w (patternCols w p') (graphOf p') (bs * bs)
          (fun q => (assembledOn w w bs bs F dm dm p' bcs bcs true diag q).1)) r I J (k * bs + l)) :
    (C I k → I = J ∧ k = l → A = diag) ∧
    (C I k ∨ C J l → ¬ (I = J ∧ k = l) → A = 0) ∧
    (¬ (C I k ∨ C J l) → A = globalOp w w bs bs (fun q => elems (F q) (dm q) (dm q)) I k J l) := by
  classical
  obtain ⟨hv, hm, hfacts⟩ := pattern_facts w w hw hw rfl F dm dm hF hok hr hr p p' hp hf
  have hb : k * bs + l < bs * bs := by
    calc k * bs + l < k * bs + bs := by omega
      _ = (k + 1) * bs := by ring
      _ ≤ bs * bs := Nat.mul_le_mul_right _ hk
  have hdata : ∀ q, q < w.P → ∀ i k j l pos, i < w.size q + (w.ghosts q).length → k < bs → l < bs →
      Stored (csrOf (p' q)) bs bs (bs * i + k) (bs * j + l) pos →
      (assembledOn w w bs bs F dm dm p' bcs bcs false diag q).1 pos =
        if marked (matrixMarkers (bs * (w.size q + (w.ghosts q).length)) (bcs q)) (bs * i + k) ∨
          marked (matrixMarkers (bs * (w.size q + (w.ghosts q).length)) (bcs q)) (bs * j + l) then 0
          else localOp bs bs (elems (F q) (dm q) (dm q)) i k j l := by
    intro q hq i k j l pos hi hk hl hst
    obtain ⟨data, e, hd'⟩ := assembled_local w w hw hw rfl bs bs h0 h0 F dm dm hF hok hd hd hr hr p p' hp hf
      (matrixMarkers (bs * (w.size q + (w.ghosts q).length)) (bcs q))
      (matrixMarkers (bs * (w.size q + (w.ghosts q).length)) (bcs q)) q hq
    have e2 : (assembledOn w w bs bs F dm dm p' bcs bcs false diag q).1 = data := by
      simp [assembledOn, assembleCsr, e]
    rw [e2]
    exact hd' i k j l pos hi hk hl hst
  have hent : ∀ q, q < w.P → localEntry w (patternCols w p') (fun q => (graphOf p' q).rowPtr) (fun q => (graphOf p' q).cols)
      (bs * bs) (fun q => (assembledOn w w bs bs F dm dm p' bcs bcs true diag q).1) q I J (k * bs + l) =
      if Owns w q I ∧ C I k ∧ I = J ∧ k = l then diag
      else if C I k ∨ C J l then 0 else rankOp w w bs bs q (elems (F q) (dm q) (dm q)) I k J l := by
    intro q hq
    obtain ⟨hPok, hpre, _, _⟩ := hfacts q hq
    have hdiag := assembled_diag w hw bs h0 F dm hF hok hd hr p p' hp hf bcs C hc hs diag q hq
    have hent0 := assembled_entry w w hw hw rfl bs bs h0 h0 F dm dm hF hok hd hd hr hr p p' hp hf bcs bcs C C hc hc
      q hq (fun q => (assembledOn w w bs bs F dm dm p' bcs bcs false diag q).1) (hdata q hq) I k J l hk hl
    have h2 := hdiag.2 (hne q hq)
    have heq1 := localEntry_eq w (patternCols w p') hw hv q hq hq (fun q i => (p' q).offsets.getD i 0)
      (fun q => (p' q).edges) bs bs (fun q => (assembledOn w w bs bs F dm dm p' bcs bcs true diag q).1) hPok
      (fun i k j l => if bs * i + k = bs * j + l ∧ bs * i + k ∈ ownedDofs bs (w.size q) (bcs q) then diag else
        if marked (matrixMarkers (bs * (w.size q + (w.ghosts q).length)) (bcs q)) (bs * i + k) ∨
          marked (matrixMarkers (bs * (w.size q + (w.ghosts q).length)) (bcs q)) (bs * j + l) then 0
          else localOp bs bs (elems (F q) (dm q) (dm q)) i k j l)
      (by
        intro i k j l pos hi hk hl hst
        by_cases hcase : bs * i + k = bs * j + l ∧ bs * i + k ∈ ownedDofs bs (w.size q) (bcs q)
        · simp only [if_pos hcase]
          exact (h2 i k j l pos hi hk hl hst).1 hcase
        · simp only [if_neg hcase]
          rw [(h2 i k j l pos hi hk hl hst).2 hcase]
          exact hdata q hq i k j l pos hi hk hl hst) I k J l hk hl
    have heq0 := localEntry_eq w (patternCols w p') hw hv q hq hq (fun q i => (p' q).offsets.getD i 0)
      (fun q => (p' q).edges) bs bs (fun q => (assembledOn w w bs bs F dm dm p' bcs bcs false diag q).1) hPok
      _ (hdata q hq) I k J l hk hl
    by_cases hst : ∃ i j, globalOf w q i = some I ∧ globalOf (patternCols w p') q j = some J ∧ j ∈ (csrOf (p' q)).row i
    · obtain ⟨i, j, hgi, hgj, hrow⟩ := hst
      have hij : bs * i + k = bs * j + l ↔ I = J ∧ k = l := by
        constructor
        · intro h
          rw [Nat.mul_comm bs i, Nat.mul_comm bs j] at h
          obtain ⟨rfl, rfl⟩ := digits hk hl h
          have := hpre i I hgi
          rw [hgj] at this
          exact ⟨(Option.some.inj this).symm, rfl⟩
        · rintro ⟨rfl, rfl⟩
          rw [SubMap.globalOf_inj _ hv q hq i j I (hpre i I hgi) hgj]
      have hcond : (bs * i + k = bs * j + l ∧ bs * i + k ∈ ownedDofs bs (w.size q) (bcs q)) ↔
          Owns w q I ∧ C I k ∧ I = J ∧ k = l := by
        rw [hij, owned_iff w hw bs h0 F dm hF hok hd hr p p' hp hf bcs C hc hs q hq i k I hk hgi]
        tauto
      refine Eq.trans (heq1.1 i j hgi hgj hrow) ?_
      by_cases hcase : Owns w q I ∧ C I k ∧ I = J ∧ k = l
      · rw [if_pos hcase, if_pos (hcond.mpr hcase)]
      · rw [if_neg hcase, if_neg (fun h => hcase (hcond.mp h)), ← hent0]
        exact (heq0.1 i j hgi hgj hrow).symm
    · refine Eq.trans (heq1.2 hst) ?_
      rw [if_neg, ← hent0]
      · exact (heq0.2 hst).symm
      · rintro ⟨hO, hC, rfl, rfl⟩
        apply hst
        obtain ⟨i, rfl⟩ : ∃ i, I = w.r0 q + i := ⟨I - w.r0 q, by have := hO.2; omega⟩
        have hi : i < w.size q := by have := hO.2; omega
        have hg : globalOf w q i = some (w.r0 q + i) := by unfold globalOf; rw [if_pos hi]
        have hmem := (owned_iff w hw bs h0 F dm hF hok hd hr p p' hp hf bcs C hc hs q hq i k _ hk hg).mpr ⟨hO, hC⟩
        have hD := hdiag.1.mp (hne q hq) _ hmem
        unfold HasDiag at hD
        rw [Nat.mul_add_div h0, Nat.div_eq_of_lt hk, Nat.add_zero] at hD
        exact ⟨i, i, hg, hpre i _ hg, hD⟩
  have hsum : A = ∑ q ∈ range w.P, if Owns w q I ∧ C I k ∧ I = J ∧ k = l then diag
      else if C I k ∨ C J l then 0 else rankOp w w bs bs q (elems (F q) (dm q) (dm q)) I k J l := by
    rw [hA, C18_owner w (patternCols w p') (graphOf p') hw hv rfl hm (bs * bs) _ r I J _ hb hown]
    unfold globalEntry
    exact sum_congr rfl (fun q hq => hent q (mem_range.mp hq))
  refine ⟨?_, ?_, ?_⟩
  · rintro hC ⟨rfl, rfl⟩
    rw [hsum, sum_eq_single_of_mem r (mem_range.mpr hown.1), if_pos ⟨hown, hC, rfl, rfl⟩]
    intro q hq hqr
    rw [if_neg (fun h => hqr (range_unique w h.1.2 hown.2)), if_pos (Or.inl hC)]
  · intro hC hne'
    rw [hsum]
    apply sum_eq_zero
    intro q _
    rw [if_neg (fun h => hne' h.2.2), if_pos hC]
  · intro hC
    rw [hsum, globalOp_eq]
    apply sum_congr rfl
    intro q _
    rw [if_neg (fun h => hC (Or.inl h.2.1)), if_neg hC]

end

/-- C45: creating the matrix of an accepted form never raises an error. -/
theorem C45_create (w0 w1 : World) (hw0 : w0.Valid) (hw1 : w1.Valid) (hP : w0.P = w1.P)
    (F : Nat → Form R) (dm0 dm1 : Nat → Nat → Assembly.Dofmap)
    (hF : ∀ q, q < w0.P → Accepted (F q)) (hok : ∀ q, q < w0.P → FormOk (F q))
    (hr0 : ∀ q, q < w0.P → DofsOk w0 q (dm0 q)) (hr1 : ∀ q, q < w0.P → DofsOk w1 q (dm1 q)) :
    ∃ p p' : Nat → SP.Pattern, (∀ q, q < w0.P → buildPattern (F q) (dm0 q) (dm1 q) = .ok (p q)) ∧
      ∀ q, q < w0.P → SP.finalize w0 w1 p q = .ok (p' q) := by
  have h : ∀ q, ∃ p, buildPattern (F q) (dm0 q) (dm1 q) = .ok p := by
    intro q
    rw [buildPattern_eq]
    obtain ⟨p, h, _⟩ := runIns_ok SP.new (patternOps (F q) (dm0 q) (dm1 q)) rfl
    exact ⟨p, h⟩
  choose p hp using h
  have h' : ∀ q, ∃ p', q < w0.P → SP.finalize w0 w1 p q = .ok p' := by
    intro q
    by_cases hq : q < w0.P
    · obtain ⟨p', _, h, _⟩ := finalize_facts w0 w1 hw0 hw1 hP _ (ops_range w0 w1 F dm0 dm1 hF hok hr0 hr1) p
        (fun q _ => by rw [← buildPattern_eq]; exact hp q) q hq
      exact ⟨p', fun _ => h⟩
    · exact ⟨SP.new, fun h => absurd h hq⟩
  choose p' hp' using h'
  exact ⟨p, p', fun q _ => hp q, hp'⟩

/-! ## Example

Three intervals with four dofs on two ranks; the first and the last dof are constrained. -/

def asmForm (q : Nat) : Form Int where
  numTypes := 1
  ints := fun ty _ => if ty = .cell then
    [{ dom0 := if q = 0 then [0, 1] else [0], dom1 := if q = 0 then [0, 1] else [0],
       tensor := fun _ n => if n = 0 ∨ n = 3 then 1 else -1 }] else []

def asmDofmap (q _ : Nat) : Assembly.Dofmap where
  bs := 1
  width := 2
  dofs := fun c => if q = 0 ∧ c ≠ 0 then [1, 2] else [0, 1]

def asmBcs (q : Nat) : List (BC Int × Bool) := [(⟨if q = 0 then [0] else [1], .const 1 fun _ => 5⟩, true)]

theorem asmWorld_valid : spWorld.Valid := by
  refine ⟨?_, ?_, ?_⟩
  · intro q hq; have : q = 0 ∨ q = 1 := by have : q < 2 := hq; omega
    rcases this with rfl | rfl <;> rfl
  · intro q hq; have : q = 0 ∨ q = 1 := by have : q < 2 := hq; omega
    rcases this with rfl | rfl <;> decide
  · intro q hq k o g ho hg
    have : q = 0 ∨ q = 1 := by have : q < 2 := hq; omega
    rcases this with rfl | rfl
    · rcases k with _ | k
      · simp [spWorld] at ho hg; subst ho hg; decide
      · simp [spWorld] at ho
    · simp [spWorld] at ho

theorem asm_hyps : (∀ q, q < spWorld.P → Accepted (asmForm q)) ∧ (∀ q, q < spWorld.P → FormOk (asmForm q)) ∧
    (∀ q, q < spWorld.P → DofmapOk 1 (asmDofmap q)) ∧ (∀ q, q < spWorld.P → DofsOk spWorld q (asmDofmap q)) ∧
    Consistent spWorld 1 asmBcs (fun I _ => I = 0 ∨ I = 3) ∧ (∀ q, q < spWorld.P → SortedBcs (asmBcs q)) := by
  refine ⟨fun q _ => Or.inl le_rfl, ?_, ?_, ?_, ?_, ?_⟩
  · intro q _ ty t I hI
    simp only [asmForm] at hI
    split at hI
    · rw [List.mem_singleton] at hI
      subst hI
      refine ⟨by split <;> rfl, fun _ => ⟨?_, ?_⟩⟩ <;> (intro c hc; simp only at hc; split at hc <;> simp at hc <;> omega)
    · cases hI
  · intro q _ t
    refine ⟨rfl, ?_⟩
    intro c
    simp only [asmDofmap]
    split <;> rfl
  · intro q hq t c d hd
    have hq2 : q = 0 ∨ q = 1 := by have : q < 2 := hq; omega
    rcases hq2 with rfl | rfl
    · simp only [asmDofmap] at hd
      simp only [spWorld]
      split at hd <;> simp at hd <;> simp <;> omega
    · simp only [asmDofmap] at hd
      simp only [spWorld]
      split at hd <;> simp at hd <;> simp <;> omega
  · intro q hq i I k hg hk
    have hq2 : q = 0 ∨ q = 1 := by have : q < 2 := hq; omega
    obtain rfl : k = 0 := by omega
    have hil := SubMap.globalOf_lt spWorld q i I hg
    rcases hq2 with rfl | rfl
    · have : i = 0 ∨ i = 1 ∨ i = 2 := by simp [spWorld] at hil; omega
      rcases this with rfl | rfl | rfl <;> (simp [globalOf, spWorld, World.r0] at hg; subst hg; simp [Constrained, asmBcs])
    · have : i = 0 ∨ i = 1 := by simp [spWorld] at hil; omega
      rcases this with rfl | rfl <;>
        (simp [globalOf, spWorld, World.r0, Offsets.excl] at hg; subst hg; simp [Constrained, asmBcs])
  · intro q _ c hc
    simp only [asmBcs, List.mem_singleton] at hc
    subst hc
    simp only
    split <;> simp

/-- The hypotheses of the theorems are met, and no rank raises an error. -/
example : ∃ p p' : Nat → SP.Pattern, (∀ q, q < spWorld.P → buildPattern (asmForm q) (asmDofmap q) (asmDofmap q) = .ok (p q)) ∧
      (∀ q, q < spWorld.P → SP.finalize spWorld spWorld p q = .ok (p' q)) ∧
      ∀ q, q < spWorld.P → (assembledOn spWorld spWorld 1 1 asmForm asmDofmap asmDofmap p' asmBcs asmBcs true 7 q).2 = true := by
  obtain ⟨hF, hok, hd, hr, hc, hs⟩ := asm_hyps
  obtain ⟨p, p', hp, hf⟩ := C45_create spWorld spWorld asmWorld_valid asmWorld_valid rfl asmForm asmDofmap asmDofmap hF hok hr hr
  refine ⟨p, p', hp, hf, ?_⟩
  intro q hq
  rw [C45_diagonal_error spWorld asmWorld_valid 1 Nat.one_pos asmForm asmDofmap hF hok hd hr p p' hp hf asmBcs _ hc hs 7 q hq]
  intro I k _ _ hC
  rcases hC with rfl | rfl
  · exact ⟨0, by decide, ⟨[0, 1], [0, 1], fun r s => if r * 2 + s = 0 ∨ r * 2 + s = 3 then 1 else -1⟩, by
      simp [elems, asmForm, asmDofmap, intElems, cellElems, List.range_succ], 0, by simp, 0, by simp, rfl, rfl⟩
  · exact ⟨1, by decide, ⟨[0, 1], [0, 1], fun r s => if r * 2 + s = 0 ∨ r * 2 + s = 3 then 1 else -1⟩, by
      simp [elems, asmForm, asmDofmap, intElems, cellElems, List.range_succ], 1, by simp, 1, by simp, rfl, rfl⟩

/-- The diagonal entry of the shared dof 2 is the sum of contributions of both ranks. -/
example : globalOp spWorld spWorld 1 1 (fun q => elems (asmForm q) (asmDofmap q) (asmDofmap q)) 2 0 2 0 = 2 := by decide +kernel
example : globalOp spWorld spWorld 1 1 (fun q => elems (asmForm q) (asmDofmap q) (asmDofmap q)) 1 0 2 0 = -1 := by decide +kernel

end Verif.Props
