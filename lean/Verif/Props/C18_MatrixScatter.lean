import Verif.Lemmas.MatrixScatter
import Verif.Props.C14_C15_SparsityPattern
/-!
# C18: reverse scatter of a matrix adds ghost rows to their owners
-/
namespace Verif.Props
open Verif.Std Verif.World Verif.Spec Verif.MatScatter Finset

section
variable {R : Type} [AddCommMonoid R] (w0 w1 : World) (g : Nat → Graph)

/-- Part of `localEntry` from the owned rows. -/
def ownedPart (bs2 : Nat) (data : Nat → Nat → R) (q I J b : Nat) : R :=
  ∑ i ∈ range (w0.size q), ∑ t ∈ range ((g q).rowPtr (i + 1) - (g q).rowPtr i),
    if globalOf w0 q i = some I ∧ globalOf w1 q ((g q).cols.getD ((g q).rowPtr i + t) 0) = some J
    then data q (((g q).rowPtr i + t) * bs2 + b) else 0

/-- Part of `localEntry` from the ghost rows. -/
def ghostPart (bs2 : Nat) (data : Nat → Nat → R) (q I J b : Nat) : R :=
  ∑ k ∈ range (w0.ghosts q).length, ∑ t ∈ range ((g q).rowPtr (w0.size q + k + 1) - (g q).rowPtr (w0.size q + k)),
    if globalOf w0 q (w0.size q + k) = some I ∧
      globalOf w1 q ((g q).cols.getD ((g q).rowPtr (w0.size q + k) + t) 0) = some J
    then data q (((g q).rowPtr (w0.size q + k) + t) * bs2 + b) else 0

theorem localEntry_split (bs2 : Nat) (data : Nat → Nat → R) (q I J b : Nat) :
    localEntry w0 w1 (fun q => (g q).rowPtr) (fun q => (g q).cols) bs2 data q I J b =
      ownedPart w0 w1 g bs2 data q I J b + ghostPart w0 w1 g bs2 data q I J b := by
  unfold localEntry ownedPart ghostPart
  rw [sum_range_add]

variable (hw0 : w0.Valid) (hw1 : w1.Valid) (hP : w0.P = w1.P)
  (hok : MatOk w0 w1 (fun q => (g q).rowPtr) (fun q => (g q).cols))

include hw0 in
theorem globalOf_ghost (q k I : Nat) (hq : q < w0.P) (h : globalOf w0 q (w0.size q + k) = some I) :
    (w0.ghosts q)[k]? = some I ∧ ∃ r, (w0.owners q)[k]? = some r ∧ Owns w0 r I := by
  unfold globalOf at h
  rw [if_neg (by omega), Nat.add_sub_cancel_left] at h
  have hk := (List.getElem?_eq_some_iff.mp h).1
  have ho := List.getElem?_eq_getElem (l := w0.owners q) (i := k) (by rw [hw0.len q hq]; exact hk)
  have hv := hw0.owner q hq _ _ _ ho h
  exact ⟨h, _, ho, hv.1, hv.2.2.1, hv.2.2.2⟩

include hw0 in
theorem ownedPart_other (bs2 : Nat) (data : Nat → Nat → R) (q I J b : Nat) (hq : q < w0.P) (h : ¬ Owns w0 q I) :
    ownedPart w0 w1 g bs2 data q I J b = 0 := by
  apply sum_eq_zero
  intro i hi
  apply sum_eq_zero
  intro t _
  rw [if_neg]
  rintro ⟨h1, _⟩
  exact h ((globalOf_owned w0 hw0 q i I hq h1).mpr (mem_range.mp hi))

theorem ownedPart_row (bs2 : Nat) (data : Nat → Nat → R) (r i J b : Nat) (hi : i < w0.size r) :
    ownedPart w0 w1 g bs2 data r (w0.r0 r + i) J b = ∑ t ∈ range ((g r).rowPtr (i + 1) - (g r).rowPtr i),
      if globalOf w1 r ((g r).cols.getD ((g r).rowPtr i + t) 0) = some J
      then data r (((g r).rowPtr i + t) * bs2 + b) else 0 := by
  unfold ownedPart
  rw [sum_eq_single_of_mem i (mem_range.mpr hi)]
  · apply sum_congr rfl
    intro t _
    have : globalOf w0 r i = some (w0.r0 r + i) := by unfold globalOf; rw [if_pos hi]
    simp [this]
  · intro i' hi' hne
    apply sum_eq_zero
    intro t _
    rw [if_neg]
    rintro ⟨h1, _⟩
    unfold globalOf at h1
    rw [if_pos (mem_range.mp hi')] at h1
    have := Option.some.inj h1
    omega

include hw0 hw1 hP hok in
/-- Value stored after the reverse scatter at a position of an owned row. -/
theorem scatterRev_owned (bs2 : Nat) (data : Nat → Nat → R) (r i t J b : Nat) (hr : r < w0.P) (hb : b < bs2)
    (hi : i < w0.size r) (ht : t < (g r).rowPtr (i + 1) - (g r).rowPtr i)
    (hJ : globalOf w1 r ((g r).cols.getD ((g r).rowPtr i + t) 0) = some J) :
    MatScatter.scatterRev w0 w1 g bs2 data r (((g r).rowPtr i + t) * bs2 + b) =
      data r (((g r).rowPtr i + t) * bs2 + b) +
        ∑ q ∈ range w0.P, ghostPart w0 w1 g bs2 data q (w0.r0 r + i) J b := by
  have hle := ptr_mono (g r).rowPtr _ (hok.mono r hr) (a := i + 1) (b := w0.size r) (by omega) (by omega)
  rw [scatterRev_at w0 w1 g hw0 bs2 data r _ b hb (by omega), arrivals_sum]
  congr 1
  apply sum_congr rfl
  intro q hq
  have hqP := mem_range.mp hq
  unfold ghostPart
  rw [hw0.len q hqP]
  apply sum_congr rfl
  intro k hk
  have hk' := mem_range.mp hk
  apply sum_congr rfl
  intro t' ht'
  have ht'' := mem_range.mp ht'
  unfold rowLen at ht''
  have hgk : (w0.ghosts q)[k]? = some ((w0.ghosts q).getD k 0) := by
    rw [List.getD_eq_getElem?_getD, List.getElem?_eq_getElem hk']; rfl
  have hko : k < (w0.owners q).length := by rw [hw0.len q hqP]; exact hk'
  have hok' : (w0.owners q)[k]? = some (ownerKey w0 q k) := by
    unfold ownerKey
    rw [List.getD_eq_getElem?_getD, List.getElem?_eq_getElem hko]; rfl
  have hv := hw0.owner q hqP _ _ _ hok' hgk
  have hglob : globalOf w0 q (w0.size q + k) = some ((w0.ghosts q).getD k 0) := by
    unfold globalOf; rw [if_neg (by omega), Nat.add_sub_cancel_left, hgk]
  have hmono := hok.mono q hqP (w0.size q + k) (by omega)
  have hlast := ptr_mono (g q).rowPtr _ (hok.mono q hqP) (a := w0.size q + k + 1)
    (b := w0.size q + (w0.ghosts q).length) (by omega) le_rfl
  have hlen := hok.len q hqP
  set c := (g q).cols.getD ((g q).rowPtr (w0.size q + k) + t') 0 with hc
  have hcm : c ∈ (g q).cols := by
    rw [hc, List.getD_eq_getElem?_getD, List.getElem?_eq_getElem (by omega)]
    exact List.getElem_mem _
  obtain ⟨J', hJ'⟩ := globalOf_some w1 q c (hok.range q hqP c hcm)
  have hcond : (ownerKey w0 q k = r ∧ entryPos w0 w1 g r (arrIdx w0 w1 g (q, k, t')) = (g r).rowPtr i + t) ↔
      (globalOf w0 q (w0.size q + k) = some (w0.r0 r + i) ∧ globalOf w1 q c = some J) := by
    have harr : arrIdx w0 w1 g (q, k, t') = ((w0.ghosts q).getD k 0, J') := by
      unfold arrIdx
      simp only
      rw [globalCol_eq w1 q _ J' hJ']
    rw [harr, hglob, hJ']
    simp only [Option.some.injEq]
    constructor
    · rintro ⟨ho, he⟩
      rw [ho] at hv hok'
      obtain ⟨t2, ht2, hcol⟩ := hok.closed q hqP k r _ hok' hgk t' ht''
      rw [← hc, hJ'] at hcol
      have hI : (w0.ghosts q).getD k 0 = w0.r0 r + ((w0.ghosts q).getD k 0 - w0.r0 r) := by omega
      have hrow : (w0.ghosts q).getD k 0 - w0.r0 r < w0.size r := by omega
      rw [entryPos_eq w0 w1 g hok hw1 hP r _ t2 _ J' hr hrow hI ht2 hcol] at he
      obtain ⟨e1, e2⟩ := ptr_inj (g r).rowPtr _ (hok.mono r hr) (by omega) (by omega) ht2 ht he
      rw [e1, e2] at hcol
      rw [hcol] at hJ
      exact ⟨by omega, Option.some.inj hJ⟩
    · rintro ⟨h1, h2⟩
      have ho : ownerKey w0 q k = r := range_unique w0 ⟨hv.2.2.1, hv.2.2.2⟩ ⟨by omega, by omega⟩
      subst h2
      exact ⟨ho, entryPos_eq w0 w1 g hok hw1 hP r i t _ J' hr hi h1 ht hJ⟩
  by_cases hcc : globalOf w0 q (w0.size q + k) = some (w0.r0 r + i) ∧ globalOf w1 q c = some J
  · rw [if_pos hcc]
    have := hcond.mpr hcc
    rw [if_pos this.1, if_pos this.2]
    rfl
  · rw [if_neg hcc]
    by_cases ho : ownerKey w0 q k = r
    · rw [if_pos ho, if_neg]
      intro he
      exact hcc (hcond.mp ⟨ho, he⟩)
    · rw [if_neg ho]

omit [AddCommMonoid R] in
/-- C18: after the reverse scatter everything from the first ghost row on is zero. -/
theorem C18_ghost_rows_zero [AddCommMonoid R] (bs2 : Nat) (data : Nat → Nat → R) (r n : Nat)
    (hn : (g r).rowPtr (w0.size r) * bs2 ≤ n) : MatScatter.scatterRev w0 w1 g bs2 data r n = 0 := by
  unfold MatScatter.scatterRev
  exact if_pos hn

include hok in
theorem ghostPart_zero (bs2 : Nat) (data : Nat → Nat → R) (q I J b : Nat) (hq : q < w0.P) :
    ghostPart w0 w1 g bs2 (MatScatter.scatterRev w0 w1 g bs2 data) q I J b = 0 := by
  apply sum_eq_zero
  intro k hk
  apply sum_eq_zero
  intro t _
  split
  · apply C18_ghost_rows_zero
    have := ptr_mono (g q).rowPtr _ (hok.mono q hq) (a := w0.size q) (b := w0.size q + k) (by omega)
      (by have := mem_range.mp hk; omega)
    have := Nat.mul_le_mul_right bs2 this
    rw [Nat.add_mul]
    omega
  · rfl

include hw0 hok in
/-- Without a matching position on the owner no ghost row holds the entry. -/
theorem ghostPart_absent (bs2 : Nat) (data : Nat → Nat → R) (q r i J b : Nat) (hq : q < w0.P) (hr : r < w0.P)
    (hi : i < w0.size r)
    (hno : ∀ t, t < (g r).rowPtr (i + 1) - (g r).rowPtr i → globalOf w1 r ((g r).cols.getD ((g r).rowPtr i + t) 0) ≠ some J) :
    ghostPart w0 w1 g bs2 data q (w0.r0 r + i) J b = 0 := by
  apply sum_eq_zero
  intro k _
  apply sum_eq_zero
  intro t ht
  rw [if_neg]
  rintro ⟨h1, h2⟩
  obtain ⟨hg, r', ho, hown⟩ := globalOf_ghost w0 hw0 q k _ hq h1
  have hrr : r' = r := range_unique w0 hown.2 ⟨by omega, by omega⟩
  subst hrr
  obtain ⟨t', ht', hcol⟩ := hok.closed q hq k _ _ ho hg t (mem_range.mp ht)
  rw [h2] at hcol
  simp only [Nat.add_sub_cancel_left] at ht' hcol
  exact hno t' ht' hcol

include hw0 hw1 hP hok

/-- C18: on the owner of global row `I`, the entry (`I`, `J`) becomes the sum over all ranks of
what they stored for it before. -/
theorem C18_owner (bs2 : Nat) (data : Nat → Nat → R) (r I J b : Nat) (hb : b < bs2) (hown : Owns w0 r I) :
    localEntry w0 w1 (fun q => (g q).rowPtr) (fun q => (g q).cols) bs2 (MatScatter.scatterRev w0 w1 g bs2 data) r I J b =
      globalEntry w0 w1 (fun q => (g q).rowPtr) (fun q => (g q).cols) bs2 data I J b := by
  have hr := hown.1
  obtain ⟨i, rfl⟩ : ∃ i, I = w0.r0 r + i := ⟨I - w0.r0 r, by have := hown.2; omega⟩
  have hi : i < w0.size r := by have := hown.2; omega
  rw [localEntry_split, ghostPart_zero w0 w1 g hok _ _ _ _ _ _ hr, add_zero, ownedPart_row w0 w1 g _ _ r i J b hi]
  unfold globalEntry
  simp only [localEntry_split]
  rw [sum_add_distrib]
  have hothers : ∑ q ∈ range w0.P, ownedPart w0 w1 g bs2 data q (w0.r0 r + i) J b =
      ownedPart w0 w1 g bs2 data r (w0.r0 r + i) J b := by
    apply sum_eq_single_of_mem r (mem_range.mpr hr)
    intro q hq hne
    apply ownedPart_other w0 w1 g hw0 _ _ _ _ _ _ (mem_range.mp hq)
    intro ho
    exact hne (range_unique w0 ho.2 hown.2)
  rw [hothers, ownedPart_row w0 w1 g _ _ r i J b hi]
  by_cases hex : ∃ t, t < (g r).rowPtr (i + 1) - (g r).rowPtr i ∧
      globalOf w1 r ((g r).cols.getD ((g r).rowPtr i + t) 0) = some J
  · obtain ⟨t, ht, hJ⟩ := hex
    have huniq : ∀ t', t' ∈ range ((g r).rowPtr (i + 1) - (g r).rowPtr i) → t' ≠ t →
        globalOf w1 r ((g r).cols.getD ((g r).rowPtr i + t') 0) ≠ some J := by
      intro t' ht' hne hJ'
      have ht'' := mem_range.mp ht'
      have hcc := SubMap.globalOf_inj w1 hw1 r (hP ▸ hr) _ _ J hJ hJ'
      rcases Nat.lt_trichotomy t t' with h | h | h
      · have := hok.sorted r hr i hi t t' h ht''
        omega
      · omega
      · have := hok.sorted r hr i hi t' t h ht
        omega
    rw [sum_eq_single_of_mem t (mem_range.mpr ht), sum_eq_single_of_mem t (mem_range.mpr ht), if_pos hJ, if_pos hJ]
    · exact scatterRev_owned w0 w1 g hw0 hw1 hP hok bs2 data r i t J b hr hb hi ht hJ
    · intro t' ht' hne; rw [if_neg (huniq t' ht' hne)]
    · intro t' ht' hne; rw [if_neg (huniq t' ht' hne)]
  · have hno : ∀ t, t < (g r).rowPtr (i + 1) - (g r).rowPtr i →
        globalOf w1 r ((g r).cols.getD ((g r).rowPtr i + t) 0) ≠ some J := fun t ht h => hex ⟨t, ht, h⟩
    rw [sum_eq_zero, sum_eq_zero, zero_add, sum_eq_zero]
    · intro q hq
      exact ghostPart_absent w0 w1 g hw0 hok bs2 data q r i J b (mem_range.mp hq) hr hi hno
    · intro t ht; rw [if_neg (hno t (mem_range.mp ht))]
    · intro t ht; rw [if_neg (hno t (mem_range.mp ht))]

omit hw1 hP in
/-- C18: a rank that does not own global row `I` stores nothing for it afterwards. -/
theorem C18_others (bs2 : Nat) (data : Nat → Nat → R) (q I J b : Nat) (hq : q < w0.P) (hown : ¬ Owns w0 q I) :
    localEntry w0 w1 (fun q => (g q).rowPtr) (fun q => (g q).cols) bs2 (MatScatter.scatterRev w0 w1 g bs2 data) q I J b =
      0 := by
  rw [localEntry_split, ghostPart_zero w0 w1 g hok _ _ _ _ _ _ hq, add_zero, ownedPart_other w0 w1 g hw0 _ _ _ _ _ _ hq hown]

/-- C18: the represented operator does not change. -/
theorem C18_conserved (bs2 : Nat) (data : Nat → Nat → R) (I J b : Nat) (hb : b < bs2) :
    globalEntry w0 w1 (fun q => (g q).rowPtr) (fun q => (g q).cols) bs2 (MatScatter.scatterRev w0 w1 g bs2 data) I J b =
      globalEntry w0 w1 (fun q => (g q).rowPtr) (fun q => (g q).cols) bs2 data I J b := by
  by_cases hex : ∃ r, Owns w0 r I
  · obtain ⟨r, hr⟩ := hex
    rw [← C18_owner w0 w1 g hw0 hw1 hP hok bs2 data r I J b hb hr]
    conv_lhs => unfold globalEntry
    apply sum_eq_single_of_mem r (mem_range.mpr hr.1)
    intro q hq hne
    exact C18_others w0 w1 g hw0 hok bs2 data q I J b (mem_range.mp hq)
      (fun ho => hne (range_unique w0 ho.2 hr.2))
  · have : ∀ (d : Nat → Nat → R), globalEntry w0 w1 (fun q => (g q).rowPtr) (fun q => (g q).cols) bs2 d I J b = 0 := by
      intro d
      apply sum_eq_zero
      intro q hq
      apply sum_eq_zero
      intro i _
      apply sum_eq_zero
      intro t _
      rw [if_neg]
      rintro ⟨h, _⟩
      exact hex (SubMap.owns_of_globalOf w0 hw0 q (mem_range.mp hq) i I h)
    rw [this, this]

end

/-- The column map of a finalised pattern (`column_index_map`, `la/MatrixCSR.h` L617-623). -/
def patternCols (w1 : World) (p : Nat → SP.Pattern) : World :=
  { w1 with ghosts := fun q => (p q).colGhosts, owners := fun q => (p q).colOwners }

/-- C18: the arrays of a matrix created from any finalised sparsity pattern meet the
requirements of the theorems above. -/
theorem C18_pattern (w0 w1 : World) (hw0 : w0.Valid) (hw1 : w1.Valid) (hP : w0.P = w1.P)
    (ops : Nat → List InsOp) (hin : InRange w0 w1 ops) (p p' : Nat → SP.Pattern)
    (hp : ∀ q, q < w0.P → runIns SP.new (ops q) = .ok (p q))
    (hf : ∀ q, q < w0.P → SP.finalize w0 w1 p q = .ok (p' q)) :
    (patternCols w1 p').Valid ∧
    MatOk w0 (patternCols w1 p') (fun q i => (p' q).offsets.getD i 0) (fun q => (p' q).edges) := by
  have facts := finalize_facts w0 w1 hw0 hw1 hP ops hin p hp
  have hglob : ∀ q c, globalOf (patternCols w1 p') q c = SP.gcol w1 q (p' q).colGhosts c := fun q c => rfl
  have all : ∀ q, q < w0.P → ∃ rows : List (List Nat), rows.length = w0.size q + (w0.ghosts q).length ∧
      (p' q).edges = rows.flatten ∧
      (∀ i, i ≤ rows.length → (p' q).offsets.getD i 0 = Offsets.excl (fun i => (rows[i]?.map List.length).getD 0) i) ∧
      (∀ (i : Nat) (row : List Nat), rows[i]? = some row → row.Pairwise (· < ·) ∧
        (∀ c ∈ row, ∃ C, SP.gcol w1 q (p' q).colGhosts c = some C) ∧
        (i < w0.size q → ∀ C, (∃ c ∈ row, SP.gcol w1 q (p' q).colGhosts c = some C) ↔ Requested w0 w1 ops (w0.r0 q + i) C) ∧
        (w0.size q ≤ i → ∀ c, c ∈ row ↔ ∃ op ∈ ops q, op.Covers i c)) ∧
      w1.ghosts q <+: (p' q).colGhosts := by
    intro q hq
    obtain ⟨p1, rows, h1, h2, h3, h4, h5, h6, h7, _⟩ := facts q hq
    have : p1 = p' q := by rw [hf q hq] at h1; injection h1 with h; exact h.symm
    subst this
    exact ⟨rows, h2, h3, fun i hi => by rw [h4]; exact rows_getD rows i hi, h6, h7⟩
  have hget : ∀ q, q < w0.P → ∀ rows : List (List Nat), (p' q).edges = rows.flatten →
      (∀ i, i ≤ rows.length → (p' q).offsets.getD i 0 = Offsets.excl (fun i => (rows[i]?.map List.length).getD 0) i) →
      ∀ (i : Nat) (row : List Nat), rows[i]? = some row →
      (p' q).offsets.getD (i + 1) 0 = (p' q).offsets.getD i 0 + row.length ∧
      ∀ t, t < row.length → (p' q).edges.getD ((p' q).offsets.getD i 0 + t) 0 = row.getD t 0 := by
    intro q hq rows he ho i row hrow
    obtain ⟨hi, rfl⟩ := List.getElem?_eq_some_iff.mp hrow
    have hd := rows_diff rows i hi
    refine ⟨by rw [ho (i + 1) (by omega), ho i (by omega), hd], ?_⟩
    intro t ht
    have hs := AdjList.slice_flatten rows i hi
    rw [he, ho i (by omega), List.getD_eq_getElem?_getD, List.getD_eq_getElem?_getD]
    have h2 := congrArg (fun l : List Nat => l[t]?) hs
    simp only [List.getElem?_take_of_lt ht, List.getElem?_drop] at h2
    rw [← h2]
  refine ⟨⟨?_, ?_, ?_⟩, ⟨?_, ?_, ?_, ?_, ?_⟩⟩
  · intro q hq
    obtain ⟨p1, rows, h1, _, _, _, _, _, _, _, _, h10, _⟩ := facts q (hP ▸ hq)
    have : p1 = p' q := by rw [hf q (hP ▸ hq)] at h1; injection h1 with h; exact h.symm
    subst this
    exact h10
  · intro q hq
    obtain ⟨p1, rows, h1, _, _, _, _, _, _, _, h9, _⟩ := facts q (hP ▸ hq)
    have : p1 = p' q := by rw [hf q (hP ▸ hq)] at h1; injection h1 with h; exact h.symm
    subst this
    exact h9
  · intro q hq
    obtain ⟨p1, rows, h1, _, _, _, _, _, _, _, _, _, h11⟩ := facts q (hP ▸ hq)
    have : p1 = p' q := by rw [hf q (hP ▸ hq)] at h1; injection h1 with h; exact h.symm
    subst this
    exact h11
  · intro q hq i hi
    obtain ⟨rows, h1, h2, h3, h4, _⟩ := all q hq
    have := (hget q hq rows h2 h3 i rows[i] (List.getElem?_eq_getElem (by omega))).1
    omega
  · intro q hq
    obtain ⟨rows, h1, h2, h3, h4, _⟩ := all q hq
    rw [← h1, h3 _ le_rfl, h2, List.length_flatten]
    apply le_of_eq
    unfold Offsets.excl
    congr 1
    apply List.ext_getElem? 
    intro i
    rw [List.getElem?_map, List.getElem?_map]
    by_cases hi : i < rows.length
    · rw [List.getElem?_range hi, List.getElem?_eq_getElem hi]; simp [hi]
    · rw [List.getElem?_eq_none (by simpa using hi), List.getElem?_eq_none (by omega)]; rfl
  · intro q hq c hc
    obtain ⟨rows, h1, h2, h3, h4, _⟩ := all q hq
    rw [h2, List.mem_flatten] at hc
    obtain ⟨row, hrow, hc⟩ := hc
    obtain ⟨i, hi⟩ := List.getElem?_of_mem hrow
    obtain ⟨C, hC⟩ := (h4 i row hi).2.1 c hc
    exact SubMap.globalOf_lt (patternCols w1 p') q c C hC
  · intro q hq i hi s t hst ht
    obtain ⟨rows, h1, h2, h3, h4, _⟩ := all q hq
    have hrow := List.getElem?_eq_getElem (l := rows) (i := i) (by omega)
    obtain ⟨e1, e2⟩ := hget q hq rows h2 h3 i _ hrow
    rw [e1, Nat.add_sub_cancel_left] at ht
    rw [e2 s (by omega), e2 t ht]
    have := (List.pairwise_iff_getElem.mp (h4 i _ hrow).1) s t (by omega) ht hst
    rw [List.getD_eq_getElem?_getD, List.getD_eq_getElem?_getD, List.getElem?_eq_getElem ht,
      List.getElem?_eq_getElem (by omega)]
    exact this
  · intro q hq k r I ho hg t ht
    have hv := hw0.owner q hq _ _ _ ho hg
    obtain ⟨rows, h1, h2, h3, h4, hpre⟩ := all q hq
    have hkl := (List.getElem?_eq_some_iff.mp hg).1
    have hrow := List.getElem?_eq_getElem (l := rows) (i := w0.size q + k) (by omega)
    obtain ⟨e1, e2⟩ := hget q hq rows h2 h3 _ _ hrow
    rw [e1, Nat.add_sub_cancel_left] at ht
    rw [e2 t ht]
    set c := (rows[w0.size q + k]'(by omega)).getD t 0 with hc
    have hcm : c ∈ rows[w0.size q + k]'(by omega) := by
      rw [hc, List.getD_eq_getElem?_getD, List.getElem?_eq_getElem ht]; exact List.getElem_mem _
    obtain ⟨op, hop, hcov⟩ := ((h4 _ _ hrow).2.2.2 (by omega) c).mp hcm
    have hcl := (hin q hq op hop _ c hcov).2
    obtain ⟨C, hC⟩ := globalOf_some w1 q c hcl
    have hC' : SP.gcol w1 q (p' q).colGhosts c = some C := SP.gcol_prefix hpre hC
    have hreq : Requested w0 w1 ops I C := by
      refine ⟨q, hq, op, hop, _, c, hcov, ?_, hC⟩
      unfold globalOf
      rw [if_neg (by omega), Nat.add_sub_cancel_left, hg]
    obtain ⟨rows', g1, g2, g3, g4, _⟩ := all r hv.1
    have hi : I - w0.r0 r < w0.size r := by omega
    have hrow' := List.getElem?_eq_getElem (l := rows') (i := I - w0.r0 r) (by omega)
    obtain ⟨f1, f2⟩ := hget r hv.1 rows' g2 g3 _ _ hrow'
    have hI : w0.r0 r + (I - w0.r0 r) = I := by omega
    obtain ⟨c', hc', hcC⟩ := ((g4 _ _ hrow').2.2.1 hi C).mpr (by rw [hI]; exact hreq)
    obtain ⟨t', ht'⟩ := List.getElem?_of_mem hc'
    have htl := (List.getElem?_eq_some_iff.mp ht').1
    refine ⟨t', by rw [f1, Nat.add_sub_cancel_left]; exact htl, ?_⟩
    rw [f2 t' htl, List.getD_eq_getElem?_getD, ht', hglob, hglob, hC']
    exact hcC

/-- The finalised pattern of the C14 example on both ranks. -/
def msGraph (q : Nat) : Graph :=
  if q = 0 then ⟨fun i => [0, 2, 4, 6].getD i 0, [0, 2, 0, 1, 0, 1]⟩ else ⟨fun i => [0, 4, 5].getD i 0, [0, 1, 2, 3, 1]⟩

def msCols : World :=
  { spWorld with ghosts := fun q => if q = 0 then [2] else [1, 0], owners := fun q => if q = 0 then [1] else [0, 0] }

/-- The arrays above are those of the finalised pattern. -/
example : (∃ p0 p1, runIns SP.new (spOps 0) = .ok p0 ∧ runIns SP.new (spOps 1) = .ok p1 ∧
    (List.range 2).map (fun q => (SP.finalize spWorld spWorld (fun q => if q = 0 then p0 else p1) q).toOption.map
      fun p => (p.edges, p.offsets, p.colGhosts, p.colOwners)) =
      (List.range 2).map fun q => some ((msGraph q).cols, (List.range (spWorld.size q + (spWorld.ghosts q).length + 1)).map (msGraph q).rowPtr,
        msCols.ghosts q, msCols.owners q)) :=
  ⟨_, _, rfl, rfl, by decide +kernel⟩

/-- Rank 0 sends its ghost row (global row 2) to rank 1 and zeroes it. -/
example : (List.range 12).map (MatScatter.scatterRev spWorld msCols msGraph 2 (fun q n => 100 * q + n + 1 : Nat → Nat → Nat) 0) =
    [1, 2, 3, 4, 5, 6, 7, 8, 0, 0, 0, 0] := by decide +kernel
example : (List.range 10).map (MatScatter.scatterRev spWorld msCols msGraph 2 (fun q n => 100 * q + n + 1 : Nat → Nat → Nat) 1) =
    [101, 102, 103, 104, 105 + 11, 106 + 12, 107 + 9, 108 + 10, 109, 110] := by decide +kernel

end Verif.Props
