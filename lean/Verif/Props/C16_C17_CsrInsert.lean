import Verif.Lemmas.CsrInsert
import Mathlib.Algebra.BigOperators.Group.List.Basic
/-!
# C16, C17: `MatrixCSR::set` and `MatrixCSR::add`
-/
namespace Verif.Props
open Verif.Csr Verif.Spec

variable {R : Type}

/-- Every addressed entry of the call is in the pattern. -/
def AllPresent (P : Pattern) (b0 b1 B0 B1 : Nat) (xrows xcols : List Nat) : Prop :=
  ∀ row ∈ xrows, ∀ col ∈ xcols, ∀ i, i < B0 → ∀ j, j < B1 →
    ∃ p, Stored P b0 b1 (row * B0 + i) (col * B1 + j) p

/-- Rows addressed by the call exist. -/
def RowsOk (nrows b0 B0 : Nat) (xrows : List Nat) : Prop :=
  ∀ row ∈ xrows, ∀ i, i < B0 → (row * B0 + i) / b0 < nrows

section same
variable {P : Pattern} {n b0 b1 : Nat}

theorem writesAt_insertCsr (hP : PatternOk P n) (h0 : 0 < b0) (h1 : 0 < b1) (x : Nat → R)
    (xrows xcols : List Nat) (hrows : ∀ row ∈ xrows, row < n) (I J p : Nat) (hI : I / b0 < n)
    (hs : Stored P b0 b1 I J p) :
    writesAt p (insertCsr P b0 b1 x xrows xcols) = contribs b0 b1 x xrows xcols I J := by
  obtain ⟨D, hD1, hD2, hD3, hp⟩ := hs
  unfold insertCsr contribs
  simp only
  rw [writesAt_flatMap]
  apply List.flatMap_congr
  rintro ⟨row, r⟩ hrow
  have hrn : row < n := hrows row (List.fst_mem_of_mem_zipIdx hrow)
  simp only
  rw [writesAt_flatMap]
  apply List.flatMap_congr
  rintro ⟨col, c⟩ _
  simp only
  split
  · rename_i hf
    have hne : ¬ (row = I / b0 ∧ col = J / b1) := by
      rintro ⟨rfl, rfl⟩
      have := (hP.find_iff hI (J / b1) D).mpr ⟨hD1, hD2, hD3⟩
      rw [hf] at this; exact absurd this (by simp)
    rw [if_neg hne]; rfl
  · rename_i d hf
    obtain ⟨hd1, hd2, hd3⟩ := (hP.find_iff hrn col d).mp hf
    have hi := Nat.mod_lt I h0
    have hj := Nat.mod_lt J h1
    -- position equality pins down every loop index
    have key : ∀ i j, i < b0 → j < b1 → (d * b0 * b1 + i * b1 + j = p ↔ d = D ∧ i = I % b0 ∧ j = J % b1) := by
      intro i j hi' hj'
      rw [hp, show d * b0 * b1 + i * b1 = (d * b0 + i) * b1 by ring]
      constructor
      · intro h
        obtain ⟨e1, e2⟩ := digits2 hj' hj h
        obtain ⟨e3, e4⟩ := digits2 hi' hi e1
        exact ⟨e3, e4, e2⟩
      · rintro ⟨rfl, rfl, rfl⟩; rfl
    rw [writesAt_flatMap]
    by_cases hdD : d = D
    · subst hdD
      have hrow' : row = I / b0 := hP.row_unique hrn hI ⟨hd1, hd2⟩ ⟨hD1, hD2⟩
      have hcol' : col = J / b1 := by rw [hd3] at hD3; exact Option.some.inj hD3
      rw [if_pos ⟨hrow', hcol'⟩]
      rw [flatMap_range_if b0 (I % b0) _ hi]
      · rw [writesAt_map, flatMap_range_if b1 (J % b1) _ hj]
        · have : d * b0 * b1 + I % b0 * b1 + J % b1 = p := (key _ _ hi hj).mpr ⟨rfl, rfl, rfl⟩
          simp only [writesAt, this, List.filterMap_cons, if_true, List.filterMap_nil]
          congr 2; ring
        · intro j hj' hne
          have : ¬ d * b0 * b1 + I % b0 * b1 + j = p := by
            intro hc; exact hne ((key _ _ hi hj').mp hc).2.2
          simp [writesAt, this]
      · intro i hi' hne
        unfold writesAt
        rw [List.filterMap_map, List.filterMap_eq_nil_iff]
        intro j hj'
        rw [List.mem_range] at hj'
        have : ¬ d * b0 * b1 + i * b1 + j = p := by
          intro hc; exact hne ((key _ _ hi' hj').mp hc).2.1
        simp [this]
    · have hne : ¬ (row = I / b0 ∧ col = J / b1) := by
        rintro ⟨rfl, rfl⟩
        have a := (hP.find_iff hI (J / b1) D).mpr ⟨hD1, hD2, hD3⟩
        rw [hf] at a; exact hdD (Option.some.inj a)
      rw [if_neg hne, List.flatMap_eq_nil_iff]
      intro i hi'
      rw [List.mem_range] at hi'
      unfold writesAt
      rw [List.filterMap_map, List.filterMap_eq_nil_iff]
      intro j hj'
      rw [List.mem_range] at hj'
      have : ¬ d * b0 * b1 + i * b1 + j = p := by
        intro hc; exact hdD ((key _ _ hi' hj').mp hc).1
      simp [this]


theorem none_mem_insertCsr (hP : PatternOk P n) (h0 : 0 < b0) (h1 : 0 < b1) (x : Nat → R)
    (xrows xcols : List Nat) (hrows : ∀ row ∈ xrows, row < n) :
    none ∉ insertCsr P b0 b1 x xrows xcols ↔ AllPresent P b0 b1 b0 b1 xrows xcols := by
  have dv : ∀ q i, i < b0 → (q * b0 + i) / b0 = q := fun q i hi => by
    rw [Nat.mul_comm, Nat.mul_add_div h0, Nat.div_eq_of_lt hi, Nat.add_zero]
  have dv1 : ∀ q i, i < b1 → (q * b1 + i) / b1 = q := fun q i hi => by
    rw [Nat.mul_comm, Nat.mul_add_div h1, Nat.div_eq_of_lt hi, Nat.add_zero]
  constructor
  · intro h row hrow col hcol i hi j hj
    obtain ⟨r, hr⟩ := List.mem_iff_getElem?.mp hrow
    obtain ⟨c, hc⟩ := List.mem_iff_getElem?.mp hcol
    cases hf : P.find row col with
    | none =>
      exfalso; apply h
      unfold insertCsr
      refine List.mem_flatMap.mpr ⟨(row, r), List.mem_zipIdx_iff_getElem?.mpr hr, ?_⟩
      refine List.mem_flatMap.mpr ⟨(col, c), List.mem_zipIdx_iff_getElem?.mpr hc, ?_⟩
      simp [hf]
    | some d =>
      obtain ⟨a1, a2, a3⟩ := (hP.find_iff (hrows row hrow) col d).mp hf
      exact ⟨_, d, by rw [dv _ _ hi]; exact a1, by rw [dv _ _ hi]; exact a2, by rw [dv1 _ _ hj]; exact a3, rfl⟩
  · intro h hn
    unfold insertCsr at hn
    obtain ⟨⟨row, r⟩, hr, hn⟩ := List.mem_flatMap.mp hn
    obtain ⟨⟨col, c⟩, hc, hn⟩ := List.mem_flatMap.mp hn
    have hrow := List.fst_mem_of_mem_zipIdx hr
    have hcol := List.fst_mem_of_mem_zipIdx hc
    simp only at hn hrow hcol
    obtain ⟨p, d, a1, a2, a3, _⟩ := h row hrow col hcol 0 h0 0 h1
    rw [dv _ _ h0] at a1 a2
    rw [dv1 _ _ h1] at a3
    rw [(hP.find_iff (hrows row hrow) col d).mpr ⟨a1, a2, a3⟩] at hn
    simp at hn

end same

section nonblocked
variable {P : Pattern} {n b0 b1 : Nat}

theorem writesAt_insertNonblocked (hP : PatternOk P n) (h0 : 0 < b0) (h1 : 0 < b1) (x : Nat → R)
    (xrows xcols : List Nat) (hrows : ∀ row ∈ xrows, row / b0 < n) (I J p : Nat) (hI : I / b0 < n)
    (hs : Stored P b0 b1 I J p) :
    writesAt p (insertNonblockedCsr P b0 b1 x xrows xcols) = contribs 1 1 x xrows xcols I J := by
  obtain ⟨D, hD1, hD2, hD3, hp⟩ := hs
  unfold insertNonblockedCsr contribs
  simp only [Nat.div_one, Nat.mod_one, Nat.mul_one, Nat.add_zero]
  rw [writesAt_flatMap]
  apply List.flatMap_congr
  rintro ⟨row, r⟩ hrow
  have hrn : row / b0 < n := hrows row (List.fst_mem_of_mem_zipIdx hrow)
  simp only
  rw [writesAt_flatMap]
  apply List.flatMap_congr
  rintro ⟨col, c⟩ _
  simp only
  split
  · rename_i hf
    have hne : ¬ (row = I ∧ col = J) := by
      rintro ⟨rfl, rfl⟩
      have := (hP.find_iff hI (col / b1) D).mpr ⟨hD1, hD2, hD3⟩
      rw [hf] at this; exact absurd this (by simp)
    rw [if_neg hne]; rfl
  · rename_i d hf
    obtain ⟨hd1, hd2, hd3⟩ := (hP.find_iff hrn (col / b1) d).mp hf
    have key : d * (b0 * b1) + row % b0 * b1 + col % b1 = p ↔ row = I ∧ col = J := by
      rw [hp, show d * (b0 * b1) + row % b0 * b1 = (d * b0 + row % b0) * b1 by ring]
      constructor
      · intro h
        obtain ⟨e1, e2⟩ := digits2 (Nat.mod_lt _ h1) (Nat.mod_lt _ h1) h
        obtain ⟨e3, e4⟩ := digits2 (Nat.mod_lt _ h0) (Nat.mod_lt _ h0) e1
        subst e3
        have hr := hP.row_unique hrn hI ⟨hd1, hd2⟩ ⟨hD1, hD2⟩
        have hc : col / b1 = J / b1 := by rw [hd3] at hD3; exact Option.some.inj hD3
        constructor
        · rw [← Nat.div_add_mod row b0, hr, e4, Nat.div_add_mod]
        · rw [← Nat.div_add_mod col b1, hc, e2, Nat.div_add_mod]
      · rintro ⟨rfl, rfl⟩
        have a := (hP.find_iff hI (col / b1) D).mpr ⟨hD1, hD2, hD3⟩
        rw [hf] at a; cases a; rfl
    by_cases h : row = I ∧ col = J
    · rw [if_pos h]
      simp [writesAt, key.mpr h]
    · rw [if_neg h]
      have : ¬ d * (b0 * b1) + row % b0 * b1 + col % b1 = p := fun hc => h (key.mp hc)
      simp [writesAt, this]

theorem none_mem_insertNonblocked (hP : PatternOk P n) (x : Nat → R)
    (xrows xcols : List Nat) (hrows : ∀ row ∈ xrows, row / b0 < n) :
    none ∉ insertNonblockedCsr P b0 b1 x xrows xcols ↔ AllPresent P b0 b1 1 1 xrows xcols := by
  constructor
  · intro h row hrow col hcol i hi j hj
    obtain ⟨r, hr⟩ := List.mem_iff_getElem?.mp hrow
    obtain ⟨c, hc⟩ := List.mem_iff_getElem?.mp hcol
    have : i = 0 := by omega
    subst this
    have : j = 0 := by omega
    subst this
    simp only [Nat.mul_one, Nat.add_zero]
    cases hf : P.find (row / b0) (col / b1) with
    | none =>
      exfalso; apply h
      unfold insertNonblockedCsr
      refine List.mem_flatMap.mpr ⟨(row, r), List.mem_zipIdx_iff_getElem?.mpr hr, ?_⟩
      refine List.mem_flatMap.mpr ⟨(col, c), List.mem_zipIdx_iff_getElem?.mpr hc, ?_⟩
      simp [hf]
    | some d =>
      obtain ⟨a1, a2, a3⟩ := (hP.find_iff (hrows row hrow) (col / b1) d).mp hf
      exact ⟨_, d, a1, a2, a3, rfl⟩
  · intro h hn
    unfold insertNonblockedCsr at hn
    obtain ⟨⟨row, r⟩, hr, hn⟩ := List.mem_flatMap.mp hn
    obtain ⟨⟨col, c⟩, hc, hn⟩ := List.mem_flatMap.mp hn
    have hrow := List.fst_mem_of_mem_zipIdx hr
    have hcol := List.fst_mem_of_mem_zipIdx hc
    simp only at hn hrow hcol
    obtain ⟨p, d, a1, a2, a3, _⟩ := h row hrow col hcol 0 (by omega) 0 (by omega)
    simp only [Nat.mul_one, Nat.add_zero] at a1 a2 a3
    rw [(hP.find_iff (hrows row hrow) (col / b1) d).mpr ⟨a1, a2, a3⟩] at hn
    simp at hn

end nonblocked

section blocked
variable {P : Pattern} {n B0 B1 : Nat}

/-- Whenever a row stores a column that starts a block of `B1` columns, it stores the
whole block. -/
def BlockComplete (P : Pattern) (n B1 : Nat) : Prop :=
  ∀ r, r < n → ∀ d k, P.rowPtr r ≤ d → d < P.rowPtr (r + 1) → P.cols[d]? = some (k * B1) →
    ∀ j, j < B1 → d + j < P.rowPtr (r + 1) ∧ P.cols[d + j]? = some (k * B1 + j)

theorem writesAt_insertBlocked (hP : PatternOk P n) (hB : BlockComplete P n B1) (h0 : 0 < B0) (h1 : 0 < B1)
    (x : Nat → R) (xrows xcols : List Nat) (hrows : ∀ row ∈ xrows, ∀ i, i < B0 → row * B0 + i < n)
    (I J p : Nat) (hI : I < n) (hs : Stored P 1 1 I J p)
    (hok : none ∉ insertBlockedCsr P B0 B1 x xrows xcols) :
    writesAt p (insertBlockedCsr P B0 B1 x xrows xcols) = contribs B0 B1 x xrows xcols I J := by
  obtain ⟨D, hD1, hD2, hD3, hp⟩ := hs
  simp only [Nat.div_one, Nat.mod_one, Nat.mul_one, Nat.add_zero] at hD1 hD2 hD3 hp
  subst hp
  have hi0 := Nat.mod_lt I h0
  have hj0 := Nat.mod_lt J h1
  unfold insertBlockedCsr contribs
  simp only
  rw [writesAt_flatMap]
  apply List.flatMap_congr
  rintro ⟨row, r⟩ hrow
  have hrn := hrows row (List.fst_mem_of_mem_zipIdx hrow)
  simp only
  rw [writesAt_flatMap]
  -- writes of one (i, c) pair
  have one : ∀ i, i < B0 → ∀ col c, (col, c) ∈ xcols.zipIdx →
      writesAt p (match P.find (row * B0 + i) (col * B1) with
        | none => [none]
        | some d => (List.range B1).map fun j =>
            some (d + j, x ((r * B0 + i) * xcols.length * B1 + c * B1 + j))) =
      if row * B0 + i = I ∧ col = J / B1 then
        [x ((r * B0 + i) * xcols.length * B1 + c * B1 + J % B1)] else [] := by
    intro i hi col c hc
    split
    · rename_i hf
      exfalso; apply hok
      unfold insertBlockedCsr
      refine List.mem_flatMap.mpr ⟨(row, r), hrow, ?_⟩
      refine List.mem_flatMap.mpr ⟨i, List.mem_range.mpr hi, ?_⟩
      refine List.mem_flatMap.mpr ⟨(col, c), hc, ?_⟩
      simp [hf]
    · rename_i d hf
      obtain ⟨hd1, hd2, hd3⟩ := (hP.find_iff (hrn i hi) (col * B1) d).mp hf
      have key : ∀ j, j < B1 → (d + j = p ↔ (row * B0 + i = I ∧ col = J / B1) ∧ j = J % B1) := by
        intro j hj
        obtain ⟨b1, b2⟩ := hB _ (hrn i hi) d col hd1 hd2 hd3 j hj
        constructor
        · intro h
          subst h
          have hr := hP.row_unique (hrn i hi) hI ⟨by omega, b1⟩ ⟨hD1, hD2⟩
          rw [b2] at hD3
          have e := Option.some.inj hD3
          refine ⟨⟨hr, ?_⟩, ?_⟩
          · rw [← e, Nat.mul_comm, Nat.mul_add_div h1, Nat.div_eq_of_lt hj, Nat.add_zero]
          · rw [← e, Nat.mul_comm, Nat.mul_add_mod, Nat.mod_eq_of_lt hj]
        · rintro ⟨⟨hr, rfl⟩, rfl⟩
          rw [hr] at b1 hd1
          rw [show J / B1 * B1 + J % B1 = J by rw [Nat.mul_comm]; exact Nat.div_add_mod J B1] at b2
          have e1 := (hP.find_iff hI J (d + J % B1)).mpr ⟨by omega, b1, b2⟩
          have e2 := (hP.find_iff hI J p).mpr ⟨hD1, hD2, hD3⟩
          rw [e1] at e2; exact Option.some.inj e2
      rw [writesAt_map]
      by_cases hm : row * B0 + i = I ∧ col = J / B1
      · rw [if_pos hm, flatMap_range_if B1 (J % B1) _ hj0]
        · have := (key _ hj0).mpr ⟨hm, rfl⟩
          simp [writesAt, this]
        · intro j hj hne
          have : ¬ d + j = p := fun h => hne ((key j hj).mp h).2
          simp [writesAt, this]
      · rw [if_neg hm, List.flatMap_eq_nil_iff]
        intro j hj
        rw [List.mem_range] at hj
        have : ¬ d + j = p := fun h => hm ((key j hj).mp h).1
        simp [writesAt, this]
  have step : ∀ i, i < B0 → writesAt p (xcols.zipIdx.flatMap fun (col, c) =>
        match P.find (row * B0 + i) (col * B1) with
        | none => [none]
        | some d => (List.range B1).map fun j =>
            some (d + j, x ((r * B0 + i) * xcols.length * B1 + c * B1 + j))) =
      xcols.zipIdx.flatMap (fun (col, c) => if row * B0 + i = I ∧ col = J / B1 then
        [x ((r * B0 + i) * xcols.length * B1 + c * B1 + J % B1)] else []) := by
    intro i hi
    rw [writesAt_flatMap]
    apply List.flatMap_congr
    rintro ⟨col, c⟩ hc
    exact one i hi col c hc
  have hrowI : ∀ i, i < B0 → (row * B0 + i = I ↔ row = I / B0 ∧ i = I % B0) := by
    intro i hi
    constructor
    · intro h
      have e : row * B0 + i = I / B0 * B0 + I % B0 := by
        rw [h, Nat.mul_comm]; exact (Nat.div_add_mod I B0).symm
      exact digits2 hi hi0 e
    · rintro ⟨rfl, rfl⟩
      rw [Nat.mul_comm]; exact Nat.div_add_mod I B0
  rw [flatMap_range_if B0 (I % B0) _ hi0]
  · refine (step _ hi0).trans ?_
    apply List.flatMap_congr
    rintro ⟨col, c⟩ hc
    simp only
    by_cases hm : row = I / B0 ∧ col = J / B1
    · rw [if_pos ⟨(hrowI _ hi0).mpr ⟨hm.1, rfl⟩, hm.2⟩, if_pos hm]
      congr 2; ring
    · rw [if_neg hm, if_neg (fun h => hm ⟨((hrowI _ hi0).mp h.1).1, h.2⟩)]
  · intro i hi hne
    refine (step i hi).trans ?_
    rw [List.flatMap_eq_nil_iff]
    rintro ⟨col, c⟩ _
    simp only
    rw [if_neg]
    rintro ⟨h, _⟩
    exact hne ((hrowI i hi).mp h).2

theorem none_mem_insertBlocked (hP : PatternOk P n) (hB : BlockComplete P n B1) (h1 : 0 < B1)
    (x : Nat → R) (xrows xcols : List Nat) (hrows : ∀ row ∈ xrows, ∀ i, i < B0 → row * B0 + i < n) :
    none ∉ insertBlockedCsr P B0 B1 x xrows xcols ↔ AllPresent P 1 1 B0 B1 xrows xcols := by
  constructor
  · intro h row hrow col hcol i hi j hj
    obtain ⟨r, hr⟩ := List.mem_iff_getElem?.mp hrow
    obtain ⟨c, hc⟩ := List.mem_iff_getElem?.mp hcol
    cases hf : P.find (row * B0 + i) (col * B1) with
    | none =>
      exfalso; apply h
      unfold insertBlockedCsr
      refine List.mem_flatMap.mpr ⟨(row, r), List.mem_zipIdx_iff_getElem?.mpr hr, ?_⟩
      refine List.mem_flatMap.mpr ⟨i, List.mem_range.mpr hi, ?_⟩
      refine List.mem_flatMap.mpr ⟨(col, c), List.mem_zipIdx_iff_getElem?.mpr hc, ?_⟩
      simp [hf]
    | some d =>
      have hrn := hrows row hrow i hi
      obtain ⟨a1, a2, a3⟩ := (hP.find_iff hrn (col * B1) d).mp hf
      obtain ⟨c1, c2⟩ := hB _ hrn d col a1 a2 a3 j hj
      exact ⟨d + j, d + j, by simpa using le_trans a1 (Nat.le_add_right d j), by simpa using c1, by simpa using c2, by simp [Nat.mod_one]⟩
  · intro h hn
    unfold insertBlockedCsr at hn
    obtain ⟨⟨row, r⟩, hr, hn⟩ := List.mem_flatMap.mp hn
    obtain ⟨i, hi, hn⟩ := List.mem_flatMap.mp hn
    obtain ⟨⟨col, c⟩, hc, hn⟩ := List.mem_flatMap.mp hn
    have hrow := List.fst_mem_of_mem_zipIdx hr
    have hcol := List.fst_mem_of_mem_zipIdx hc
    rw [List.mem_range] at hi
    simp only at hn hrow hcol
    obtain ⟨p, d, a1, a2, a3, _⟩ := h row hrow col hcol i hi 0 h1
    simp only [Nat.div_one, Nat.add_zero] at a1 a2 a3
    rw [(hP.find_iff (hrows row hrow i hi) (col * B1) d).mpr ⟨a1, a2, a3⟩] at hn
    simp at hn

end blocked

/-- Hypothesis for the case of blocked data in an unblocked matrix: the pattern
stores whole column blocks. -/
def BlocksFit (P : Pattern) (n b0 b1 B0 B1 : Nat) : Prop :=
  (b0 = 1 ∧ b1 = 1) → ¬ (b0 = B0 ∧ b1 = B1) → BlockComplete P n B1

/-- C16 (partial: blocked data in an unblocked matrix needs `BlocksFit`, see
`C16_refuted_blocked_missing`).  A call raises an error exactly when some addressed
entry is missing from the pattern. -/
theorem C16_error_iff_missing_partial {P : Pattern} {n b0 b1 B0 B1 : Nat} (hP : PatternOk P n)
    (h0 : 0 < b0) (h1 : 0 < b1) (hB0 : 0 < B0) (hB1 : 0 < B1) (hfit : BlocksFit P n b0 b1 B0 B1)
    (x : Nat → R) (xrows xcols : List Nat) (hrows : RowsOk n b0 B0 xrows)
    (es : List (Ev R)) (hes : dispatch P b0 b1 B0 B1 x xrows xcols = some es)
    (op : R → R → R) (data : Nat → R) :
    (run op data es).2 = true ↔ AllPresent P b0 b1 B0 B1 xrows xcols := by
  rw [run_ok_iff]
  unfold dispatch at hes
  split at hes
  · rename_i h; obtain ⟨rfl, rfl⟩ := h
    cases hes
    refine none_mem_insertCsr hP h0 h1 x xrows xcols ?_
    intro row hrow
    have := hrows row hrow 0 h0
    rwa [Nat.add_zero, Nat.mul_div_cancel _ h0] at this
  · rename_i hne
    split at hes
    · rename_i h; obtain ⟨rfl, rfl⟩ := h
      cases hes
      exact none_mem_insertBlocked hP (hfit ⟨rfl, rfl⟩ hne) hB1 x xrows xcols
        (fun row hrow i hi => by simpa using hrows row hrow i hi)
    · split at hes
      · rename_i h; obtain ⟨rfl, rfl⟩ := h
        cases hes
        exact none_mem_insertNonblocked hP x xrows xcols
          (fun row hrow => by simpa using hrows row hrow 0 (by omega))
      · exact absurd hes (by simp)

/-- C16 (partial, see above).  After a successful call every stored scalar entry holds
`op` folded over its old value and the dense-block values addressed to it; entries
that are not addressed have no such values and keep their value. -/
theorem C16_insert_partial {P : Pattern} {n b0 b1 B0 B1 : Nat} (hP : PatternOk P n)
    (h0 : 0 < b0) (h1 : 0 < b1) (hB0 : 0 < B0) (hB1 : 0 < B1) (hfit : BlocksFit P n b0 b1 B0 B1)
    (x : Nat → R) (xrows xcols : List Nat) (hrows : RowsOk n b0 B0 xrows)
    (es : List (Ev R)) (hes : dispatch P b0 b1 B0 B1 x xrows xcols = some es)
    (op : R → R → R) (data : Nat → R) (hok : (run op data es).2 = true)
    (I J p : Nat) (hI : I / b0 < n) (hs : Stored P b0 b1 I J p) :
    (run op data es).1 p = (contribs B0 B1 x xrows xcols I J).foldl op (data p) := by
  rw [run_ok_iff] at hok
  rw [run_get op data es hok]
  congr 1
  unfold dispatch at hes
  split at hes
  · rename_i h; obtain ⟨rfl, rfl⟩ := h
    cases hes
    refine writesAt_insertCsr hP h0 h1 x xrows xcols ?_ I J p hI hs
    intro row hrow
    have := hrows row hrow 0 h0
    rwa [Nat.add_zero, Nat.mul_div_cancel _ h0] at this
  · rename_i hne
    split at hes
    · rename_i h; obtain ⟨rfl, rfl⟩ := h
      cases hes
      exact writesAt_insertBlocked hP (hfit ⟨rfl, rfl⟩ hne) hB0 hB1 x xrows xcols
        (fun row hrow i hi => by simpa using hrows row hrow i hi) I J p (by simpa using hI) hs hok
    · split at hes
      · rename_i h; obtain ⟨rfl, rfl⟩ := h
        cases hes
        exact writesAt_insertNonblocked hP h0 h1 x xrows xcols
          (fun row hrow => by simpa using hrows row hrow 0 (by omega)) I J p hI hs
      · exact absurd hes (by simp)

/-- C16, `add`: old value plus all addressed values (partial as above). -/
theorem C16_add_partial [AddCommMonoid R] {P : Pattern} {n b0 b1 B0 B1 : Nat} (hP : PatternOk P n)
    (h0 : 0 < b0) (h1 : 0 < b1) (hB0 : 0 < B0) (hB1 : 0 < B1) (hfit : BlocksFit P n b0 b1 B0 B1)
    (x : Nat → R) (xrows xcols : List Nat) (hrows : RowsOk n b0 B0 xrows)
    (es : List (Ev R)) (hes : dispatch P b0 b1 B0 B1 x xrows xcols = some es)
    (data : Nat → R) (hok : (run (· + ·) data es).2 = true)
    (I J p : Nat) (hI : I / b0 < n) (hs : Stored P b0 b1 I J p) :
    (run (· + ·) data es).1 p = data p + (contribs B0 B1 x xrows xcols I J).sum := by
  rw [C16_insert_partial hP h0 h1 hB0 hB1 hfit x xrows xcols hrows es hes _ data hok I J p hI hs]
  generalize contribs B0 B1 x xrows xcols I J = l
  generalize data p = a
  induction l generalizing a with
  | nil => simp
  | cons y l ih => rw [List.foldl_cons, ih, List.sum_cons, add_assoc]

/-- C16, `set`: the last addressed value, or the old value if none (partial as above). -/
theorem C16_set_partial {P : Pattern} {n b0 b1 B0 B1 : Nat} (hP : PatternOk P n)
    (h0 : 0 < b0) (h1 : 0 < b1) (hB0 : 0 < B0) (hB1 : 0 < B1) (hfit : BlocksFit P n b0 b1 B0 B1)
    (x : Nat → R) (xrows xcols : List Nat) (hrows : RowsOk n b0 B0 xrows)
    (es : List (Ev R)) (hes : dispatch P b0 b1 B0 B1 x xrows xcols = some es)
    (data : Nat → R) (hok : (run setOp data es).2 = true)
    (I J p : Nat) (hI : I / b0 < n) (hs : Stored P b0 b1 I J p) :
    (run setOp data es).1 p = (contribs B0 B1 x xrows xcols I J).getLast?.getD (data p) := by
  rw [C16_insert_partial hP h0 h1 hB0 hB1 hfit x xrows xcols hrows es hes _ data hok I J p hI hs]
  generalize contribs B0 B1 x xrows xcols I J = l
  generalize data p = a
  induction l generalizing a with
  | nil => simp
  | cons y l ih => rw [List.foldl_cons, ih, List.getLast?_cons]; cases l.getLast? <;> simp [setOp]

/-- Execute several calls one after the other (all of them successful). -/
def runAll (op : R → R → R) (data : Nat → R) (calls : List (List (Ev R))) : Nat → R :=
  calls.foldl (fun d es => (run op d es).1) data

/-- C16: the assembled values do not depend on the order of successful `add` calls. -/
theorem C16_add_order_independent [AddCommMonoid R] (calls calls' : List (List (Ev R)))
    (hperm : calls.Perm calls') (hok : ∀ es ∈ calls, none ∉ es) (data : Nat → R) :
    runAll (· + ·) data calls = runAll (· + ·) data calls' := by
  have fold : ∀ (l : List R) (a : R), l.foldl (· + ·) a = a + l.sum := by
    intro l
    induction l with
    | nil => simp
    | cons y l ih => intro a; rw [List.foldl_cons, ih, List.sum_cons, add_assoc]
  have key : ∀ (cs : List (List (Ev R))) (d : Nat → R), (∀ es ∈ cs, none ∉ es) → ∀ p,
      runAll (· + ·) d cs p = d p + (cs.map (fun es => (writesAt p es).sum)).sum := by
    intro cs
    induction cs with
    | nil => intro d _ p; simp [runAll]
    | cons es cs ih =>
      intro d h p
      have := ih (run (· + ·) d es).1 (fun e he => h e (by simp [he])) p
      simp only [runAll, List.foldl_cons] at this ⊢
      rw [this, run_get _ _ _ (h es (by simp)), fold, List.map_cons, List.sum_cons, add_assoc]
  funext p
  rw [key calls data hok p, key calls' data (fun es he => hok es (hperm.mem_iff.mpr he)) p]
  congr 1
  exact (hperm.map _).sum_eq

/-- A 2 × 4 matrix: row 0 stores columns 0, 2; row 1 stores columns 1, 3. -/
def exPattern : Pattern := { rowPtr := fun r => 2 * r, cols := [0, 2, 1, 3] }

theorem exPattern_ok : PatternOk exPattern 2 := by
  refine ⟨fun r _ => by simp [exPattern], by decide, ?_⟩
  intro r hr
  interval_cases r <;> decide

/-- A successful blocked `add` on a 2-blocked matrix meets the hypotheses of the theorems. -/
example : ∃ es, dispatch exPattern 2 2 2 2 (fun k => k + 1) [1] [3, 1] = some es ∧
    (run (· + ·) (fun _ => 0) es).2 = true ∧ (run (· + ·) (fun _ => 0) es).1 12 = 1 := ⟨_, rfl, by decide +kernel⟩
example : ∃ es, dispatch exPattern 1 1 1 1 (fun k => k + 1) [1] [3, 1] = some es ∧
    (run (· + ·) (fun _ => 10) es).2 = true ∧ (run (· + ·) (fun _ => 10) es).1 3 = 11 ∧
    (run (· + ·) (fun _ => 10) es).1 2 = 12 := ⟨_, rfl, by decide +kernel⟩
example : ∃ es, dispatch exPattern 2 2 1 1 (fun k => k + 1) [3] [7, 2] = some es ∧
    (run (· + ·) (fun _ => 10) es).2 = true ∧ (run (· + ·) (fun _ => 10) es).1 15 = 11 := ⟨_, rfl, by decide +kernel⟩
example : Stored exPattern 2 2 3 7 15 := ⟨3, by decide, by decide, by decide, by decide⟩

/-- C16 fails for blocked data in an unblocked matrix: adding a 1 × 2 block at column
block 0 of row 0, where column 1 is not in the pattern, raises no error and modifies
the unrelated entry (0, 2). -/
theorem C16_refuted_blocked_missing :
    ∃ (P : Pattern) (es : List (Ev Int)), PatternOk P 2 ∧
      dispatch P 1 1 1 2 (fun k => (k : Int) + 5) [0] [0] = some es ∧
      (¬ ∃ p, Stored P 1 1 0 1 p) ∧
      (run (· + ·) (fun _ => 0) es).2 = true ∧
      Stored P 1 1 0 2 1 ∧ (run (· + ·) (fun _ => 0) es).1 1 = 6 := by
  refine ⟨exPattern, _, exPattern_ok, rfl, ?_, by decide +kernel, ⟨1, by decide, by decide, by decide, by decide⟩,
    by decide +kernel⟩
  rintro ⟨p, d, h1, h2, h3, _⟩
  simp only [exPattern, Nat.zero_div, Nat.zero_add, Nat.mul_one] at h2 h3
  interval_cases d <;> simp at h3

/-- C17 is false: an `add` that raises because an entry is missing has already changed
another stored entry. -/
theorem C17_refuted_partial_update :
    ∃ (P : Pattern) (es : List (Ev Int)), PatternOk P 2 ∧
      dispatch P 1 1 1 1 (fun k => (k : Int) + 5) [0] [0, 1] = some es ∧
      (run (· + ·) (fun _ => 0) es).2 = false ∧ (run (· + ·) (fun _ => 0) es).1 ≠ fun _ => 0 := by
  refine ⟨exPattern, _, exPattern_ok, rfl, by decide +kernel, ?_⟩
  intro h
  have := congrFun h 0
  revert this
  decide +kernel

/-- C17 (partial: only entries not addressed by the call are protected).  Whether or not
the call raises, entries it does not address keep their value. -/
theorem C17_unaddressed_unchanged_partial {P : Pattern} {n b0 b1 : Nat} (hP : PatternOk P n)
    (h0 : 0 < b0) (h1 : 0 < b1) (x : Nat → R) (xrows xcols : List Nat) (hrows : ∀ row ∈ xrows, row < n)
    (op : R → R → R) (data : Nat → R) (I J p : Nat) (hI : I / b0 < n) (hs : Stored P b0 b1 I J p)
    (hno : ¬ (I / b0 ∈ xrows ∧ J / b1 ∈ xcols)) :
    (run op data (insertCsr P b0 b1 x xrows xcols)).1 p = data p := by
  apply run_unwritten
  rw [writesAt_insertCsr hP h0 h1 x xrows xcols hrows I J p hI hs]
  unfold contribs
  rw [List.flatMap_eq_nil_iff]
  rintro ⟨row, r⟩ hr
  rw [List.flatMap_eq_nil_iff]
  rintro ⟨col, c⟩ hc
  simp only
  rw [if_neg]
  rintro ⟨rfl, rfl⟩
  exact hno ⟨List.fst_mem_of_mem_zipIdx hr, List.fst_mem_of_mem_zipIdx hc⟩

example : ¬ (0 / 1 ∈ [1] ∧ 2 / 1 ∈ [1, 2]) ∧ Stored exPattern 1 1 0 2 1 ∧
    (run (· + ·) (fun _ => (0 : Int)) (insertCsr exPattern 1 1 (fun k => (k : Int) + 1) [1] [1, 2])).2 = false :=
  ⟨by decide, ⟨1, by decide, by decide, by decide, by decide⟩, by decide +kernel⟩

end Verif.Props
