import Verif.Lemmas.Transpose
import Verif.Lemmas.LexSend
import Verif.Lemmas.SubMap
import Verif.Spec.StoredEntry
import Verif.Spec.SubMap
import Verif.Props.C19_SpMV
import Verif.Props.C29_SubMap
/-!
# C20: the transpose holds exactly the transposed entries
-/
namespace Verif.Props
open Verif.World Verif.SpMV Verif.Transpose Verif.Spec Verif.Std Verif.Group Verif.Offsets Verif.Exchange

variable {R : Type}

/-- Requirements: a valid column map, and on every rank owned rows split into owned and ghost columns. -/
structure TransOk (w0 w1 : World) (A : Nat → Mat R) : Prop where
  valid : w1.Valid
  procs : w0.P = w1.P
  mat : ∀ q, q < w1.P → MatOk w1 q (A q)
  nrows : ∀ q, q < w1.P → (A q).nrows = w0.size q

section
variable [Zero R] {w0 w1 : World} (bs0 bs1 : Nat) {A : Nat → Mat R}

omit [Zero R] in
theorem unique_map_inj {α β : Type} [DecidableEq α] [DecidableEq β] (f : α → β) (l : List α)
    (h : ∀ a ∈ l, ∀ b ∈ l, f a = f b → a = b) : unique (l.map f) = (unique l).map f := by
  induction l with
  | nil => rfl
  | cons a l ih =>
    simp only [List.map_cons, unique]
    rw [ih (fun x hx y hy => h x (by simp [hx]) y (by simp [hy]))]
    cases hu : unique l with
    | nil => simp
    | cons b r =>
      have hb : b ∈ l := (mem_unique l b).mp (by rw [hu]; simp)
      have hiff : (f a = f b) ↔ a = b := ⟨h a (by simp) b (by simp [hb]), fun h => by rw [h]⟩
      simp only [List.map_cons]
      by_cases hab : a = b
      · rw [if_pos (hiff.mpr hab), if_pos hab]; rfl
      · rw [if_neg (fun e => hab (hiff.mp e)), if_neg hab]; rfl

omit [Zero R] in
theorem mem_localItems (M : Mat R) (x : Nat × Nat) :
    x ∈ localItems M ↔ x.1 < M.nrows ∧ M.rowPtr x.1 ≤ x.2 ∧ x.2 < M.offDiag x.1 := by
  unfold localItems
  simp only [List.mem_flatMap, List.mem_range, List.mem_map]
  constructor
  · rintro ⟨i, hi, t, ht, rfl⟩
    exact ⟨hi, by simp only; omega, by simp only; omega⟩
  · rintro ⟨h1, h2, h3⟩
    exact ⟨x.1, h1, x.2 - M.rowPtr x.1, by omega, by ext <;> simp; omega⟩

omit [Zero R] in
theorem mem_sendItems (M : Mat R) (x : Nat × Nat) :
    x ∈ sendItems M ↔ x.1 < M.nrows ∧ M.offDiag x.1 ≤ x.2 ∧ x.2 < M.rowPtr (x.1 + 1) := by
  unfold sendItems
  simp only [List.mem_flatMap, List.mem_range, List.mem_map]
  constructor
  · rintro ⟨i, hi, t, ht, rfl⟩
    exact ⟨hi, by simp only; omega, by simp only; omega⟩
  · rintro ⟨h1, h2, h3⟩
    exact ⟨x.1, h1, x.2 - M.offDiag x.1, by omega, by ext <;> simp; omega⟩

omit [Zero R] in
theorem sendOk (h : TransOk w0 w1 A) (q : Nat) (hq : q < w1.P) : SendOk w1 A q := by
  intro x hx
  obtain ⟨h1, h2, h3⟩ := (mem_sendItems _ _).mp hx
  have := (h.mat q hq).off x.1 h1 x.2 h2 h3
  rw [h.valid.len q hq]; omega

omit [Zero R] in
/-- An entry sent from `q` to `r`: its column is a ghost of `q` owned by `r`. -/
theorem sent_spec (h : TransOk w0 w1 A) (q r : Nat) (hq : q < w1.P) (x : Nat × Nat) :
    x ∈ sent w1 A q r ↔ x ∈ sendItems (A q) ∧ ∃ J, globalOf w1 q ((A q).cols x.2) = some J ∧ Owns w1 r J ∧
      (w1.ghosts q).getD ((A q).cols x.2 - w1.size q) 0 = J ∧ q ≠ r := by
  unfold sent
  rw [mem_grp]
  apply and_congr_right
  intro hx
  obtain ⟨h1, h2, h3⟩ := (mem_sendItems _ _).mp hx
  obtain ⟨hs, hl⟩ := (h.mat q hq).off x.1 h1 x.2 h2 h3
  set k := (A q).cols x.2 - w1.size q with hk
  have hkl : k < (w1.ghosts q).length := by omega
  have hko : k < (w1.owners q).length := by rw [h.valid.len q hq]; exact hkl
  have eo : (w1.owners q)[k]? = some (ownerOf w1 A q x) := by
    unfold ownerOf
    rw [List.getD_eq_getElem?_getD, List.getElem?_eq_getElem hko]; rfl
  have eg : (w1.ghosts q)[k]? = some ((w1.ghosts q).getD k 0) := by
    rw [List.getD_eq_getElem?_getD, List.getElem?_eq_getElem hkl]; rfl
  obtain ⟨o1, o2, o3, o4⟩ := h.valid.owner q hq k _ _ eo eg
  have hgl : globalOf w1 q ((A q).cols x.2) = some ((w1.ghosts q).getD k 0) := by
    unfold globalOf
    rw [if_neg (by omega)]; exact eg
  constructor
  · intro ho
    rw [ho] at o1 o2 o3 o4
    exact ⟨_, hgl, ⟨o1, o3, o4⟩, rfl, fun e => o2 e.symm⟩
  · rintro ⟨J, e1, e2, e3, _⟩
    rw [← e3] at e2
    exact SubMap.owns_unique w1 _ _ _ ⟨o1, o3, o4⟩ e2

omit [Zero R] in
theorem dest_lt (q r : Nat) (hq : q ∈ w1.dest r) : q < w1.P := ((Scatterer.mem_dest w1 r q).mp hq).1

theorem sent_dest (h : TransOk w0 w1 A) (q r : Nat) (hq : q < w1.P) (x : Nat × Nat) (hx : x ∈ sent w1 A q r) :
    q ∈ w1.dest r := by
  rw [Scatterer.mem_dest]
  refine ⟨hq, ?_⟩
  obtain ⟨h1, h2⟩ := (mem_grp _ _ _ _).mp hx
  have := (sendPos_eq w1 A q (sendOk h q hq) x h1).1
  rwa [h2] at this

theorem mem_recv (h : TransOk w0 w1 A) (r : Nat) (e : Nat × Nat × List R) :
    e ∈ recvBuf w0 w1 bs0 bs1 A r ↔ ∃ q, q < w1.P ∧ ∃ x ∈ sent w1 A q r, e = sendRecord w0 w1 bs0 bs1 A q x := by
  rw [recvBuf_eq w0 w1 bs0 bs1 A r (fun q hq => sendOk h q hq)]
  simp only [List.mem_flatMap, List.mem_map]
  constructor
  · rintro ⟨q, hq, x, hx, rfl⟩
    exact ⟨q, dest_lt q r hq, x, hx, rfl⟩
  · rintro ⟨q, hq, x, hx, rfl⟩
    exact ⟨q, sent_dest h q r hq x hx, x, hx, rfl⟩

theorem fast_recv_nil (h : TransOk w0 w1 A) (r : Nat) (hr : r < w1.P) (hf : fast w1 r = true) :
    recvBuf w0 w1 bs0 bs1 A r = [] := by
  rw [List.eq_nil_iff_forall_not_mem]
  intro e he
  obtain ⟨q, hq, x, hx, _⟩ := (mem_recv bs0 bs1 h r e).mp he
  obtain ⟨_, J, _, _, _, hne⟩ := (sent_spec h q r hq x).mp hx
  have hd := sent_dest h q r hq x hx
  unfold fast at hf
  rw [Bool.or_eq_true, Bool.and_eq_true, decide_eq_true_eq, decide_eq_true_eq, decide_eq_true_eq] at hf
  rcases hf with hf | hf
  · omega
  · rw [hf.2] at hd; simp at hd

/-- The rows of the transpose and where each is split. -/
theorem transpose_rows (h : TransOk w0 w1 A) (r : Nat) (hr : r < w1.P) :
    RowsAre bs0 bs1 (transpose w0 w1 bs0 bs1 A r) (w1.size r) (outRow w0 w1 bs0 bs1 A r) ∧
    ∀ j, (transpose w0 w1 bs0 bs1 A r).offDiag j = (transpose w0 w1 bs0 bs1 A r).rowPtr j + (locRow (A r) j).length := by
  have hloc : ∀ x ∈ localItems (A r), (A r).cols x.2 < w1.size r := by
    intro x hx
    obtain ⟨h1, h2, h3⟩ := (mem_localItems _ _).mp hx
    exact (h.mat r hr).diag x.1 h1 x.2 h2 h3
  have hlen0 : ∀ j, at0Ptr (A r) (j + 1) - at0Ptr (A r) j = (locRow (A r) j).length := by
    intro j; rw [at0Ptr_eq, at0Ptr_eq, excl_succ]; omega
  unfold transpose
  by_cases hf : fast w1 r = true
  · rw [if_pos hf]
    have hnil := fast_recv_nil bs0 bs1 h r hr hf
    obtain ⟨hc, hv⟩ := localTranspose_spec bs0 bs1 (w1.size r) (A r) hloc
    have hout : ∀ j, outRow w0 w1 bs0 bs1 A r j = (locRow (A r) j).map (fun x => (x.1, locBlk bs0 bs1 (A r) x)) := by
      intro j; unfold outRow recRow; rw [hnil]; simp
    refine ⟨rowsAre_of bs0 bs1 _ _ _ _ rfl ?_ (fun p => rfl) ?_ ?_, ?_⟩
    · intro j _
      show at0Ptr (A r) j = _
      rw [at0Ptr_eq]
      apply excl_congr
      intro i _
      rw [hout]; simp
    · rw [hc]
      apply List.flatMap_congr
      intro j _
      rw [hout]; simp [Function.comp_def]
    · have : ((List.range (w1.size r)).flatMap fun j => (outRow w0 w1 bs0 bs1 A r j).map fun e => some e.2) =
          (List.range (w1.size r)).flatMap fun j => (locRow (A r) j).map (fun x => some (locBlk bs0 bs1 (A r) x)) := by
        apply List.flatMap_congr
        intro j _
        rw [hout]; simp [Function.comp_def]
      rw [this]
      exact hv
    · intro j
      show at0Ptr (A r) j + _ = _
      rw [hlen0]
  · rw [if_neg hf]
    refine ⟨slow_rows w0 w1 bs0 bs1 A r hloc ?_, ?_⟩
    · intro e he
      obtain ⟨q, hq, x, hx, rfl⟩ := (mem_recv bs0 bs1 h r e).mp he
      obtain ⟨_, J, _, ⟨_, o2, o3⟩, hJ, _⟩ := (sent_spec h q r hq x).mp hx
      show (w1.ghosts q).getD ((A q).cols x.2 - w1.size q) 0 - w1.r0 r < w1.size r
      rw [hJ]; omega
    · intro j
      show _ + (at0Ptr (A r) (j + 1) - at0Ptr (A r) j) = _
      rw [hlen0]; rfl

/-! ### The column map of the transpose -/

theorem mem_ghostPairs (h : TransOk w0 w1 A) (r : Nat) (g o : Nat) :
    (g, o) ∈ ghostPairs w0 w1 bs0 bs1 A r ↔ o < w1.P ∧ ∃ x ∈ sent w1 A o r, g = w0.r0 o + x.1 := by
  unfold ghostPairs
  rw [mem_unique, Shared.mem_lexSort, Transpose.pairs_eq w0 w1 bs0 bs1 A r (fun q hq => sendOk h q hq)]
  simp only [List.mem_flatMap, List.mem_map, Prod.mk.injEq]
  constructor
  · rintro ⟨q, hq, x, hx, rfl, rfl⟩
    exact ⟨dest_lt _ r hq, x, hx, rfl⟩
  · rintro ⟨ho, x, hx, rfl⟩
    exact ⟨o, sent_dest h o r ho x hx, x, hx, rfl, rfl⟩

theorem ghostPairs_owner (h : TransOk w0 w1 A) (r : Nat) (g o : Nat) (hm : (g, o) ∈ ghostPairs w0 w1 bs0 bs1 A r) :
    o < w1.P ∧ o ≠ r ∧ w0.r0 o ≤ g ∧ g < w0.r0 o + w0.size o := by
  obtain ⟨ho, x, hx, rfl⟩ := (mem_ghostPairs bs0 bs1 h r g o).mp hm
  obtain ⟨h1, J, _, _, _, hne⟩ := (sent_spec h o r ho x).mp hx
  have := ((mem_sendItems _ _).mp h1).1
  rw [h.nrows o ho] at this
  exact ⟨ho, hne, by omega, by omega⟩

theorem transPairs_sorted (h : TransOk w0 w1 A) (r : Nat) :
    ((ghostPairs w0 w1 bs0 bs1 A r).map Prod.fst).Pairwise (· < ·) := by
  have hmem : ∀ y, y ∈ ghostPairs w0 w1 bs0 bs1 A r ↔ y ∈ _ := fun y => mem_unique _ y
  unfold ghostPairs at *
  rw [← unique_map_inj]
  · apply unique_sorted
    rw [List.pairwise_map]
    exact Shared.lexSort_fst _
  · rintro ⟨g, o⟩ ha ⟨g', o'⟩ hb hgg
    simp only at hgg
    subst hgg
    have h1 := ghostPairs_owner bs0 bs1 h r g o ((hmem _).mpr ha)
    have h2 := ghostPairs_owner bs0 bs1 h r g o' ((hmem _).mpr hb)
    rw [range_unique w0 h1.2.2 h2.2.2]

theorem ghosts_sorted (h : TransOk w0 w1 A) (r : Nat) : ((colMap w0 w1 bs0 bs1 A).ghosts r).Pairwise (· < ·) := by
  show (if fast w1 r then [] else _ : List Nat).Pairwise _
  split
  · exact List.Pairwise.nil
  · exact transPairs_sorted bs0 bs1 h r

/-- C20: the column map of the transpose is a valid index map, with ghosts in increasing order. -/
theorem C20_col_map (h : TransOk w0 w1 A) : (colMap w0 w1 bs0 bs1 A).Valid := by
  refine ⟨?_, ?_, ?_⟩
  · intro r _
    show (if fast w1 r then [] else _ : List Nat).length = (if fast w1 r then [] else _ : List Nat).length
    split <;> simp
  · intro r _
    exact nodup_of_strict (ghosts_sorted bs0 bs1 h r)
  · intro r _ k q g hq hg
    change (if fast w1 r then [] else (ghostPairs w0 w1 bs0 bs1 A r).map Prod.snd)[k]? = some q at hq
    change (if fast w1 r then [] else (ghostPairs w0 w1 bs0 bs1 A r).map Prod.fst)[k]? = some g at hg
    by_cases hf : fast w1 r = true
    · rw [if_pos hf] at hq; simp at hq
    · rw [if_neg hf, List.getElem?_map] at hq hg
      cases hp : (ghostPairs w0 w1 bs0 bs1 A r)[k]? with
      | none => rw [hp] at hq; simp at hq
      | some p =>
        rw [hp] at hq hg
        cases hq; cases hg
        have := ghostPairs_owner bs0 bs1 h r p.1 p.2 (List.mem_of_getElem? hp)
        rw [← h.procs] at this
        exact this

/-- The local index of a received row. -/
theorem newCol_spec (h : TransOk w0 w1 A) (r : Nat) (hr : r < w1.P) (q : Nat) (hq : q < w1.P) (x : Nat × Nat)
    (hx : x ∈ sent w1 A q r) :
    ∃ k, newCol w0 w1 bs0 bs1 A r (sendRecord w0 w1 bs0 bs1 A q x) = w0.size r + k ∧
      ((colMap w0 w1 bs0 bs1 A).ghosts r)[k]? = some (w0.r0 q + x.1) := by
  have hm := (mem_ghostPairs bs0 bs1 h r (w0.r0 q + x.1) q).mpr ⟨hq, x, hx, rfl⟩
  have hnf : ¬ fast w1 r = true := by
    intro hf
    have := fast_recv_nil bs0 bs1 h r hr hf
    have hx' := (mem_recv bs0 bs1 h r _).mpr ⟨q, hq, x, hx, rfl⟩
    rw [this] at hx'; simp at hx'
  have hm' : w0.r0 q + x.1 ∈ (colMap w0 w1 bs0 bs1 A).ghosts r := by
    show _ ∈ (if fast w1 r then [] else _ : List Nat)
    rw [if_neg hnf]
    exact List.mem_map.mpr ⟨_, hm, rfl⟩
  obtain ⟨k, hk⟩ := List.mem_iff_getElem?.mp hm'
  refine ⟨k, ?_, hk⟩
  unfold newCol
  apply SubMap.globalToLocal_of _ (C20_col_map bs0 bs1 h) r (by show r < w0.P; rw [h.procs]; exact hr)
  unfold globalOf
  rw [if_neg (by show ¬ (w0.size r + k < w0.size r); omega)]
  rw [show w0.size r + k - (colMap w0 w1 bs0 bs1 A).size r = k from by show w0.size r + k - w0.size r = k; omega]
  exact hk

/-- Reading the transpose: the stored entries of rank `r`. -/
theorem has_out (h : TransOk w0 w1 A) (r : Nat) (hr : r < w1.P) (I J : Nat) (v : Nat → Nat → R) :
    HasEntry (rowMap w1) (colMap w0 w1 bs0 bs1 A) bs1 bs0 (transpose w0 w1 bs0 bs1 A) r J I (fun k1 k0 => v k0 k1) ↔
    ∃ j, j < w1.size r ∧ J = w1.r0 r + j ∧ ∃ e ∈ outRow w0 w1 bs0 bs1 A r j,
      globalOf (colMap w0 w1 bs0 bs1 A) r e.1 = some I ∧ ∀ k0 k1, k0 < bs0 → k1 < bs1 → v k0 k1 = e.2 (k0 * bs1 + k1) := by
  obtain ⟨hR, _⟩ := transpose_rows bs0 bs1 h r hr
  constructor
  · rintro ⟨j, p, hj, hJ, hp1, hp2, hg, hv⟩
    have hj : j < w1.size r := hj
    refine ⟨j, hj, hJ, ?_⟩
    have e1 := hR.ptr j (by omega)
    have e2 := hR.ptr (j + 1) (by omega)
    rw [excl_succ, ← e1] at e2
    obtain ⟨t, rfl⟩ := Nat.exists_eq_add_of_le hp1
    have ht : t < (outRow w0 w1 bs0 bs1 A r j).length := by omega
    refine ⟨(outRow w0 w1 bs0 bs1 A r j)[t], List.getElem_mem _, ?_, ?_⟩
    · rw [← hR.cols j hj t _ (List.getElem?_eq_getElem ht)]; exact hg
    · intro k0 k1 hk0 hk1
      rw [← hR.vals j hj t _ (List.getElem?_eq_getElem ht) k0 k1 hk0 hk1]
      exact hv k1 k0 hk1 hk0
  · rintro ⟨j, hj, hJ, e, he, hg, hv⟩
    have e1 := hR.ptr j (by omega)
    have e2 := hR.ptr (j + 1) (by omega)
    rw [excl_succ, ← e1] at e2
    obtain ⟨t, ht⟩ := List.mem_iff_getElem?.mp he
    have htl := (List.getElem?_eq_some_iff.mp ht).1
    refine ⟨j, _ + t, hj, hJ, Nat.le_add_right _ t, by omega, ?_, ?_⟩
    · rw [hR.cols j hj t e ht]; exact hg
    · intro k1 k0 hk1 hk0
      rw [hR.vals j hj t e ht k0 k1 hk0 hk1]
      exact hv k0 k1 hk0 hk1

/-- C20: rank `r` stores a block at (`J`, `I`) in the transpose exactly if `r` owns column `J` of `A` and
some rank stores the transposed block at (`I`, `J`) in `A`. -/
theorem C20_entry (h : TransOk w0 w1 A) (r : Nat) (hr : r < w1.P) (I J : Nat) (v : Nat → Nat → R) :
    HasEntry (rowMap w1) (colMap w0 w1 bs0 bs1 A) bs1 bs0 (transpose w0 w1 bs0 bs1 A) r J I (fun k1 k0 => v k0 k1) ↔
    Owns w1 r J ∧ ∃ q, q < w1.P ∧ HasEntry w0 w1 bs0 bs1 A q I J v := by
  rw [has_out bs0 bs1 h r hr]
  have hglob : ∀ i, i < w0.size r → globalOf (colMap w0 w1 bs0 bs1 A) r i = some (w0.r0 r + i) := by
    intro i hi
    unfold globalOf
    rw [if_pos (by exact hi)]; rfl
  have hgl2 : ∀ (k g : Nat), ((colMap w0 w1 bs0 bs1 A).ghosts r)[k]? = some g →
      globalOf (colMap w0 w1 bs0 bs1 A) r (w0.size r + k) = some g := by
    intro k g hk
    unfold globalOf
    rw [if_neg (by show ¬ (w0.size r + k < w0.size r); omega)]
    rw [show w0.size r + k - (colMap w0 w1 bs0 bs1 A).size r = k from by show w0.size r + k - w0.size r = k; omega]
    exact hk
  have hblk : ∀ (q k : Nat) (k0 k1 : Nat), k0 < bs0 → k1 < bs1 →
      ((List.range (bs0 * bs1)).map fun c => (A q).values (k * (bs0 * bs1) + c)).getD (k0 * bs1 + k1) 0 =
      (A q).values (k * bs0 * bs1 + k0 * bs1 + k1) := by
    intro q k k0 k1 hk0 hk1
    have hlt : k0 * bs1 + k1 < bs0 * bs1 := by
      have : (k0 + 1) * bs1 ≤ bs0 * bs1 := Nat.mul_le_mul_right _ hk0
      rw [Nat.add_mul] at this; omega
    rw [List.getD_eq_getElem?_getD, List.getElem?_map, List.getElem?_range hlt]
    show (A q).values _ = _
    congr 1
    ring
  constructor
  · rintro ⟨j, hj, rfl, e, he, hg, hv⟩
    refine ⟨⟨hr, by omega, by omega⟩, ?_⟩
    rcases List.mem_append.mp he with he | he
    · obtain ⟨x, hx, rfl⟩ := List.mem_map.mp he
      obtain ⟨hx1, hx2⟩ := List.mem_filter.mp hx
      obtain ⟨m1, m2, m3⟩ := (mem_localItems _ _).mp hx1
      have hc : (A r).cols x.2 = j := by simpa using hx2
      have hsp := (h.mat r hr).split x.1 m1
      have hs : x.1 < w0.size r := by rw [← h.nrows r hr]; exact m1
      have hI := (hglob x.1 hs).symm.trans hg
      cases hI
      refine ⟨r, hr, x.1, x.2, hs, rfl, m2, by omega, ?_, ?_⟩
      · unfold globalOf; rw [hc, if_pos hj]
      · intro k0 k1 hk0 hk1
        rw [hv k0 k1 hk0 hk1]
        show (A r).values _ = _
        congr 1
        ring
    · obtain ⟨rec, hrec, rfl⟩ := List.mem_map.mp he
      obtain ⟨hr1, hr2⟩ := List.mem_filter.mp hrec
      obtain ⟨q, hq, x, hx, rfl⟩ := (mem_recv bs0 bs1 h r rec).mp hr1
      obtain ⟨s1, J', s2, s3, s4, s5⟩ := (sent_spec h q r hq x).mp hx
      obtain ⟨m1, m2, m3⟩ := (mem_sendItems _ _).mp s1
      have hj' : (w1.ghosts q).getD ((A q).cols x.2 - w1.size q) 0 - w1.r0 r = j := by simpa [sendRecord] using hr2
      rw [s4] at hj'
      have hJ : J' = w1.r0 r + j := by have := s3.2; omega
      obtain ⟨k, hk1, hk2⟩ := newCol_spec bs0 bs1 h r hr q hq x hx
      simp only at hg
      rw [hk1, hgl2 k _ hk2] at hg
      cases hg
      have hsp := (h.mat q hq).split x.1 m1
      refine ⟨q, hq, x.1, x.2, by rw [← h.nrows q hq]; exact m1, rfl, by omega, m3, by rw [s2, hJ], ?_⟩
      intro k0 k1 hk0 hk1
      rw [hv k0 k1 hk0 hk1]
      exact hblk q x.2 k0 k1 hk0 hk1
  · rintro ⟨⟨_, o1, o2⟩, q, hq, i, k, hi, rfl, hk1, hk2, hg, hv⟩
    refine ⟨J - w1.r0 r, by omega, by omega, ?_⟩
    have hn : i < (A q).nrows := by rw [h.nrows q hq]; exact hi
    by_cases hko : k < (A q).offDiag i
    · have hcol := (h.mat q hq).diag i hn k hk1 hko
      unfold globalOf at hg
      rw [if_pos hcol] at hg
      have hqr : q = r := range_unique w1 (g := J) (by
        have := Option.some.inj hg; omega) ⟨o1, o2⟩
      subst hqr
      refine ⟨(i, locBlk bs0 bs1 (A q) (i, k)), ?_, hglob i hi, ?_⟩
      · apply List.mem_append_left
        refine List.mem_map.mpr ⟨(i, k), ?_, rfl⟩
        refine List.mem_filter.mpr ⟨(mem_localItems _ _).mpr ⟨hn, hk1, hko⟩, ?_⟩
        simp at hg ⊢
        omega
      · intro k0 k1 hk0 hk1
        rw [hv k0 k1 hk0 hk1]
        show _ = (A q).values _
        congr 1
        ring
    · have hmem : (i, k) ∈ sendItems (A q) := (mem_sendItems _ _).mpr ⟨hn, Nat.le_of_not_lt hko, hk2⟩
      have hcol := (h.mat q hq).off i hn k (by omega) hk2
      have hgg : (w1.ghosts q).getD ((A q).cols k - w1.size q) 0 = J := by
        unfold globalOf at hg
        rw [if_neg (by omega)] at hg
        rw [List.getD_eq_getElem?_getD, hg]; rfl
      have hqr : q ≠ r := by
        intro e
        have ho := (globalOf_owned w1 h.valid q _ J hq hg).mp ⟨hq, by rw [e]; exact ⟨o1, o2⟩⟩
        omega
      have hs : (i, k) ∈ sent w1 A q r := (sent_spec h q r hq (i, k)).mpr ⟨hmem, J, hg, ⟨hr, o1, o2⟩, hgg, hqr⟩
      obtain ⟨c, hc1, hc2⟩ := newCol_spec bs0 bs1 h r hr q hq (i, k) hs
      refine ⟨(newCol w0 w1 bs0 bs1 A r (sendRecord w0 w1 bs0 bs1 A q (i, k)), _), List.mem_append_right _ (List.mem_map.mpr
        ⟨sendRecord w0 w1 bs0 bs1 A q (i, k), List.mem_filter.mpr ⟨(mem_recv bs0 bs1 h r _).mpr ⟨q, hq, _, hs, rfl⟩, ?_⟩, rfl⟩), ?_, ?_⟩
      · simp only [sendRecord, hgg, beq_self_eq_true]
      · show globalOf _ r (newCol _ _ _ _ _ _ _) = _
        rw [hc1]; exact hgl2 c _ hc2
      · intro k0 k1 hk0 hk1
        rw [hv k0 k1 hk0 hk1]
        exact (hblk q k k0 k1 hk0 hk1).symm

/-- C20: the transpose meets the requirements again. -/
theorem C20_layout (h : TransOk w0 w1 A) :
    TransOk (rowMap w1) (colMap w0 w1 bs0 bs1 A) (transpose w0 w1 bs0 bs1 A) := by
  have hP : (colMap w0 w1 bs0 bs1 A).P = w1.P := h.procs
  refine ⟨C20_col_map bs0 bs1 h, h.procs.symm, ?_, ?_⟩
  · intro r hr
    rw [hP] at hr
    obtain ⟨hR, hO⟩ := transpose_rows bs0 bs1 h r hr
    have hn : ∀ j, j < (transpose w0 w1 bs0 bs1 A r).nrows → j < w1.size r := fun j hj => by rw [hR.nrows] at hj; exact hj
    have hnext : ∀ j, j < w1.size r → (transpose w0 w1 bs0 bs1 A r).rowPtr (j + 1) =
        (transpose w0 w1 bs0 bs1 A r).rowPtr j + (outRow w0 w1 bs0 bs1 A r j).length := by
      intro j hj
      rw [hR.ptr j (by omega), hR.ptr (j + 1) (by omega), excl_succ]
    have hol : ∀ j, (outRow w0 w1 bs0 bs1 A r j).length = (locRow (A r) j).length + (recRow w0 w1 bs0 bs1 A r j).length := by
      intro j; simp [outRow]
    refine ⟨?_, ?_, ?_⟩
    · intro j hj
      rw [hO, hnext j (hn j hj), hol]; omega
    · intro j hj p hp1 hp2
      rw [hO] at hp2
      obtain ⟨t, rfl⟩ := Nat.exists_eq_add_of_le hp1
      have ht : t < (locRow (A r) j).length := by omega
      have he : (outRow w0 w1 bs0 bs1 A r j)[t]? = some ((locRow (A r) j)[t].1, locBlk bs0 bs1 (A r) (locRow (A r) j)[t]) := by
        unfold outRow
        rw [List.getElem?_append_left (by simpa using ht), List.getElem?_map, List.getElem?_eq_getElem ht]; rfl
      rw [hR.cols j (hn j hj) t _ he]
      have hm := (List.mem_filter.mp (List.getElem_mem ht)).1
      have := ((mem_localItems _ _).mp hm).1
      rw [h.nrows r hr] at this
      exact this
    · intro j hj p hp1 hp2
      rw [hO] at hp1
      rw [hnext j (hn j hj), hol] at hp2
      obtain ⟨t, rfl⟩ := Nat.exists_eq_add_of_le hp1
      have ht : t < (recRow w0 w1 bs0 bs1 A r j).length := by omega
      have he : (outRow w0 w1 bs0 bs1 A r j)[(locRow (A r) j).length + t]? =
          some (newCol w0 w1 bs0 bs1 A r (recRow w0 w1 bs0 bs1 A r j)[t], fun c => (recRow w0 w1 bs0 bs1 A r j)[t].2.2.getD c 0) := by
        unfold outRow
        rw [List.getElem?_append_right (by simp), List.getElem?_map]
        simp [ht]
      rw [Nat.add_assoc, hR.cols j (hn j hj) _ _ he]
      have hm := (List.mem_filter.mp (List.getElem_mem ht)).1
      obtain ⟨q, hq, x, hx, hrec⟩ := (mem_recv bs0 bs1 h r _).mp hm
      obtain ⟨k, hk1, hk2⟩ := newCol_spec bs0 bs1 h r hr q hq x hx
      have hkl := (List.getElem?_eq_some_iff.mp hk2).1
      rw [hrec]
      simp only []
      rw [hk1]
      exact ⟨Nat.le_add_right _ k, Nat.add_lt_add_left hkl _⟩
  · intro r hr
    rw [hP] at hr
    exact (transpose_rows bs0 bs1 h r hr).1.nrows

/-- C20: transposing twice gives back exactly the stored entries. -/
theorem C20_twice (h : TransOk w0 w1 A) (r : Nat) (hr : r < w1.P) (I J : Nat) (v : Nat → Nat → R) :
    HasEntry (rowMap (colMap w0 w1 bs0 bs1 A))
      (colMap (rowMap w1) (colMap w0 w1 bs0 bs1 A) bs1 bs0 (transpose w0 w1 bs0 bs1 A)) bs0 bs1
      (transpose (rowMap w1) (colMap w0 w1 bs0 bs1 A) bs1 bs0 (transpose w0 w1 bs0 bs1 A)) r I J v ↔
    HasEntry w0 w1 bs0 bs1 A r I J v := by
  have hP : (colMap w0 w1 bs0 bs1 A).P = w1.P := h.procs
  have := C20_entry bs1 bs0 (C20_layout bs0 bs1 h) r (by rw [hP]; exact hr) J I (fun k1 k0 => v k0 k1)
  rw [show (fun k1 k0 => (fun k1 k0 => v k0 k1) k0 k1) = v from rfl] at this
  rw [this]
  constructor
  · rintro ⟨⟨_, o1, o2⟩, q, hq, hE⟩
    rw [hP] at hq
    obtain ⟨_, q', hq', hE'⟩ := (C20_entry bs0 bs1 h q hq I J v).mp hE
    have he : q' = r := by
      obtain ⟨i, k, hi, rfl, _⟩ := hE'
      exact range_unique w0 ⟨by omega, by omega⟩ ⟨o1, o2⟩
    rw [← he]; exact hE'
  · intro hE
    have hE0 := hE
    obtain ⟨i, k, hi, rfl, hk1, hk2, hg, hv⟩ := hE
    obtain ⟨p, hp⟩ := SubMap.owns_of_globalOf w1 h.valid r hr _ _ hg
    refine ⟨⟨by rw [hP]; exact hr, ?_, ?_⟩, p, by rw [hP]; exact hp.1, ?_⟩
    · exact Nat.le_add_right _ i
    · exact Nat.add_lt_add_left hi _
    · exact (C20_entry bs0 bs1 h p hp.1 _ J v).mpr ⟨hp, r, hr, hE0⟩

/-! ### Order -/

omit [Zero R] in
theorem items_order (n : Nat) (lo hi : Nat → Nat) :
    ((List.range n).flatMap fun i => (List.range (hi i - lo i)).map fun t => (i, lo i + t)).Pairwise
      (fun x y : Nat × Nat => x.1 < y.1 ∨ (x.1 = y.1 ∧ x.2 < y.2)) := by
  rw [List.pairwise_flatMap]
  constructor
  · intro i _
    rw [List.pairwise_map]
    exact List.pairwise_lt_range.imp (fun h => Or.inr ⟨rfl, by simp only; omega⟩)
  · refine List.pairwise_lt_range.imp ?_
    intro i j hij x hx y hy
    obtain ⟨_, _, rfl⟩ := List.mem_map.mp hx
    obtain ⟨_, _, rfl⟩ := List.mem_map.mp hy
    exact Or.inl hij

omit [Zero R] in
theorem pairwise_mem_imp {α : Type} {P Q : α → α → Prop} (l : List α) (hl : l.Pairwise P)
    (h : ∀ a ∈ l, ∀ b ∈ l, P a b → Q a b) : l.Pairwise Q := by
  rw [List.pairwise_iff_getElem] at hl ⊢
  intro i j hi hj hij
  exact h _ (List.getElem_mem _) _ (List.getElem_mem _) (hl i j hi hj hij)

omit [Zero R] in
theorem locRow_order (M : Mat R) (hs : ∀ i, i < M.nrows → M.offDiag i ≤ M.rowPtr (i + 1)) (hd : DistinctCols M) (j : Nat) :
    (locRow M j).Pairwise (fun x y => x.1 < y.1) := by
  have h1 : (locRow M j).Pairwise _ := (items_order M.nrows M.rowPtr M.offDiag).filter (fun x => M.cols x.2 == j)
  refine pairwise_mem_imp _ h1 ?_
  intro x hx y hy hxy
  rcases hxy with hxy | ⟨e, hlt⟩
  · exact hxy
  · exfalso
    obtain ⟨x1, x2⟩ := List.mem_filter.mp hx
    obtain ⟨y1, y2⟩ := List.mem_filter.mp hy
    obtain ⟨a1, a2, a3⟩ := (mem_localItems _ _).mp x1
    obtain ⟨b1, b2, b3⟩ := (mem_localItems _ _).mp y1
    rw [← e] at b3
    have := hs x.1 a1
    refine hd x.1 a1 x.2 y.2 a2 hlt (by omega) ?_
    simp only [beq_iff_eq] at x2 y2
    rw [x2, y2]

theorem ghost_pos_lt (h : TransOk w0 w1 A) (r k k' g g' : Nat) (hk : ((colMap w0 w1 bs0 bs1 A).ghosts r)[k]? = some g)
    (hk' : ((colMap w0 w1 bs0 bs1 A).ghosts r)[k']? = some g') (hlt : g < g') : k < k' := by
  by_contra hn
  have hs := ghosts_sorted bs0 bs1 h r
  rw [List.pairwise_iff_getElem] at hs
  obtain ⟨l1, e1⟩ := List.getElem?_eq_some_iff.mp hk
  obtain ⟨l2, e2⟩ := List.getElem?_eq_some_iff.mp hk'
  rcases Nat.lt_or_ge k' k with hc | hc
  · have := hs k' k l2 l1 hc
    omega
  · have : k = k' := by omega
    subst this
    rw [e1] at e2; omega

omit [Zero R] in
theorem sent_order (h : TransOk w0 w1 A) (q r : Nat) (hq : q < w1.P) (hd : DistinctCols (A q)) (J : Nat) :
    ((sent w1 A q r).filter fun x => (w1.ghosts q).getD ((A q).cols x.2 - w1.size q) 0 == J).Pairwise
      (fun x y => x.1 < y.1) := by
  have h1 : ((sent w1 A q r).filter fun x => (w1.ghosts q).getD ((A q).cols x.2 - w1.size q) 0 == J).Pairwise _ :=
    ((items_order (A q).nrows (A q).offDiag fun i => (A q).rowPtr (i + 1)).filter
      (fun x => decide (ownerOf w1 A q x = r))).filter _
  refine pairwise_mem_imp _ h1 ?_
  intro x hx y hy hxy
  rcases hxy with hxy | ⟨e, hlt⟩
  · exact hxy
  · exfalso
    obtain ⟨x1, x2⟩ := List.mem_filter.mp hx
    obtain ⟨y1, y2⟩ := List.mem_filter.mp hy
    obtain ⟨x3, Jx, gx, _, kx, _⟩ := (sent_spec h q r hq x).mp x1
    obtain ⟨y3, Jy, gy, _, ky, _⟩ := (sent_spec h q r hq y).mp y1
    obtain ⟨a1, a2, a3⟩ := (mem_sendItems _ _).mp x3
    obtain ⟨b1, b2, b3⟩ := (mem_sendItems _ _).mp y3
    simp only [beq_iff_eq] at x2 y2
    rw [← e] at b3
    have := ((h.mat q hq).split x.1 a1).1
    refine hd x.1 a1 x.2 y.2 (by omega) hlt b3 ?_
    rw [← kx, x2] at gx
    rw [← ky, y2] at gy
    exact SubMap.globalOf_inj w1 h.valid q hq _ _ _ gx gy

theorem recRow_order (h : TransOk w0 w1 A) (r : Nat) (hr : r < w1.P) (hd : ∀ q, q < w1.P → DistinctCols (A q)) (j : Nat) :
    ((recRow w0 w1 bs0 bs1 A r j).map (newCol w0 w1 bs0 bs1 A r)).Pairwise (· < ·) := by
  unfold recRow
  rw [recvBuf_eq w0 w1 bs0 bs1 A r (fun q hq => sendOk h q hq), List.filter_flatMap, List.map_flatMap, List.pairwise_flatMap]
  have hcol : ∀ q ∈ w1.dest r, ∀ q' ∈ w1.dest r, ∀ x ∈ sent w1 A q r, ∀ y ∈ sent w1 A q' r,
      w0.r0 q + x.1 < w0.r0 q' + y.1 → newCol w0 w1 bs0 bs1 A r (sendRecord w0 w1 bs0 bs1 A q x) <
        newCol w0 w1 bs0 bs1 A r (sendRecord w0 w1 bs0 bs1 A q' y) := by
    intro q hq q' hq' x hx y hy hlt
    obtain ⟨k, e1, e2⟩ := newCol_spec bs0 bs1 h r hr q (dest_lt q r hq) x hx
    obtain ⟨k', e1', e2'⟩ := newCol_spec bs0 bs1 h r hr q' (dest_lt q' r hq') y hy
    rw [e1, e1']
    have := ghost_pos_lt bs0 bs1 h r k k' _ _ e2 e2' hlt
    omega
  constructor
  · intro q hq
    rw [List.filter_map, List.map_map, List.pairwise_map]
    have hqP := dest_lt q r hq
    have h1 := sent_order h q r hqP (hd q hqP) (w1.r0 r + j)
    have hfil : (sent w1 A q r).filter ((fun e : Nat × Nat × List R => e.2.1 - w1.r0 r == j) ∘ sendRecord w0 w1 bs0 bs1 A q) =
        (sent w1 A q r).filter fun x => (w1.ghosts q).getD ((A q).cols x.2 - w1.size q) 0 == w1.r0 r + j := by
      apply List.filter_congr
      intro x hx
      obtain ⟨_, J, _, ho, e, _⟩ := (sent_spec h q r hqP x).mp hx
      have := ho.2.1
      simp only [Function.comp, sendRecord, e]
      rw [Bool.eq_iff_iff]
      simp only [beq_iff_eq]
      omega
    rw [hfil]
    refine pairwise_mem_imp _ h1 ?_
    intro x hx y hy hxy
    exact hcol q hq q hq x (List.mem_filter.mp hx).1 y (List.mem_filter.mp hy).1 (by omega)
  · have hsorted : (w1.dest r).Pairwise (· < ·) := List.pairwise_lt_range.filter _
    refine pairwise_mem_imp _ hsorted ?_
    intro q hq q' hq' hlt a ha b hb
    obtain ⟨ea, hea, rfl⟩ := List.mem_map.mp ha
    obtain ⟨eb, heb, rfl⟩ := List.mem_map.mp hb
    obtain ⟨x, hx, rfl⟩ := List.mem_map.mp (List.mem_filter.mp hea).1
    obtain ⟨y, hy, rfl⟩ := List.mem_map.mp (List.mem_filter.mp heb).1
    apply hcol q hq q' hq' x hx y hy
    have hqP := dest_lt q r hq
    have hx1 := ((mem_sendItems _ _).mp ((sent_spec h q r hqP x).mp hx).1).1
    rw [h.nrows q hqP] at hx1
    have : w0.r0 q + w0.size q ≤ w0.r0 q' := by
      unfold World.r0
      rw [← excl_succ]
      exact excl_mono _ (by omega)
    omega

/-- C20: if no row of `A` stores a column twice, the columns of every row of the transpose increase strictly. -/
theorem C20_sorted (h : TransOk w0 w1 A) (hd : ∀ q, q < w1.P → DistinctCols (A q)) (r : Nat) (hr : r < w1.P) :
    SortedRows (transpose w0 w1 bs0 bs1 A r) := by
  obtain ⟨hR, _⟩ := transpose_rows bs0 bs1 h r hr
  intro j hj k k' hk hkk hk'
  rw [hR.nrows] at hj
  have e1 := hR.ptr j (by omega)
  have e2 := hR.ptr (j + 1) (by omega)
  rw [excl_succ, ← e1] at e2
  obtain ⟨t, rfl⟩ := Nat.exists_eq_add_of_le hk
  obtain ⟨t', rfl⟩ := Nat.exists_eq_add_of_le (show (transpose w0 w1 bs0 bs1 A r).rowPtr j ≤ k' by omega)
  have ht' : t' < (outRow w0 w1 bs0 bs1 A r j).length := by omega
  have ht : t < (outRow w0 w1 bs0 bs1 A r j).length := by omega
  rw [hR.cols j hj t _ (List.getElem?_eq_getElem ht), hR.cols j hj t' _ (List.getElem?_eq_getElem ht')]
  have hpw : (outRow w0 w1 bs0 bs1 A r j).Pairwise (fun a b => a.1 < b.1) := by
    unfold outRow
    rw [List.pairwise_append]
    refine ⟨?_, ?_, ?_⟩
    · rw [List.pairwise_map]
      exact locRow_order _ (fun i hi => ((h.mat r hr).split i hi).2) (hd r hr) j
    · have := recRow_order bs0 bs1 h r hr hd j
      rw [List.pairwise_map] at this ⊢
      exact this
    · intro a ha b hb
      obtain ⟨x, hx, rfl⟩ := List.mem_map.mp ha
      obtain ⟨e, he, rfl⟩ := List.mem_map.mp hb
      have hx1 := ((mem_localItems _ _).mp (List.mem_filter.mp hx).1).1
      rw [h.nrows r hr] at hx1
      obtain ⟨q, hq, y, hy, rfl⟩ := (mem_recv bs0 bs1 h r e).mp (List.mem_filter.mp he).1
      obtain ⟨c, hc, _⟩ := newCol_spec bs0 bs1 h r hr q hq y hy
      simp only
      omega
  rw [List.pairwise_iff_getElem] at hpw
  exact hpw t t' ht ht' (by omega)

end

/-! ### A case with two ranks -/

/-- Rank 0 owns columns 0, 1 and ghosts 2; rank 1 owns columns 2, 3 and ghosts 0. -/
def trW : World := ⟨2, fun r => if r < 2 then 2 else 0, fun r => if r = 0 then [2] else if r = 1 then [0] else [],
  fun r => if r = 0 then [1] else if r = 1 then [0] else []⟩

/-- Rank 0 has rows {0, 2}, {1}; rank 1 has rows {2, 0}, {3, 0} (global columns). -/
def trA : Nat → Mat Int
  | 0 => ⟨2, fun i => [0, 2, 3].getD i 0, fun i => [1, 3].getD i 0, fun k => [0, 2, 1].getD k 0, fun k => (k : Int) + 5⟩
  | _ => ⟨2, fun i => [0, 2, 4].getD i 0, fun i => [1, 3].getD i 0, fun k => [0, 2, 1, 2].getD k 0, fun k => (k : Int) + 20⟩

theorem trW_valid : trW.Valid := by
  refine ⟨?_, ?_, ?_⟩
  · intro r hr
    have : r < 2 := hr
    interval_cases r <;> rfl
  · intro r hr
    have : r < 2 := hr
    interval_cases r <;> decide
  · intro r hr k q g hq hg
    have : r < 2 := hr
    interval_cases r <;> cases k <;> simp [trW] at hq hg <;> subst hq <;> subst hg <;> decide

theorem trA_ok : TransOk trW trW trA := by
  refine ⟨trW_valid, rfl, ?_, ?_⟩
  · intro q hq
    have : q < 2 := hq
    interval_cases q
    · refine ⟨?_, ?_, ?_⟩ <;> intro i hi <;> have hi2 : i < 2 := hi <;> interval_cases i
      · decide
      · decide
      · intro j h1 h2; have h3 : j < 1 := h2; interval_cases j; decide
      · intro j h1 h2; have h3 : j < 3 := h2; have h4 : 2 ≤ j := h1; interval_cases j; decide
      · intro j h1 h2; have h3 : j < 2 := h2; have h4 : 1 ≤ j := h1; interval_cases j; decide
      · intro j h1 h2; have h3 : j < 3 := h2; have h4 : 3 ≤ j := h1; omega
    · refine ⟨?_, ?_, ?_⟩ <;> intro i hi <;> have hi2 : i < 2 := hi <;> interval_cases i
      · decide
      · decide
      · intro j h1 h2; have h3 : j < 1 := h2; interval_cases j; decide
      · intro j h1 h2; have h3 : j < 3 := h2; have h4 : 2 ≤ j := h1; interval_cases j; decide
      · intro j h1 h2; have h3 : j < 2 := h2; have h4 : 1 ≤ j := h1; interval_cases j; decide
      · intro j h1 h2; have h3 : j < 4 := h2; have h4 : 3 ≤ j := h1; interval_cases j; decide
  · intro q hq
    have : q < 2 := hq
    interval_cases q <;> rfl

theorem trA_distinct : ∀ q, q < trW.P → DistinctCols (trA q) := by
  intro q hq
  have : q < 2 := hq
  interval_cases q
  · intro i hi k k' h1 h2 h3
    have hi2 : i < 2 := hi
    interval_cases i
    · have : k' < 2 := h3
      have : k = 0 := by omega
      have : k' = 1 := by omega
      subst_vars
      decide
    · have : k' < 3 := h3
      have : 2 ≤ k := h1
      omega
  · intro i hi k k' h1 h2 h3
    have hi2 : i < 2 := hi
    interval_cases i
    · have : k' < 2 := h3
      have : k = 0 := by omega
      have : k' = 1 := by omega
      subst_vars
      decide
    · have : k' < 4 := h3
      have : 2 ≤ k := h1
      have : k = 2 := by omega
      have : k' = 3 := by omega
      subst_vars
      decide

/-- Rank 0 of the transpose stores row 0 = {(0, 5), (2, 21), (3, 23)} and row 1 = {(1, 7)}. -/
example : (colMap trW trW 1 1 trA).ghosts 0 = [2, 3] ∧
    (List.range 4).map (fun k => ((transpose trW trW 1 1 trA 0).cols k, (transpose trW trW 1 1 trA 0).values k)) =
      [(0, 5), (2, 21), (3, 23), (1, 7)] := by decide +kernel

example : SortedRows (transpose trW trW 1 1 trA 0) := C20_sorted 1 1 trA_ok trA_distinct 0 (by decide)

example : HasEntry (rowMap trW) (colMap trW trW 1 1 trA) 1 1 (transpose trW trW 1 1 trA) 0 0 3 (fun _ _ => 23) :=
  (C20_entry 1 1 trA_ok 0 (by decide) 3 0 (fun _ _ => 23)).mpr ⟨⟨by decide, by decide, by decide⟩, 1, by decide, 1, 3, by decide, by decide, by decide,
    by decide, by decide, by intro k0 k1 h0 h1; have : k0 = 0 := by omega
                             have : k1 = 0 := by omega
                             subst_vars; decide⟩

end Verif.Props
