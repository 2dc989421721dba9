import Verif.Lemmas.AssemblyMatrix
import Verif.Props.C29_SubMap
/-! The assembled matrix of one rank in global indices. -/
namespace Verif.Assembly
open Verif.Spec.Assemble Verif.Spec Verif.World Finset

variable {R : Type} [CommRing R]

/-- The part of `globalOp` of one rank. -/
def rankOp (w0 w1 : World) (bs0 bs1 q : Nat) (es : List (Elem R)) (I k J l : Nat) : R :=
  (es.map fun e => ∑ a ∈ range e.rows.length, ∑ b ∈ range e.cols.length,
    if (e.rows[a]?).bind (globalOf w0 q) = some I ∧ (e.cols[b]?).bind (globalOf w1 q) = some J
    then e.val (bs0 * a + k) (bs1 * b + l) else 0).sum

theorem globalOp_eq (w0 w1 : World) (bs0 bs1 : Nat) (es : Nat → List (Elem R)) (I k J l : Nat) :
    globalOp w0 w1 bs0 bs1 es I k J l = ∑ q ∈ range w0.P, rankOp w0 w1 bs0 bs1 q (es q) I k J l := rfl

theorem bind_iff (w : World) (hw : w.Valid) (q : Nat) (hq : q < w.P) (x : Option Nat) (i I : Nat) (hi : globalOf w q i = some I) :
    x.bind (globalOf w q) = some I ↔ x = some i := by
  constructor
  · intro h
    obtain ⟨y, hy, h⟩ := Option.bind_eq_some_iff.mp h
    rw [hy, SubMap.globalOf_inj w hw q hq y i I h hi]
  · rintro rfl; exact hi

theorem rankOp_local (w0 w1 : World) (hw0 : w0.Valid) (hw1 : w1.Valid) (bs0 bs1 q : Nat) (hq0 : q < w0.P) (hq1 : q < w1.P)
    (es : List (Elem R)) (I k J l i j : Nat) (hi : globalOf w0 q i = some I) (hj : globalOf w1 q j = some J) :
    rankOp w0 w1 bs0 bs1 q es I k J l = localOp bs0 bs1 es i k j l := by
  unfold rankOp localOp Elem.entry
  simp only [bind_iff w0 hw0 q hq0 _ i I hi, bind_iff w1 hw1 q hq1 _ j J hj]

theorem rankOp_zero (w0 w1 : World) (bs0 bs1 q : Nat) (es : List (Elem R)) (I k J l : Nat)
    (h : ¬ ∃ e ∈ es, ∃ i ∈ e.rows, ∃ j ∈ e.cols, globalOf w0 q i = some I ∧ globalOf w1 q j = some J) :
    rankOp w0 w1 bs0 bs1 q es I k J l = 0 := by
  unfold rankOp
  apply List.sum_eq_zero
  intro x hx
  obtain ⟨e, he, rfl⟩ := List.mem_map.mp hx
  apply sum_eq_zero
  intro a _
  apply sum_eq_zero
  intro b _
  rw [if_neg]
  rintro ⟨h1, h2⟩
  obtain ⟨i, hi, h1⟩ := Option.bind_eq_some_iff.mp h1
  obtain ⟨j, hj, h2⟩ := Option.bind_eq_some_iff.mp h2
  exact h ⟨e, he, i, List.mem_of_getElem? hi, j, List.mem_of_getElem? hj, h1, h2⟩

theorem localOp_zero (bs0 bs1 : Nat) (es : List (Elem R)) (i k j l : Nat)
    (h : ¬ ∃ e ∈ es, i ∈ e.rows ∧ j ∈ e.cols) : localOp bs0 bs1 es i k j l = 0 := by
  unfold localOp
  apply List.sum_eq_zero
  intro x hx
  obtain ⟨e, he, rfl⟩ := List.mem_map.mp hx
  apply entry_zero
  intro a b ha hb
  exact absurd ⟨e, he, List.mem_of_getElem? ha, List.mem_of_getElem? hb⟩ h

/-- What a rank stores for a global entry, given the values of its stored entries. -/
theorem localEntry_eq (w0 w1 : World) (hw0 : w0.Valid) (hw1 : w1.Valid) (q : Nat) (hq0 : q < w0.P) (hq1 : q < w1.P)
    (rowPtr : Nat → Nat → Nat) (cols : Nat → List Nat) (bs0 bs1 : Nat) (data : Nat → Nat → R)
    (hP : PatternOk ⟨rowPtr q, cols q⟩ (w0.size q + (w0.ghosts q).length))
    (V : Nat → Nat → Nat → Nat → R)
    (hV : ∀ i k j l p, i < w0.size q + (w0.ghosts q).length → k < bs0 → l < bs1 →
      Stored ⟨rowPtr q, cols q⟩ bs0 bs1 (bs0 * i + k) (bs1 * j + l) p → data q p = V i k j l)
    (I k J l : Nat) (hk : k < bs0) (hl : l < bs1) :
    (∀ i j, globalOf w0 q i = some I → globalOf w1 q j = some J → j ∈ (Csr.Pattern.mk (rowPtr q) (cols q)).row i →
      localEntry w0 w1 rowPtr cols (bs0 * bs1) data q I J (k * bs1 + l) = V i k j l) ∧
    ((¬ ∃ i j, globalOf w0 q i = some I ∧ globalOf w1 q j = some J ∧ j ∈ (Csr.Pattern.mk (rowPtr q) (cols q)).row i) →
      localEntry w0 w1 rowPtr cols (bs0 * bs1) data q I J (k * bs1 + l) = 0) := by
  have hcol : ∀ i t, i < w0.size q + (w0.ghosts q).length → t < rowPtr q (i + 1) - rowPtr q i →
      (cols q)[rowPtr q i + t]? = some ((cols q).getD (rowPtr q i + t) 0) ∧
      ((Csr.Pattern.mk (rowPtr q) (cols q)).row i)[t]? = some ((cols q).getD (rowPtr q i + t) 0) := by
    intro i t hi ht
    have hb : rowPtr q (i + 1) ≤ (cols q).length := by
      have hmono : ∀ n, i + 1 + n ≤ w0.size q + (w0.ghosts q).length → rowPtr q (i + 1) ≤ rowPtr q (i + 1 + n) := by
        intro n
        induction n with
        | zero => intro _; exact le_rfl
        | succ n ih => intro h; exact le_trans (ih (by omega)) (hP.mono (i + 1 + n) (by omega))
      have := hmono (w0.size q + (w0.ghosts q).length - (i + 1)) (by omega)
      rw [show i + 1 + (w0.size q + (w0.ghosts q).length - (i + 1)) = w0.size q + (w0.ghosts q).length by omega] at this
      exact le_trans this hP.bound
    have hlt : rowPtr q i + t < (cols q).length := by omega
    have h1 : (cols q)[rowPtr q i + t]? = some ((cols q).getD (rowPtr q i + t) 0) := by
      rw [List.getD_eq_getElem?_getD, List.getElem?_eq_getElem hlt]; rfl
    refine ⟨h1, ?_⟩
    unfold Csr.Pattern.row
    rw [List.getElem?_take, if_pos ht, List.getElem?_drop]
    exact h1
  constructor
  · intro i j hi hj hmem
    have hil := SubMap.globalOf_lt w0 q i I hi
    unfold localEntry
    rw [sum_eq_single_of_mem i (mem_range.mpr hil)]
    · obtain ⟨d, hd1, hd2, hd3⟩ := (mem_row _ hP hil).mp hmem
      simp only at hd1 hd2 hd3
      rw [sum_eq_single_of_mem (d - rowPtr q i) (mem_range.mpr (by omega))]
      · rw [show rowPtr q i + (d - rowPtr q i) = d by omega]
        have hc : (cols q).getD d 0 = j := by rw [List.getD_eq_getElem?_getD, hd3]; rfl
        rw [hc, if_pos ⟨hi, hj⟩]
        refine hV i k j l _ hil hk hl ⟨d, ?_⟩
        have h0 : 0 < bs0 := by omega
        have h1 : 0 < bs1 := by omega
        rw [Nat.mul_add_div h0, Nat.div_eq_of_lt hk, Nat.add_zero, Nat.mul_add_div h1, Nat.div_eq_of_lt hl, Nat.add_zero,
          Nat.mul_add_mod, Nat.mod_eq_of_lt hk, Nat.mul_add_mod, Nat.mod_eq_of_lt hl]
        refine ⟨hd1, hd2, hd3, ?_⟩
        ring
      · intro t ht hne
        rw [if_neg]
        rintro ⟨_, h⟩
        have hjj := SubMap.globalOf_inj w1 hw1 q hq1 _ _ J h hj
        have ht' := mem_range.mp ht
        have a1 := (hcol i t hil ht').2
        have a2 := (hcol i (d - rowPtr q i) hil (by omega)).2
        rw [show rowPtr q i + (d - rowPtr q i) = d by omega, show (cols q).getD d 0 = j by
          rw [List.getD_eq_getElem?_getD, hd3]; rfl] at a2
        rw [hjj] at a1
        have hnd := Std.nodup_of_strict (hP.sorted i hil)
        have := (List.getElem?_inj (List.getElem?_eq_some_iff.mp a1).1 hnd).mp (a1.trans a2.symm)
        exact hne this
    · intro i' _ hne
      apply sum_eq_zero
      intro t _
      rw [if_neg]
      rintro ⟨h, _⟩
      exact hne (SubMap.globalOf_inj w0 hw0 q hq0 _ _ I h hi)
  · intro hno
    unfold localEntry
    apply sum_eq_zero
    intro i hi
    apply sum_eq_zero
    intro t ht
    rw [if_neg]
    rintro ⟨h1, h2⟩
    exact hno ⟨i, _, h1, h2, List.mem_of_getElem? (hcol i t (mem_range.mp hi) (mem_range.mp ht)).2⟩

/-! ## The finalised pattern -/

/-- The calls that build the pattern. -/
def patternOps (F : Form R) (dm0 dm1 : Nat → Dofmap) : List Props.InsOp :=
  (patternCalls F dm0 dm1).map fun x => .many x.1 x.2

omit [CommRing R] in
theorem buildPattern_eq (F : Form R) (dm0 dm1 : Nat → Dofmap) :
    buildPattern F dm0 dm1 = Props.runIns SP.new (patternOps F dm0 dm1) := by
  unfold buildPattern patternOps
  generalize SP.new = p
  generalize patternCalls F dm0 dm1 = l
  induction l generalizing p with
  | nil => rfl
  | cons x l ih =>
    rw [List.foldlM_cons, List.map_cons]
    show (SP.insert p x.1 x.2).bind _ = (SP.insert p x.1 x.2).bind _
    cases h : SP.insert p x.1 x.2 with
    | error e => rfl
    | ok q => exact ih q

/-- Pattern of a matrix as used by the insertion functions. -/
def csrOf (p : SP.Pattern) : Csr.Pattern := ⟨fun i => p.offsets.getD i 0, p.edges⟩

theorem mem_dofsOf {dm : Dofmap} {c : Int} {d : Nat} (h : d ∈ dofsOf dm c) : ∃ c, d ∈ dm.dofs c := by
  unfold dofsOf at h
  split at h
  · cases h
  · exact ⟨_, h⟩

theorem elems_dofs {F : Form R} {dm0 dm1 : Nat → Dofmap} {e : Elem R} (he : e ∈ elems F dm0 dm1) :
    (∀ i ∈ e.rows, ∃ t c, i ∈ (dm0 t).dofs c) ∧ ∀ j ∈ e.cols, ∃ t c, j ∈ (dm1 t).dofs c := by
  obtain ⟨t, _, ty, I, _, he⟩ := mem_elems.mp he
  have hcell : ∀ stride, e ∈ cellElems (dm0 t) (dm1 t) stride I →
      (∀ i ∈ e.rows, ∃ t c, i ∈ (dm0 t).dofs c) ∧ ∀ j ∈ e.cols, ∃ t c, j ∈ (dm1 t).dofs c := by
    intro stride he
    unfold cellElems at he
    obtain ⟨c, _, rfl⟩ := List.mem_map.mp he
    exact ⟨fun i hi => ⟨t, _, hi⟩, fun j hj => ⟨t, _, hj⟩⟩
  cases ty
  · exact hcell 1 he
  · exact hcell 2 he
  · simp only [intElems, facetElems] at he
    obtain ⟨f, _, he⟩ := List.mem_flatMap.mp he
    obtain ⟨s, _, rfl⟩ := List.mem_map.mp he
    exact ⟨fun i hi => ⟨t, mem_dofsOf hi⟩, fun j hj => ⟨t, mem_dofsOf hj⟩⟩
  · exact hcell 2 he
  · exact hcell 2 he

section
variable (w0 w1 : World) (hw0 : w0.Valid) (hw1 : w1.Valid) (hP : w0.P = w1.P)
  (F : Nat → Form R) (dm0 dm1 : Nat → Nat → Dofmap)
  (hF : ∀ q, q < w0.P → Accepted (F q)) (hok : ∀ q, q < w0.P → FormOk (F q))
  (hr0 : ∀ q, q < w0.P → DofsOk w0 q (dm0 q)) (hr1 : ∀ q, q < w0.P → DofsOk w1 q (dm1 q))
include hF hok

theorem covers_iff (q : Nat) (hq : q < w0.P) (i c : Nat) :
    (∃ op ∈ patternOps (F q) (dm0 q) (dm1 q), op.Covers i c) ↔ ∃ e ∈ elems (F q) (dm0 q) (dm1 q), i ∈ e.rows ∧ c ∈ e.cols := by
  unfold patternOps
  constructor
  · rintro ⟨op, hop, hc⟩
    obtain ⟨x, hx, rfl⟩ := List.mem_map.mp hop
    obtain ⟨e, he, rfl⟩ := (patternCalls_iff _ _ _ (hF q hq) (hok q hq) x).mp hx
    exact ⟨e, he, hc⟩
  · rintro ⟨e, he, hc⟩
    exact ⟨_, List.mem_map.mpr ⟨_, (patternCalls_iff _ _ _ (hF q hq) (hok q hq) _).mpr ⟨e, he, rfl⟩, rfl⟩, hc⟩

theorem requested_iff (I J : Nat) :
    Props.Requested w0 w1 (fun q => patternOps (F q) (dm0 q) (dm1 q)) I J ↔
      Couples w0 w1 (fun q => elems (F q) (dm0 q) (dm1 q)) I J := by
  constructor
  · rintro ⟨q, hq, op, hop, i, c, hc, h1, h2⟩
    obtain ⟨e, he, hi, hj⟩ := (covers_iff w0 F dm0 dm1 hF hok q hq i c).mp ⟨op, hop, hc⟩
    exact ⟨q, hq, e, he, i, hi, c, hj, h1, h2⟩
  · rintro ⟨q, hq, e, he, i, hi, j, hj, h1, h2⟩
    obtain ⟨op, hop, hc⟩ := (covers_iff w0 F dm0 dm1 hF hok q hq i j).mpr ⟨e, he, hi, hj⟩
    exact ⟨q, hq, op, hop, i, j, hc, h1, h2⟩

include hr0 hr1

theorem ops_range : Props.InRange w0 w1 (fun q => patternOps (F q) (dm0 q) (dm1 q)) := by
  intro q hq op hop i c hc
  obtain ⟨e, he, hi, hj⟩ := (covers_iff w0 F dm0 dm1 hF hok q hq i c).mp ⟨op, hop, hc⟩
  obtain ⟨d0, d1⟩ := elems_dofs he
  obtain ⟨t, c', h⟩ := d0 i hi
  obtain ⟨t', c'', h'⟩ := d1 c hj
  exact ⟨hr0 q hq t c' i h, hr1 q hq t' c'' c h'⟩

include hw0 hw1 hP

/-- Facts about the finalised pattern of a form. -/
theorem pattern_facts (p p' : Nat → SP.Pattern) (hp : ∀ q, q < w0.P → buildPattern (F q) (dm0 q) (dm1 q) = .ok (p q))
    (hf : ∀ q, q < w0.P → SP.finalize w0 w1 p q = .ok (p' q)) :
    (Props.patternCols w1 p').Valid ∧
    MatOk w0 (Props.patternCols w1 p') (fun q i => (p' q).offsets.getD i 0) (fun q => (p' q).edges) ∧
    ∀ q, q < w0.P → PatternOk (csrOf (p' q)) (w0.size q + (w0.ghosts q).length) ∧
      (∀ c C, globalOf w1 q c = some C → globalOf (Props.patternCols w1 p') q c = some C) ∧
      (∀ i, i < w0.size q → ∀ C, (∃ c ∈ (csrOf (p' q)).row i, globalOf (Props.patternCols w1 p') q c = some C) ↔
        Couples w0 w1 (fun q => elems (F q) (dm0 q) (dm1 q)) (w0.r0 q + i) C) ∧
      (∀ e ∈ elems (F q) (dm0 q) (dm1 q), Fits (csrOf (p' q)) (w0.size q + (w0.ghosts q).length) e.rows e.cols) := by
  have hin := ops_range w0 w1 F dm0 dm1 hF hok hr0 hr1
  have hp' : ∀ q, q < w0.P → Props.runIns SP.new (patternOps (F q) (dm0 q) (dm1 q)) = .ok (p q) := by
    intro q hq; rw [← buildPattern_eq]; exact hp q hq
  obtain ⟨hv, hm⟩ := Props.C18_pattern w0 w1 hw0 hw1 hP _ hin p p' hp' hf
  refine ⟨hv, hm, ?_⟩
  intro q hq
  obtain ⟨p1, rows, h1, h2, h3, h4, h5, h6, h7, _⟩ := Props.finalize_facts w0 w1 hw0 hw1 hP _ hin p hp' q hq
  have : p1 = p' q := by rw [hf q hq] at h1; injection h1 with h; exact h.symm
  subst this
  have hrow : ∀ i (hi : i < rows.length), (csrOf (p' q)).row i = rows[i] := by
    intro i hi
    have := Props.graphRow_rows rows i hi
    rw [← h3, ← h4] at this
    exact this
  have hpre : ∀ c C, globalOf w1 q c = some C → globalOf (Props.patternCols w1 p') q c = some C :=
    fun c C h => SP.gcol_prefix h7 h
  have hown : ∀ i, i < w0.size q → ∀ C, (∃ c ∈ (csrOf (p' q)).row i, globalOf (Props.patternCols w1 p') q c = some C) ↔
        Couples w0 w1 (fun q => elems (F q) (dm0 q) (dm1 q)) (w0.r0 q + i) C := by
    intro i hi C
    have hil : i < rows.length := by omega
    rw [hrow i hil, ← requested_iff w0 w1 F dm0 dm1 hF hok]
    exact (h6 i rows[i] (List.getElem?_eq_getElem hil)).2.2.1 hi C
  refine ⟨⟨?_, ?_, ?_⟩, hpre, hown, ?_⟩
  · exact fun i hi => hm.mono q hq i hi
  · exact hm.len q hq
  · intro i hi
    rw [hrow i (by omega)]
    exact (h6 i _ (List.getElem?_eq_getElem (by omega))).1
  · intro e he i hi
    obtain ⟨d0, d1⟩ := elems_dofs he
    obtain ⟨t, c', h⟩ := d0 i hi
    have hin' := hr0 q hq t c' i h
    intro j hj
    refine ⟨hin', ?_⟩
    obtain ⟨t', c'', h'⟩ := d1 j hj
    have hjn := hr1 q hq t' c'' j h'
    by_cases hio : i < w0.size q
    · obtain ⟨C, hC⟩ := Props.globalOf_some w1 q j hjn
      have hg : globalOf w0 q i = some (w0.r0 q + i) := by unfold globalOf; rw [if_pos hio]
      obtain ⟨c, hc, hcC⟩ := (hown i hio C).mpr ⟨q, hq, e, he, i, hi, j, hj, hg, hC⟩
      rw [← SubMap.globalOf_inj _ hv q (hP ▸ hq) c j C hcC (hpre j C hC)]
      exact hc
    · rw [hrow i (by omega)]
      rw [(h6 i _ (List.getElem?_eq_getElem (by omega))).2.2.2 (by omega) j]
      exact (covers_iff w0 F dm0 dm1 hF hok q hq i j).mpr ⟨e, he, hi, hj⟩

end

end Verif.Assembly
