import Verif.Lemmas.Scatterer
import Verif.Lemmas.CsrInsert
import Verif.Lemmas.Partition
import Mathlib.Algebra.BigOperators.Ring.Finset
import Mathlib.Algebra.BigOperators.Intervals
import Mathlib.Algebra.BigOperators.Group.List.Basic
/-!
# C10, C11: forward and reverse scatter of a distributed vector

Layout on each rank: entry `j` of owned block `i` is at `i * bs + j`, entry `j` of
ghost `k` is at `bs * size + k * bs + j`.
-/
namespace Verif.Props
open Verif.World Verif.Scatterer Verif.Exchange Verif.Std Verif

variable {R : Type}

/-- C10: after a forward scatter the ghost blocks hold the owner's values and owned
entries are unchanged. -/
theorem C10_forward_scatter (w : World) (hw : w.Valid) (bs : Nat) (x : Nat → Nat → R) (r : Nat) (hr : r < w.P) :
    (∀ (k q g : Nat), (w.owners r)[k]? = some q → (w.ghosts r)[k]? = some g → ∀ j, j < bs →
      scatterFwd w bs x r (bs * w.size r + (k * bs + j)) = x q ((g - w.r0 q) * bs + j)) ∧
    (∀ n, n < bs * w.size r → scatterFwd w bs x r n = x r n) := by
  have hz : (remoteInds w bs r).zip (neighborAlltoallv w.dest w.src
      (fun q => chunks ((sizesLoc w q).map (· * bs)) (pack (localInds w bs q) (x q))) r) =
      (perm (w.owners r)).flatMap (fun k => (List.range bs).map fun j =>
        (k * bs + j, x ((w.owners r).getD k 0)
          (((w.ghosts r).getD k 0 * bs + j) - w.r0 ((w.owners r).getD k 0) * bs))) := by
    rw [fwd_recv w bs x r hr, remoteInds_eq, perm_eq, List.flatMap_assoc, zip_flatMap]
    · apply List.flatMap_congr; intro s _
      rw [zip_flatMap _ _ _ (by intros; simp)]
      apply List.flatMap_congr; intro k hk
      have : (w.owners r).getD k 0 = s := by simpa using (List.mem_filter.mp hk).2
      rw [zip_map_same, this]
    · intro s _
      rw [length_flatMap_const _ _ bs (by intros; simp), length_flatMap_const _ _ bs (by intros; simp)]
  have hx : ∀ n, scatterFwd w bs x r n = (((perm (w.owners r)).flatMap (fun k => (List.range bs).map fun j =>
        (k * bs + j, x ((w.owners r).getD k 0)
          (((w.ghosts r).getD k 0 * bs + j) - w.r0 ((w.owners r).getD k 0) * bs)))).filterMap
          fun p => if n = bs * w.size r + p.1 then some p.2 else none).foldl (fun _ v => v) (x r n) := by
    intro n; unfold scatterFwd; rw [unpack_get, hz]
  constructor
  · intro k q g hq hg j hj
    have hk : k < (w.owners r).length := (List.getElem?_eq_some_iff.mp hq).1
    obtain ⟨_, _, hlo, hhi⟩ := hw.owner r hr k q g hq hg
    rw [hx, filterMap_flatMap]
    rw [flatMap_single_of_nodup _ (perm_nodup _) k ((mem_perm _ _).mpr hk)]
    · simp only [List.getD_eq_getElem?_getD, hq, hg, Option.getD_some]
      rw [List.filterMap_map]
      have : (List.range bs).filterMap ((fun p : Nat × R =>
            if bs * w.size r + (k * bs + j) = bs * w.size r + p.1 then some p.2 else none) ∘
            fun j => (k * bs + j, x q (g * bs + j - w.r0 q * bs))) = [x q (g * bs + j - w.r0 q * bs)] := by
        rw [List.filterMap_eq_flatMap_toList] 
        rw [Csr.flatMap_range_if bs j _ hj]
        · simp
        · intro i hi hne
          simp; omega
      rw [this]
      simp only [List.foldl_cons, List.foldl_nil]
      congr 1
      rw [Nat.sub_mul]
      have := Nat.mul_le_mul_right bs hlo
      omega
    · intro k' hk' hne
      rw [List.filterMap_eq_nil_iff]
      intro p hp
      obtain ⟨i, hi, rfl⟩ := List.mem_map.mp hp
      rw [List.mem_range] at hi
      rw [if_neg]
      intro h
      have h' : k * bs + j = k' * bs + i := by omega
      exact hne (Csr.digits2 hj hi h').1.symm
  · intro n hn
    rw [hx]
    have : ((perm (w.owners r)).flatMap (fun k => (List.range bs).map fun j =>
        (k * bs + j, x ((w.owners r).getD k 0)
          (((w.ghosts r).getD k 0 * bs + j) - w.r0 ((w.owners r).getD k 0) * bs)))).filterMap
          (fun p => if n = bs * w.size r + p.1 then some p.2 else none) = [] := by
      rw [List.filterMap_eq_nil_iff]
      intro p _
      rw [if_neg (by omega)]
    rw [this]; rfl

/-- Position of global index `g` among the ghosts of rank `q`, if `q` ghosts it. -/
def ghostAt (w : World) (q g : Nat) : Option Nat :=
  (List.range (w.ghosts q).length).find? fun k => decide ((w.ghosts q)[k]? = some g)

theorem ghostAt_some (w : World) (q g k : Nat) (h : ghostAt w q g = some k) : (w.ghosts q)[k]? = some g := by
  have := List.find?_some h
  simpa using this

theorem ghostAt_of (w : World) (q g k : Nat) (hn : (w.ghosts q).Nodup) (h : (w.ghosts q)[k]? = some g) :
    ghostAt w q g = some k := by
  cases hf : ghostAt w q g with
  | none =>
    unfold ghostAt at hf
    rw [List.find?_eq_none] at hf
    have := hf k (List.mem_range.mpr (List.getElem?_eq_some_iff.mp h).1)
    simp [h] at this
  | some k' =>
    have h' := ghostAt_some w q g k' hf
    obtain ⟨a1, b1⟩ := List.getElem?_eq_some_iff.mp h
    obtain ⟨a2, b2⟩ := List.getElem?_eq_some_iff.mp h'
    rw [(List.Nodup.getElem_inj_iff hn).mp (b2.trans b1.symm)]

theorem range_unique (w : World) {q r g : Nat} (h1 : w.r0 q ≤ g ∧ g < w.r0 q + w.size q)
    (h2 : w.r0 r ≤ g ∧ g < w.r0 r + w.size r) : q = r :=
  (Offsets.excl_inj w.size (b := q) (b' := r) (k := g - w.r0 q) (k' := g - w.r0 r)
    (by omega) (by omega) (by unfold World.r0 at *; omega)).1

/-- C11: after a reverse scatter with operation `op`, the owned entry `j` of block `i`
is `op` folded over its own value and one value from each rank that ghosts the
block (ranks in increasing order). -/
theorem C11_reverse_scatter (w : World) (hw : w.Valid) (bs : Nat) (op : R → R → R) (x : Nat → Nat → R)
    (r : Nat) (i j : Nat) (hi : i < w.size r) (hj : j < bs) :
    scatterRev w bs op x r (i * bs + j) =
      ((List.range w.P).filterMap (fun q => (ghostAt w q (w.r0 r + i)).map
        (fun k => x q (bs * w.size q + (k * bs + j))))).foldl op (x r (i * bs + j)) := by
  unfold scatterRev
  rw [unpack_get, rev_recv, localInds_eq]
  congr 1
  rw [zip_flatMap _ _ _ (by
    intro q _
    rw [length_flatMap_const _ _ bs (by intros; simp), length_flatMap_const _ _ bs (by intros; simp)])]
  rw [filterMap_flatMap, List.filterMap_eq_flatMap_toList (l := List.range w.P)]
  unfold World.dest
  rw [flatMap_filter]
  apply List.flatMap_congr
  intro q hq
  rw [List.mem_range] at hq
  -- contributions of rank q
  have inner : ∀ k, k ∈ gpos (w.owners q) r →
      ((((List.range bs).map fun j => ((w.ghosts q).getD k 0 * bs + j) - w.r0 r * bs).zip
        ((List.range bs).map fun j => x q (bs * w.size q + (k * bs + j)))).filterMap
        fun p => if i * bs + j = 0 + p.1 then some p.2 else none) =
      if (w.ghosts q)[k]? = some (w.r0 r + i) then [x q (bs * w.size q + (k * bs + j))] else [] := by
    intro k hk
    obtain ⟨hk1, hk2⟩ := List.mem_filter.mp hk
    rw [List.mem_range] at hk1
    have ho : (w.owners q)[k]? = some r := by
      rw [List.getElem?_eq_getElem hk1]
      simpa [List.getD_eq_getElem?_getD, List.getElem?_eq_getElem hk1] using hk2
    have hkg : k < (w.ghosts q).length := by rw [← hw.len q hq]; exact hk1
    have hg : (w.ghosts q)[k]? = some (w.ghosts q)[k] := List.getElem?_eq_getElem hkg
    obtain ⟨_, _, hlo, hhi⟩ := hw.owner q hq k r _ ho hg
    rw [zip_map_same, List.filterMap_map, List.filterMap_eq_flatMap_toList]
    simp only [List.getD_eq_getElem?_getD, hg, Option.getD_some]
    generalize (w.ghosts q)[k] = g at *
    have hmul := Nat.mul_le_mul_right bs hlo
    have e : ∀ j', g * bs + j' - w.r0 r * bs = (g - w.r0 r) * bs + j' := by
      intro j'; rw [Nat.sub_mul]; omega
    by_cases hc : g = w.r0 r + i
    · rw [if_pos (by rw [hc]), Csr.flatMap_range_if bs j _ hj]
      · have h3 : i * bs + j = 0 + (g * bs + j - w.r0 r * bs) := by
          rw [e, show g - w.r0 r = i by omega]; omega
        rw [Function.comp_apply, if_pos h3]; rfl
      · intro j' hj' hne
        have h3 : ¬ (i * bs + j = 0 + (g * bs + j' - w.r0 r * bs)) := by
          rw [e, show g - w.r0 r = i by omega]; omega
        rw [Function.comp_apply, if_neg h3]; rfl
    · rw [if_neg (by simpa using hc), List.flatMap_eq_nil_iff]
      intro j' hj'
      rw [List.mem_range] at hj'
      have h3 : ¬ (i * bs + j = 0 + (g * bs + j' - w.r0 r * bs)) := by
        rw [e, Nat.zero_add]
        intro h4
        have := (Csr.digits2 hj hj' h4).1
        omega
      rw [Function.comp_apply, if_neg h3]; rfl
  rw [zip_flatMap _ _ _ (by intros; simp), filterMap_flatMap]
  have hin : (gpos (w.owners q) r).flatMap (fun k =>
      ((((List.range bs).map fun j => ((w.ghosts q).getD k 0 * bs + j) - w.r0 r * bs).zip
        ((List.range bs).map fun j => x q (bs * w.size q + (k * bs + j)))).filterMap
        fun p => if i * bs + j = 0 + p.1 then some p.2 else none)) =
      ((ghostAt w q (w.r0 r + i)).map (fun k => x q (bs * w.size q + (k * bs + j)))).toList := by
    rw [List.flatMap_congr inner]
    cases hf : ghostAt w q (w.r0 r + i) with
    | none =>
      rw [Option.map_none, Option.toList_none, List.flatMap_eq_nil_iff]
      intro k _
      rw [if_neg]
      intro hg
      rw [ghostAt_of w q _ k (hw.nodup q hq) hg] at hf
      exact absurd hf (by simp)
    | some k0 =>
      have hg0 := ghostAt_some w q _ k0 hf
      have hk0 : k0 < (w.ghosts q).length := (List.getElem?_eq_some_iff.mp hg0).1
      have hko : k0 < (w.owners q).length := by rw [hw.len q hq]; exact hk0
      obtain ⟨o1, o2⟩ : ∃ s, (w.owners q)[k0]? = some s := ⟨_, List.getElem?_eq_getElem hko⟩
      obtain ⟨_, _, hlo, hhi⟩ := hw.owner q hq k0 o1 _ o2 hg0
      have hor : o1 = r := range_unique w ⟨hlo, hhi⟩ ⟨by omega, by omega⟩
      subst hor
      rw [flatMap_single_of_nodup (gpos (w.owners q) o1) (List.nodup_range.filter _) k0]
      · rw [if_pos hg0]; rfl
      · refine List.mem_filter.mpr ⟨List.mem_range.mpr hko, ?_⟩
        simp [List.getD_eq_getElem?_getD, o2]
      · intro k _ hne
        rw [if_neg]
        intro hg
        rw [ghostAt_of w q _ k (hw.nodup q hq) hg] at hf
        exact hne (Option.some.inj hf)
  split
  · exact hin
  · rename_i hnd
    have hnil : gpos (w.owners q) r = [] := by
      unfold gpos
      rw [List.filter_eq_nil_iff]
      intro k hk
      rw [List.mem_range] at hk
      simp only [decide_eq_true_eq]
      intro h
      apply hnd
      simp only [decide_eq_true_eq]
      rw [mem_src, ← h, List.getD_eq_getElem?_getD, List.getElem?_eq_getElem hk]
      exact List.getElem_mem hk
    rw [← hin, hnil]; rfl


open Finset in
theorem sum_blocks [AddCommMonoid R] (bs n : Nat) (f : Nat → R) :
    ∑ m ∈ range (bs * n), f m = ∑ i ∈ range n, ∑ j ∈ range bs, f (i * bs + j) := by
  induction n with
  | zero => simp
  | succ n ih =>
    rw [Nat.mul_succ, Finset.sum_range_add, ih, Finset.sum_range_succ]
    congr 1
    apply Finset.sum_congr rfl
    intro j _; rw [Nat.mul_comm]

theorem foldl_add_eq [AddCommMonoid R] (l : List R) (a : R) : l.foldl (· + ·) a = a + l.sum := by
  induction l generalizing a with
  | nil => simp
  | cons y l ih => rw [List.foldl_cons, ih, List.sum_cons, add_assoc]

open Finset in
theorem sum_filterMap_range [AddCommMonoid R] (P : Nat) (f : Nat → Option R) :
    ((List.range P).filterMap f).sum = ∑ q ∈ range P, (f q).getD 0 := by
  induction P with
  | zero => simp
  | succ P ih =>
    rw [List.range_succ, List.filterMap_append, List.sum_append, ih, Finset.sum_range_succ]
    congr 1
    cases h : f P <;> simp [h]

open Finset in
/-- Every ghost of rank `q` is matched by exactly one owned block. -/
theorem sum_ghosts [AddCommMonoid R] (w : World) (hw : w.Valid) (q : Nat) (hq : q < w.P)
    (F : Nat → Nat → Nat → R) :
    ∑ r ∈ range w.P, ∑ i ∈ range (w.size r), ((ghostAt w q (w.r0 r + i)).map (fun k => F r i k)).getD 0 =
      ∑ k ∈ range (w.ghosts q).length,
        F ((w.owners q).getD k 0) ((w.ghosts q).getD k 0 - w.r0 ((w.owners q).getD k 0)) k := by
  have h1 : ∀ r i, ((ghostAt w q (w.r0 r + i)).map (fun k => F r i k)).getD 0 =
      ∑ k ∈ range (w.ghosts q).length, if (w.ghosts q)[k]? = some (w.r0 r + i) then F r i k else 0 := by
    intro r i
    cases hf : ghostAt w q (w.r0 r + i) with
    | none =>
      rw [Option.map_none, Option.getD_none]
      symm
      apply Finset.sum_eq_zero
      intro k _
      rw [if_neg]
      intro hg
      rw [ghostAt_of w q _ k (hw.nodup q hq) hg] at hf
      exact absurd hf (by simp)
    | some k0 =>
      have hg0 := ghostAt_some w q _ k0 hf
      rw [Finset.sum_eq_single k0]
      · rw [if_pos hg0]; rfl
      · intro k _ hne
        rw [if_neg]
        intro hg
        rw [ghostAt_of w q _ k (hw.nodup q hq) hg] at hf
        exact hne (Option.some.inj hf)
      · intro hn
        exact absurd (Finset.mem_range.mpr (List.getElem?_eq_some_iff.mp hg0).1) hn
  simp only [h1]
  have h2 : ∀ r, ∑ i ∈ range (w.size r), ∑ k ∈ range (w.ghosts q).length,
      (if (w.ghosts q)[k]? = some (w.r0 r + i) then F r i k else 0) =
      ∑ k ∈ range (w.ghosts q).length, ∑ i ∈ range (w.size r),
      (if (w.ghosts q)[k]? = some (w.r0 r + i) then F r i k else 0) := fun r => Finset.sum_comm
  simp only [h2]
  rw [Finset.sum_comm]
  apply Finset.sum_congr rfl
  intro k hk
  rw [Finset.mem_range] at hk
  have hko : k < (w.owners q).length := by rw [hw.len q hq]; exact hk
  have hg : (w.ghosts q)[k]? = some (w.ghosts q)[k] := List.getElem?_eq_getElem hk
  have ho : (w.owners q)[k]? = some (w.owners q)[k] := List.getElem?_eq_getElem hko
  obtain ⟨hsP, _, hlo, hhi⟩ := hw.owner q hq k _ _ ho hg
  simp only [List.getD_eq_getElem?_getD, hg, ho, Option.getD_some]
  generalize (w.ghosts q)[k] = g at *
  generalize (w.owners q)[k] = s at *
  rw [Finset.sum_eq_single s]
  · rw [Finset.sum_eq_single (g - w.r0 s)]
    · rw [if_pos (by congr 1; omega)]
    · intro i _ hne
      rw [if_neg]
      intro h; have := Option.some.inj h; omega
    · intro hn; exact absurd (Finset.mem_range.mpr (by omega)) hn
  · intro r _ hne
    apply Finset.sum_eq_zero
    intro i hi
    rw [Finset.mem_range] at hi
    rw [if_neg]
    intro h
    have := Option.some.inj h
    exact hne (range_unique w (g := g) ⟨by omega, by omega⟩ ⟨hlo, hhi⟩)
  · intro hn; exact absurd (Finset.mem_range.mpr hsP) hn

open Finset in
/-- C11: reverse scatter with addition is the transpose of forward scatter: summed over
all ranks, pairing the forward-scattered `x` with `y` over owned and ghost entries
equals pairing `x` with the reverse-scattered `y` over owned entries. -/
theorem C11_adjoint [CommSemiring R] (w : World) (hw : w.Valid) (bs : Nat) (x y : Nat → Nat → R) :
    ∑ r ∈ range w.P, ∑ n ∈ range (bs * w.size r + bs * (w.ghosts r).length), scatterFwd w bs x r n * y r n =
      ∑ r ∈ range w.P, ∑ n ∈ range (bs * w.size r), x r n * scatterRev w bs (· + ·) y r n := by
  -- left: owned part plus ghost part
  have hl : ∀ r ∈ range w.P, ∑ n ∈ range (bs * w.size r + bs * (w.ghosts r).length), scatterFwd w bs x r n * y r n =
      ∑ n ∈ range (bs * w.size r), x r n * y r n +
      ∑ j ∈ range bs, ∑ k ∈ range (w.ghosts r).length,
        x ((w.owners r).getD k 0) (((w.ghosts r).getD k 0 - w.r0 ((w.owners r).getD k 0)) * bs + j) *
          y r (bs * w.size r + (k * bs + j)) := by
    intro r hr
    rw [Finset.mem_range] at hr
    obtain ⟨hgh, hown⟩ := C10_forward_scatter w hw bs x r hr
    rw [Finset.sum_range_add]
    congr 1
    · apply Finset.sum_congr rfl
      intro n hn
      rw [hown n (Finset.mem_range.mp hn)]
    · rw [sum_blocks, Finset.sum_comm]
      apply Finset.sum_congr rfl
      intro j hj
      apply Finset.sum_congr rfl
      intro k hk
      rw [Finset.mem_range] at hk hj
      have hko : k < (w.owners r).length := by rw [hw.len r hr]; exact hk
      have hg : (w.ghosts r)[k]? = some (w.ghosts r)[k] := List.getElem?_eq_getElem hk
      have ho : (w.owners r)[k]? = some (w.owners r)[k] := List.getElem?_eq_getElem hko
      rw [hgh k _ _ ho hg j hj]
      simp only [List.getD_eq_getElem?_getD, hg, ho, Option.getD_some]
  rw [Finset.sum_congr rfl hl, Finset.sum_add_distrib]
  have hrr : ∀ r ∈ range w.P, ∑ n ∈ range (bs * w.size r), x r n * scatterRev w bs (· + ·) y r n =
      ∑ n ∈ range (bs * w.size r), x r n * y r n +
      ∑ j ∈ range bs, ∑ q ∈ range w.P, ∑ i ∈ range (w.size r),
        ((ghostAt w q (w.r0 r + i)).map (fun k => x r (i * bs + j) * y q (bs * w.size q + (k * bs + j)))).getD 0 := by
    intro r _
    rw [sum_blocks, sum_blocks]
    have : ∀ i ∈ range (w.size r), ∑ j ∈ range bs, x r (i * bs + j) * scatterRev w bs (· + ·) y r (i * bs + j) =
        ∑ j ∈ range bs, x r (i * bs + j) * y r (i * bs + j) + ∑ j ∈ range bs, ∑ q ∈ range w.P,
          ((ghostAt w q (w.r0 r + i)).map (fun k => x r (i * bs + j) * y q (bs * w.size q + (k * bs + j)))).getD 0 := by
      intro i hi
      rw [← Finset.sum_add_distrib]
      apply Finset.sum_congr rfl
      intro j hj
      rw [C11_reverse_scatter w hw bs (· + ·) y r i j (Finset.mem_range.mp hi) (Finset.mem_range.mp hj),
        foldl_add_eq, sum_filterMap_range, mul_add, Finset.mul_sum]
      congr 1
      apply Finset.sum_congr rfl
      intro q _
      cases ghostAt w q (w.r0 r + i) <;> simp
    rw [Finset.sum_congr rfl this, Finset.sum_add_distrib]
    congr 1
    rw [Finset.sum_comm]
    apply Finset.sum_congr rfl
    intro j _
    rw [Finset.sum_comm]
  rw [Finset.sum_congr rfl hrr, Finset.sum_add_distrib]
  congr 1
  rw [Finset.sum_comm (s := range w.P) (t := range bs), Finset.sum_comm (s := range w.P) (t := range bs)]
  apply Finset.sum_congr rfl
  intro j _
  rw [Finset.sum_comm (s := range w.P) (t := range w.P)]
  apply Finset.sum_congr rfl
  intro q hq
  rw [← sum_ghosts w hw q (Finset.mem_range.mp hq)
    (fun r i k => x r (i * bs + j) * y q (bs * w.size q + (k * bs + j)))]

open Finset in
/-- C11: reverse scatter with addition conserves the total. -/
theorem C11_conservation [CommSemiring R] (w : World) (hw : w.Valid) (bs : Nat) (y : Nat → Nat → R) :
    ∑ r ∈ range w.P, ∑ n ∈ range (bs * w.size r + bs * (w.ghosts r).length), y r n =
      ∑ r ∈ range w.P, ∑ n ∈ range (bs * w.size r), scatterRev w bs (· + ·) y r n := by
  have h := C11_adjoint w hw bs (fun _ _ => (1 : R)) y
  simp only [one_mul] at h
  rw [← h]
  apply Finset.sum_congr rfl
  intro r hr
  rw [Finset.mem_range] at hr
  obtain ⟨hgh, hown⟩ := C10_forward_scatter w hw bs (fun _ _ => (1 : R)) r hr
  rw [Finset.sum_range_add, Finset.sum_range_add]
  congr 1
  · apply Finset.sum_congr rfl
    intro n hn
    rw [hown n (Finset.mem_range.mp hn), one_mul]
  · rw [sum_blocks, sum_blocks]
    apply Finset.sum_congr rfl
    intro k hk
    apply Finset.sum_congr rfl
    intro j hj
    rw [Finset.mem_range] at hk hj
    have hko : k < (w.owners r).length := by rw [hw.len r hr]; exact hk
    rw [hgh k _ _ (List.getElem?_eq_getElem hko) (List.getElem?_eq_getElem hk) j hj, one_mul]

/-- Three ranks owning 2, 1, 2 indices; rank 0 ghosts 4 and 2, rank 2 ghosts 0 and 2. -/
def exWorld : World where
  P := 3
  size := fun r => [2, 1, 2].getD r 0
  ghosts := fun r => [[4, 2], [], [0, 2]].getD r []
  owners := fun r => [[2, 1], [], [0, 1]].getD r []

theorem exWorld_valid : exWorld.Valid := by
  refine ⟨by decide, by decide, ?_⟩
  intro r hr k q g h1 h2
  have hk := (List.getElem?_eq_some_iff.mp h1).1
  have hr' : r < 3 := hr
  interval_cases r <;> simp [exWorld] at hk <;> interval_cases k <;>
    (simp [exWorld] at h1 h2; subst h1; subst h2; decide)

example : (List.range 8).map (scatterFwd exWorld 2 (fun r n => 100 * r + n) 0) =
    [0, 1, 2, 3, 202, 203, 100, 101] := by decide +kernel
example : (List.range 2).map (scatterRev exWorld 2 (· + ·) (fun r n => 100 * r + n) 1) =
    [100 + 6 + 206, 101 + 7 + 207] := by decide +kernel

end Verif.Props
