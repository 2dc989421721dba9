import Verif.Model.MatMul
import Verif.Lemmas.StdAlg
import Verif.Lemmas.BucketFill
import Mathlib.Algebra.BigOperators.Group.List.Basic
/-! The dense accumulator of `impl::matmul`. -/
namespace Verif.MatMul
open Verif.Std Verif.Offsets

variable {R : Type} [Semiring R] [DecidableEq R]

/-- Sum of the contributions to column `k`. -/
def sumAt (T : List (Nat × R)) (k : Nat) : R := ((T.filter fun x => x.1 == k).map Prod.snd).sum

omit [DecidableEq R] in
theorem sumAt_append_singleton (T : List (Nat × R)) (x : Nat × R) (k : Nat) :
    sumAt (T ++ [x]) k = if k = x.1 then sumAt T k + x.2 else sumAt T k := by
  unfold sumAt
  rw [List.filter_append, List.map_append, List.sum_append]
  by_cases h : x.1 = k
  · rw [if_pos h.symm]; simp [h]
  · rw [if_neg (fun e => h e.symm)]; simp [h]

omit [DecidableEq R] in
theorem sumAt_eq_zero (T : List (Nat × R)) (k : Nat) (h : ∀ x ∈ T, x.1 ≠ k) : sumAt T k = 0 := by
  unfold sumAt
  rw [List.filter_eq_nil_iff.mpr (by intro x hx; simpa using h x hx)]
  rfl

/-- State of the accumulator after the contributions `T` of one row. -/
theorem addTerm_fold (T : List (Nat × R)) :
    let s := T.foldl addTerm ⟨fun _ => 0, fun _ => false, []⟩
    (∀ k, s.acc k = sumAt T k) ∧ (∀ k, s.inRow k = true ↔ k ∈ s.rowCols) ∧ s.rowCols.Nodup ∧
      (∀ k, s.acc k ≠ 0 → k ∈ s.rowCols) := by
  induction T using List.reverseRecOn with
  | nil => simp [sumAt]
  | append_singleton T x ih =>
    simp only [List.foldl_append, List.foldl_cons, List.foldl_nil] at ih ⊢
    generalize T.foldl addTerm ⟨fun _ => 0, fun _ => false, []⟩ = s at ih
    obtain ⟨h1, h2, h3, h4⟩ := ih
    have hacc : ∀ k, (addTerm s x).acc k = sumAt (T ++ [x]) k := by
      intro k
      rw [sumAt_append_singleton, ← h1]
      unfold addTerm
      split <;> rfl
    refine ⟨hacc, ?_⟩
    by_cases hc : (!s.inRow x.1 && decide (x.2 ≠ 0)) = true
    · have hin : s.inRow x.1 = false := by simp at hc; exact hc.1
      have hnm : x.1 ∉ s.rowCols := fun hm => by rw [(h2 x.1).mpr hm] at hin; exact Bool.noConfusion hin
      have e1 : (addTerm s x).inRow = fun k => if k = x.1 then true else s.inRow k := by unfold addTerm; rw [if_pos hc]
      have e2 : (addTerm s x).rowCols = s.rowCols ++ [x.1] := by unfold addTerm; rw [if_pos hc]
      rw [e1, e2]
      refine ⟨?_, ?_, ?_⟩
      · intro k
        simp only [List.mem_append, List.mem_singleton]
        split
        · rename_i e; simp [e]
        · rename_i e; rw [h2]; simp [e]
      · rw [List.nodup_append]
        exact ⟨h3, by simp, fun a ha b hb => by simp at hb; subst hb; exact fun e => hnm (e ▸ ha)⟩
      · intro k hk
        simp only [List.mem_append, List.mem_singleton]
        rw [hacc, sumAt_append_singleton, ← h1] at hk
        split at hk
        · rename_i e; exact Or.inr e
        · exact Or.inl (h4 k hk)
    · have e1 : (addTerm s x).inRow = s.inRow := by unfold addTerm; rw [if_neg hc]
      have e2 : (addTerm s x).rowCols = s.rowCols := by unfold addTerm; rw [if_neg hc]
      rw [e1, e2]
      refine ⟨h2, h3, ?_⟩
      intro k hk
      rw [hacc, sumAt_append_singleton, ← h1] at hk
      split at hk
      · rename_i e
        subst e
        by_cases hin : s.inRow x.1 = true
        · exact (h2 _).mp hin
        · have hz : x.2 = 0 := by
            by_contra hne
            exact hc (by simp [hin, hne])
          rw [hz, add_zero] at hk
          exact h4 _ hk
      · exact h4 k hk

theorem cancel_eq (acc : Nat → R) (inRow : Nat → Bool) (l : List Nat) :
    (cancel acc inRow l).2 = l.filter (fun c => decide (acc c ≠ 0)) ∧
    ∀ k, (cancel acc inRow l).1 k = if k ∈ l ∧ acc k = 0 then false else inRow k := by
  induction l generalizing inRow with
  | nil => simp [cancel]
  | cons c l ih =>
    rw [cancel]
    by_cases hc : acc c = 0
    · rw [if_pos hc]
      obtain ⟨i1, i2⟩ := ih (fun k => if k = c then false else inRow k)
      refine ⟨by rw [i1]; simp [hc], ?_⟩
      intro k
      rw [i2]
      by_cases hk : k ∈ l ∧ acc k = 0
      · rw [if_pos hk, if_pos ⟨by simp [hk.1], hk.2⟩]
      · rw [if_neg hk]
        by_cases hkc : k = c
        · subst hkc; simp [hc]
        · rw [if_neg hkc, if_neg (by simp only [List.mem_cons]; rintro ⟨h | h, h'⟩; exacts [hkc h, hk ⟨h, h'⟩])]
    · rw [if_neg hc]
      obtain ⟨i1, i2⟩ := ih inRow
      refine ⟨by simp only []; rw [i1]; simp [hc], ?_⟩
      intro k
      simp only []
      rw [i2]
      by_cases hkc : k = c
      · subst hkc; simp [hc]
      · simp [hkc]

/-- The flush loop. -/
theorem flush_eq (row : List Nat) (hn : row.Nodup) (acc : Nat → R) (inRow : Nat → Bool) (cols : List Nat) (vals : List R) :
    row.foldl (fun (f : (Nat → R) × (Nat → Bool) × List Nat × List R) c =>
      (fun k => if k = c then 0 else f.1 k, fun k => if k = c then false else f.2.1 k, f.2.2.1 ++ [c], f.2.2.2 ++ [f.1 c]))
      (acc, inRow, cols, vals) =
    (fun k => if k ∈ row then 0 else acc k, fun k => if k ∈ row then false else inRow k, cols ++ row, vals ++ row.map acc) := by
  induction row using List.reverseRecOn with
  | nil => simp
  | append_singleton row c ih =>
    rw [List.nodup_append] at hn
    have hc : c ∉ row := fun h => hn.2.2 c h c (by simp) rfl
    rw [List.foldl_append, ih hn.1]
    simp only [List.foldl_cons, List.foldl_nil, if_neg hc, List.append_assoc, List.map_append, List.map_cons, List.map_nil]
    refine Prod.ext ?_ (Prod.ext ?_ rfl)
    · funext k
      simp only [List.mem_append, List.mem_singleton]
      by_cases h1 : k = c
      · simp [h1]
      · simp [h1]
    · funext k
      simp only [List.mem_append, List.mem_singleton]
      by_cases h1 : k = c
      · simp [h1]
      · simp [h1]

/-- Columns stored for a row with contributions `T`. -/
def rowOf (T : List (Nat × R)) : List Nat :=
  sortNat ((T.foldl addTerm ⟨fun _ => 0, fun _ => false, []⟩).rowCols.filter fun c => decide (sumAt T c ≠ 0))

theorem mem_rowOf (T : List (Nat × R)) (k : Nat) : k ∈ rowOf T ↔ sumAt T k ≠ 0 := by
  obtain ⟨h1, _, _, h4⟩ := addTerm_fold T
  unfold rowOf
  rw [(sortNat_perm _).mem_iff, List.mem_filter, decide_eq_true_eq]
  constructor
  · exact fun h => h.2
  · intro h
    exact ⟨h4 k (by rw [h1]; exact h), h⟩

theorem rowOf_strict (T : List (Nat × R)) : (rowOf T).Pairwise (· < ·) := by
  obtain ⟨_, _, h3, _⟩ := addTerm_fold T
  have hn : (rowOf T).Nodup := (sortNat_perm _).nodup_iff.mpr (h3.filter _)
  have hs : (rowOf T).Pairwise (· ≤ ·) := sortNat_sorted _
  exact (hs.and hn).imp (fun h => lt_of_le_of_ne h.1 h.2)

/-- One row starting from a clean accumulator leaves it clean. -/
theorem rowStep_eq (nown : Nat) (terms : Nat → List (Nat × R)) (o : Out R) (i : Nat) :
    rowStep nown terms (fun _ => 0, fun _ => false, o) i =
      (fun _ => 0, fun _ => false, ⟨o.cols ++ rowOf (terms i), o.vals ++ (rowOf (terms i)).map (sumAt (terms i)),
        o.rowPtr ++ [(o.cols ++ rowOf (terms i)).length],
        o.offDiag ++ [lowerBound (fun c => decide (c < nown)) (rowOf (terms i))]⟩) := by
  obtain ⟨h1, h2, h3, h4⟩ := addTerm_fold (terms i)
  have hacc : ((terms i).foldl addTerm ⟨fun _ => 0, fun _ => false, []⟩).acc = sumAt (terms i) := funext h1
  have hrow : sortNat (cancel ((terms i).foldl addTerm ⟨fun _ => 0, fun _ => false, []⟩).acc
      ((terms i).foldl addTerm ⟨fun _ => 0, fun _ => false, []⟩).inRow
      ((terms i).foldl addTerm ⟨fun _ => 0, fun _ => false, []⟩).rowCols).2 = rowOf (terms i) := by
    rw [(cancel_eq _ _ _).1, hacc]; rfl
  unfold rowStep
  simp only []
  rw [hrow, flush_eq _ (nodup_of_strict (rowOf_strict _)), hacc]
  refine Prod.ext ?_ (Prod.ext ?_ rfl)
  · funext k
    simp only
    split
    · rfl
    · rename_i hk
      by_contra hne
      exact hk ((mem_rowOf _ _).mpr hne)
  · funext k
    simp only
    split
    · rfl
    · rename_i hk
      rw [(cancel_eq _ _ _).2]
      split
      · rfl
      · rename_i hkk
        by_contra hne
        have hin : k ∈ ((terms i).foldl addTerm ⟨fun _ => 0, fun _ => false, []⟩).rowCols := (h2 k).mp (by simpa using hne)
        rw [mem_rowOf, not_not] at hk
        exact hkk ⟨hin, hk⟩

theorem rows_fold (nown : Nat) (terms : Nat → List (Nat × R)) (n : Nat) :
    (List.range n).foldl (rowStep nown terms) (fun _ => 0, fun _ => false, ⟨[], [], [0], []⟩) =
      (fun _ => 0, fun _ => false, ⟨(List.range n).flatMap (fun i => rowOf (terms i)),
        (List.range n).flatMap (fun i => (rowOf (terms i)).map (sumAt (terms i))),
        (List.range (n + 1)).map (excl fun i => (rowOf (terms i)).length),
        (List.range n).map fun i => lowerBound (fun c => decide (c < nown)) (rowOf (terms i))⟩) := by
  induction n with
  | zero => simp
  | succ n ih =>
    rw [List.range_succ, List.foldl_append, ih, List.foldl_cons, List.foldl_nil, rowStep_eq]
    have e : ((List.range n).flatMap (fun i => rowOf (terms i)) ++ rowOf (terms n)).length =
        excl (fun i => (rowOf (terms i)).length) (n + 1) := by
      rw [List.length_append, length_flatMap_range, excl_succ]
    rw [e]
    refine Prod.ext rfl (Prod.ext rfl ?_)
    simp only [List.range_succ, List.flatMap_append, List.flatMap_cons, List.flatMap_nil, List.append_nil,
      List.map_append, List.map_cons, List.map_nil]

end Verif.MatMul
