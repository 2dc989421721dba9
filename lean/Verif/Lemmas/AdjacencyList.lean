import Verif.Model.AdjacencyList
import Verif.Model.Offsets
import Verif.Lemmas.BucketFill
/-! Offsets built by pushing `last + length`. -/
namespace Verif.AdjList
open Verif.Offsets

variable {α β : Type}

/-- Pushing partial sums gives the exclusive prefix sums. -/
theorem foldl_push (f : β → Nat) (l : List β) :
    l.foldl (fun (o : List Nat) x => o ++ [o.getLast?.getD 0 + f x]) [0] =
      (List.range (l.length + 1)).map (excl (fun i => (l[i]?.map f).getD 0)) := by
  induction l using List.reverseRecOn with
  | nil => simp
  | append_singleton l x ih =>
    rw [List.foldl_append, ih]
    simp only [List.foldl_cons, List.foldl_nil, List.length_append, List.length_singleton]
    have e1 : ∀ i, i ≤ l.length → excl (fun i => ((l ++ [x])[i]?.map f).getD 0) i =
        excl (fun i => (l[i]?.map f).getD 0) i := by
      intro i hi
      apply excl_congr
      intro j hj
      rw [List.getElem?_append_left (by omega)]
    rw [List.range_succ (n := l.length + 1), List.map_append]
    congr 1
    · apply List.map_congr_left
      intro i hi
      rw [List.mem_range] at hi
      exact (e1 i (by omega)).symm
    · simp only [List.map_cons, List.map_nil, List.cons.injEq, and_true]
      rw [excl_succ, e1 _ (le_refl _)]
      rw [List.range_succ, List.map_append]
      simp

theorem foldl_append_flatten (rows : List (List α)) (acc : List α) :
    rows.foldl (fun a e => a ++ e) acc = acc ++ rows.flatten := by
  induction rows generalizing acc with
  | nil => simp
  | cons r rows ih => simp [ih]

/-- The slice of a flattened list at displacement `excl len i` is row `i`. -/
theorem slice_flatten (rows : List (List α)) (i : Nat) (hi : i < rows.length) :
    (rows.flatten.drop (excl (fun i => (rows[i]?.map List.length).getD 0) i)).take (rows[i].length) = rows[i] := by
  induction rows generalizing i with
  | nil => simp at hi
  | cons r rows ih =>
    cases i with
    | zero => simp
    | succ i =>
      have : excl (fun i => ((r :: rows)[i]?.map List.length).getD 0) (i + 1) =
          r.length + excl (fun i => (rows[i]?.map List.length).getD 0) i := by
        unfold excl
        rw [List.range_succ_eq_map]
        simp [Function.comp_def]
      rw [this, List.flatten_cons, List.drop_length_add_append]
      simpa using ih i (by simpa using hi)

end Verif.AdjList
