import Verif.Model.AdjacencyList
import Verif.Lemmas.AdjacencyList
import Verif.Prelude
/-!
# C23: AdjacencyList constructors and accessors
-/
namespace Verif.Props
open Verif.AdjList Verif.Offsets

variable {α : Type}

/-- C23: a list built from rows has one node per row and returns each row unchanged. -/
theorem C23_rows (rows : List (List α)) :
    (ofRows rows).numNodes = rows.length ∧
    (∀ i (hi : i < rows.length), (ofRows rows).links i = some rows[i] ∧
      (ofRows rows).numLinks i = some rows[i].length) ∧
    (∀ i, rows.length ≤ i → (ofRows rows).links i = none) := by
  have ho : (ofRows rows).offsets = (List.range (rows.length + 1)).map
      (excl (fun i => (rows[i]?.map List.length).getD 0)) := foldl_push List.length rows
  have ha : (ofRows rows).array = rows.flatten := by
    simp [ofRows, foldl_append_flatten]
  have hget : ∀ i, i ≤ rows.length → (ofRows rows).offsets[i]? =
      some (excl (fun i => (rows[i]?.map List.length).getD 0) i) := by
    intro i hi; rw [ho, List.getElem?_map, List.getElem?_range (by omega)]; rfl
  refine ⟨by simp [AdjList.numNodes, ho], ?_, ?_⟩
  · intro i hi
    have hl : excl (fun i => (rows[i]?.map List.length).getD 0) (i + 1) -
        excl (fun i => (rows[i]?.map List.length).getD 0) i = rows[i].length := by
      rw [excl_succ, List.getElem?_eq_getElem hi]; simp
    constructor
    · unfold AdjList.links
      rw [hget i (by omega), hget (i + 1) (by omega)]
      simp only [hl, ha, slice_flatten rows i hi]
    · unfold AdjList.numLinks
      rw [hget i (by omega), hget (i + 1) (by omega)]
      simp only [hl]
  · intro i hi
    have : (ofRows rows).offsets[i + 1]? = none := by
      rw [List.getElem?_eq_none_iff, ho]; simp; omega
    unfold AdjList.links
    rw [this]
    split
    · rename_i h; simp at h
    · rfl

/-- C23: flat data is accepted exactly when the last offset is its size, and then
stored unchanged. -/
theorem C23_flat (data : List α) (offsets : List Nat) :
    (∀ a, ofData data offsets = .ok a ↔ offsets.getLast? = some data.length ∧ a = ⟨data, offsets⟩) ∧
    (ofData data offsets = .error .lastOffset ↔
      ∃ o, offsets.getLast? = some o ∧ o ≠ data.length) := by
  unfold ofData
  cases h : offsets.getLast? with
  | none => simp
  | some o =>
    by_cases ho : o = data.length <;> simp [ho, eq_comm]

/-- C23: constant-degree list with positive degree dividing the data: row `i` is the
`i`-th chunk of `degree` entries. -/
theorem C23_regular (data : List α) (d : Nat) (hd : 0 < d) (hdiv : data.length % d = 0) :
    ∃ a, regular data d = .ok a ∧ a.numNodes = data.length / d ∧
      ∀ i, i < data.length / d → a.links i = some ((data.drop (i * d)).take d) ∧
        ((data.drop (i * d)).take d).length = d := by
  have hmul : data.length / d * d = data.length := Nat.div_mul_cancel (Nat.dvd_of_mod_eq_zero hdiv)
  have ho : (List.range (data.length / d)).foldl
      (fun (o : List Nat) _ => o ++ [o.getLast?.getD 0 + d]) [0] =
      (List.range (data.length / d + 1)).map (fun i => i * d) := by
    have := foldl_push (fun _ : Nat => d) (List.range (data.length / d))
    rw [this, List.length_range]
    apply List.map_congr_left
    intro i hi
    rw [List.mem_range] at hi
    have : ∀ j, j ≤ data.length / d →
        excl (fun i => ((List.range (data.length / d))[i]?.map (fun _ => d)).getD 0) j = j * d := by
      intro j
      induction j with
      | zero => simp
      | succ j ih =>
        intro hj
        rw [excl_succ, ih (by omega), List.getElem?_range (by omega)]
        simp; ring
    exact this i (by omega)
  refine ⟨⟨data, (List.range (data.length / d + 1)).map (fun i => i * d)⟩, ?_, ?_, ?_⟩
  · unfold regular
    rw [if_neg (by simp; omega), if_neg (by simp; omega)]
    simp only [Int.toNat_natCast]
    have h1 : ¬ ((d : Int) = 0) := by omega
    have h2 : ¬ ((d : Int) < 0) := by omega
    simp only [if_neg h1, if_neg h2, ho]
    unfold ofData
    have : ((List.range (data.length / d + 1)).map (fun i => i * d)).getLast? = some data.length := by
      rw [List.range_succ, List.map_append]; simp [hmul]
    rw [this]; simp
  · simp [AdjList.numNodes]
  · intro i hi
    constructor
    · unfold AdjList.links
      simp only [List.getElem?_map]
      rw [List.getElem?_range (by omega), List.getElem?_range (by omega)]
      simp only [Option.map_some]
      rw [show (i + 1) * d - i * d = d by rw [Nat.succ_mul]; omega]
    · have : (i + 1) * d ≤ data.length := by rw [← hmul]; exact Nat.mul_le_mul_right d hi
      simp only [List.length_take, List.length_drop]
      rw [Nat.succ_mul] at this; omega

/-- C23: incompatible degree is rejected, for every integer degree, and nothing else is. -/
theorem C23_regular_reject (data : List α) (degree : Int) :
    (∃ e, regular data degree = .error e) ↔
      (degree ≤ 0 ∧ data ≠ []) ∨ (0 < degree ∧ ¬ degree ∣ (data.length : Int)) := by
  rcases lt_trichotomy degree 0 with h | h | h
  · unfold regular
    rw [if_neg (by omega), if_neg (by omega)]
    simp only [if_neg (by omega : ¬ degree = 0), if_pos h, List.range_zero, List.foldl_nil]
    unfold ofData
    cases data with
    | nil => simp
    | cons x l => simp; omega
  · subst h
    unfold regular
    by_cases hd : data = []
    · subst hd; simp [ofData]
    · simp [hd]
  · obtain ⟨d, rfl⟩ : ∃ d : Nat, degree = d := ⟨degree.toNat, by omega⟩
    have hd : 0 < d := by omega
    by_cases hm : data.length % d = 0
    · obtain ⟨a, ha, _⟩ := C23_regular data d hd hm
      rw [ha]
      have : (d : Int) ∣ (data.length : Int) := by exact_mod_cast Nat.dvd_of_mod_eq_zero hm
      simp [this]; omega
    · have : ¬ (d : Int) ∣ (data.length : Int) := by
        intro hc; exact hm (Nat.mod_eq_zero_of_dvd (by exact_mod_cast hc))
      constructor
      · intro _; right; exact ⟨h, this⟩
      · intro _
        unfold regular
        rw [if_neg (by simp; omega), if_pos (by simp; exact ⟨hd, hm⟩)]
        exact ⟨_, rfl⟩

/-- C23: the trivial list links every node to itself. -/
theorem C23_trivial (n i : Nat) (hi : i < n) :
    (AdjList.trivial n).numNodes = n ∧ (AdjList.trivial n).links i = some [i] := by
  refine ⟨by simp [AdjList.trivial, AdjList.numNodes], ?_⟩
  unfold AdjList.links AdjList.trivial
  simp only
  rw [List.getElem?_range (by omega), List.getElem?_range (by omega)]
  simp only [Option.some.injEq]
  rw [show i + 1 - i = 1 by omega]
  apply List.ext_getElem
  · simp; omega
  · intro k h1 h2
    simp at h2; subst h2
    simp

example : (ofRows [[3, 1], [], [2]]).links 0 = some [3, 1] ∧ (ofRows [[3, 1], [], [2]]).links 1 = some [] := by
  decide
example : [1, 2, 3, 4, 5, 6].length % 3 = 0 ∧
    (match regular [1, 2, 3, 4, 5, 6] 3 with | .ok a => a.links 1 | .error _ => none) = some [4, 5, 6] := by decide

end Verif.Props
