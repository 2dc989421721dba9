import Verif.Lemmas.SharingRanks
/-! # C40: ranks that share a vertex, and its owner -/
namespace Verif.Props
open Verif.Sharing

/-- Row `i` on rank `r` lists exactly the ranks that have index `i` of `r`, each once, and all ranks that have an index
see the same rank first. -/
def SharingCorrect (P : Nat) (ind : Nat → List Nat) (result : Nat → List (List Nat)) : Prop :=
  ∃ owner : Nat → Nat, ∀ r, r < P → (result r).length = (ind r).length ∧
    ∀ (i v : Nat), (ind r)[i]? = some v → ∃ l, (result r)[i]? = some l ∧ l.head? = some (owner v) ∧ l.Nodup ∧
      ∀ q, q ∈ l ↔ q < P ∧ v ∈ ind q

/-- **C40 (partial).**  For any number of ranks, one or more threads, and whatever numbers are drawn:
`determine_sharing_ranks` is correct if the indices ascend on each rank and no two different indices have the same low
32 bits.  Missing: indices for which this fails (`C40_refuted_large_numbers`) or that do not ascend
(`C40_refuted_unsorted`). -/
theorem C40_sharing_partial (I : Sharing.Input) (h : Sharing.Ok I) : SharingCorrect I.P I.ind (sharingRanks I) := by
  refine ⟨chosen I, ?_⟩
  intro r hr
  rw [sharingRanks_eq h hr]
  refine ⟨by simp, ?_⟩
  intro i v hi
  have hv := List.mem_of_getElem? hi
  have hc := chosen_mem h hr hv
  obtain ⟨h1, h2⟩ := swapFirst_perm (having I v) (chosen I v) hc
  refine ⟨(ans I (own I v) v).tail, by rw [List.getElem?_map, hi]; rfl, ?_, ?_, ?_⟩
  · rw [ans_tail h hr hv]; exact h2
  · rw [ans_tail h hr hv, h1.nodup_iff]; exact List.nodup_range.filter _
  · intro q
    rw [ans_tail h hr hv, h1.mem_iff]; exact mem_having

/-- Indices below `2^32` satisfy the requirement on the low bits. -/
theorem small_inj {u v : Nat} (hu : u < 2 ^ 32) (hv : v < 2 ^ 32) (h : Sharing.trunc u = Sharing.trunc v) : u = v := by
  unfold Sharing.trunc at h
  rwa [Nat.mod_eq_of_lt hu, Nat.mod_eq_of_lt hv] at h

/-- Three ranks with common indices; the draw picks the last. -/
def exSharing (threaded : Bool) : Sharing.Input where
  P := 3
  ind r := [[1, 4, 9], [4, 7, 9], [2, 9]].getD r []
  pick _ _ n := n - 1
  threaded := threaded

theorem exSharing_ok (t : Bool) : Sharing.Ok (exSharing t) where
  sorted := by
    intro r hr
    match r, hr with
    | 0, _ => cases t <;> decide
    | 1, _ => cases t <;> decide
    | 2, _ => cases t <;> decide
  inj := by
    have hb : ∀ q, ∀ u ∈ (exSharing t).ind q, u < 2 ^ 32 := by
      intro q u hu
      match q, hu with
      | 0, hu => simp [exSharing] at hu; omega
      | 1, hu => simp [exSharing] at hu; omega
      | 2, hu => simp [exSharing] at hu; omega
      | n + 3, hu => simp [exSharing] at hu
    intro q r _ _ u hu v hv he
    exact small_inj (hb q u hu) (hb r v hv) he
  pick := by
    intro r g n hn
    show n - 1 < n
    omega

example : Sharing.Ok (exSharing false) ∧ sharingRanks (exSharing false) 0 = [[0], [1, 0], [2, 1, 0]] ∧
    sharingRanks (exSharing true) 1 = [[1, 0], [1], [2, 1, 0]] :=
  ⟨exSharing_ok _, by decide +kernel, by decide +kernel⟩

/-- One process with two vertices numbered `0` and `2^32`. -/
def exLarge : Sharing.Input where
  P := 1
  ind _ := [0, 2 ^ 32]
  pick _ _ _ := 0
  threaded := false

/-- **C40, refuted for large numbers**: indices are sent as `int`, so vertices `0` and `2^32` of a single process are
taken for one vertex that the process shares with itself. -/
theorem C40_refuted_large_numbers : ¬ SharingCorrect exLarge.P exLarge.ind (sharingRanks exLarge) := by
  rintro ⟨owner, h⟩
  obtain ⟨-, h⟩ := h 0 (by decide)
  obtain ⟨l, h1, -, h2, -⟩ := h 0 0 rfl
  have : (sharingRanks exLarge 0)[0]? = some [0, 0] := by decide +kernel
  rw [this, Option.some.injEq] at h1
  rw [← h1] at h2
  revert h2
  decide

/-- Two processes; the indices of the first do not ascend. -/
def exUnsorted : Sharing.Input where
  P := 2
  ind r := [[3, 0], [0]].getD r []
  pick _ _ _ := 0
  threaded := false

/-- **C40, refuted for unsorted input**: rows come back in the order of the post offices, so with indices `[3, 0]` the
row of `3` belongs to `0`. -/
theorem C40_refuted_unsorted : ¬ SharingCorrect exUnsorted.P exUnsorted.ind (sharingRanks exUnsorted) := by
  rintro ⟨owner, h⟩
  obtain ⟨-, h⟩ := h 0 (by decide)
  obtain ⟨l, h1, -, -, h2⟩ := h 0 3 rfl
  have : (sharingRanks exUnsorted 0)[0]? = some [0, 1] := by decide +kernel
  rw [this, Option.some.injEq] at h1
  rw [← h1] at h2
  have := (h2 1).mp (by decide)
  revert this
  decide

end Verif.Props
