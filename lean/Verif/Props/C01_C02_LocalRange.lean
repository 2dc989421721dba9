import Verif.Model.LocalRange
import Verif.Spec.Partition
import Verif.Lemmas.Partition
import Mathlib.Tactic.Ring
import Mathlib.Tactic.Linarith
/-!
# C01, C02: `local_range` and `index_owner`
-/
namespace Verif.Props
open Verif.LocalRange Verif.Spec

/-- C01: the ranges given to ranks `0..size-1` tile `0..N-1`. -/
theorem C01_local_range_tiles (N size : Nat) (hs : 0 < size) :
    Tiles (fun r => localRange r N size) size N := by
  have hN : size * (N / size) + N % size = N := Nat.div_add_mod N size
  have hr : N % size < size := Nat.mod_lt _ hs
  constructor
  · intro _; simp only [localRange]; split
    · simp
    · simp; omega
  · intro r _; simp only [localRange]
    generalize N / size = n at *
    split <;> simp <;> omega
  · intro r hr1; simp only [localRange]
    generalize N / size = n at *
    generalize N % size = m at *
    split <;> split
    · simp; ring
    · omega
    · have : m = r + 1 := by omega
      subst this; simp; ring
    · simp; ring
  · intro r hr1; simp only [localRange]
    generalize N / size = n at *
    generalize N % size = m at *
    subst hr1
    split
    · omega
    · show r * n + m + n = N
      rw [← hN]; ring

/-- C01: ranges differ in length by at most one, and longer ranges come first. -/
theorem C01_local_range_balanced (N size a b : Nat) (hab : a ≤ b) :
    len (localRange b N size) ≤ len (localRange a N size) ∧
    len (localRange a N size) ≤ len (localRange b N size) + 1 := by
  simp only [localRange, len]
  split <;> split <;> simp <;> omega

/-- C01: every index below `N` lies in the range of exactly one rank. -/
theorem C01_exactly_one_rank (N size i : Nat) (hs : 0 < size) (hi : i < N) :
    ∃ r, (r < size ∧ InRange i (localRange r N size)) ∧
      ∀ r', r' < size → InRange i (localRange r' N size) → r' = r := by
  have ht := C01_local_range_tiles N size hs
  obtain ⟨r, hr, hir⟩ := ht.cover hs hi
  exact ⟨r, ⟨hr, hir⟩, fun r' hr' hi' => ht.unique hr' hr hi' hir⟩

/-- C02: `index_owner` returns a valid rank, the index lies in that rank's
range, and in no other rank's range. -/
theorem C02_index_owner_spec (size index N : Nat) (hs : 0 < size) (hi : index < N) :
    indexOwner size index N < size ∧
    InRange index (localRange (indexOwner size index N) N size) ∧
    ∀ r, r < size → InRange index (localRange r N size) → r = indexOwner size index N := by
  have hN : size * (N / size) + N % size = N := Nat.div_add_mod N size
  have hr : N % size < size := Nat.mod_lt _ hs
  have main : indexOwner size index N < size ∧
      InRange index (localRange (indexOwner size index N) N size) := by
    simp only [indexOwner]
    generalize hn : N / size = n at *
    generalize hm : N % size = m at *
    split
    · rename_i h
      have hlt : index / (n + 1) < m := Nat.div_lt_of_lt_mul (by rwa [Nat.mul_comm] at h)
      refine ⟨by omega, ?_⟩
      simp only [localRange, InRange, hn, hm, hlt, if_true]
      have h1 := Nat.div_add_mod index (n + 1)
      have h2 := Nat.mod_lt index (show 0 < n + 1 by omega)
      rw [Nat.mul_comm] at h1
      generalize index / (n + 1) = q at *
      generalize index % (n + 1) = t at *
      generalize q * (n + 1) = z at *
      constructor <;> omega
    · rename_i h
      have hn0 : 0 < n := by
        rcases Nat.eq_zero_or_pos n with h0 | h0
        · subst h0; simp at *; omega
        · exact h0
      have hsm : size = m + (size - m) := by omega
      have hub : index - m * (n + 1) < n * (size - m) := by
        have : N = m * (n + 1) + n * (size - m) := by
          rw [← hN]; conv_lhs => rw [hsm]
          ring
        omega
      have hq : (index - m * (n + 1)) / n < size - m := Nat.div_lt_of_lt_mul hub
      refine ⟨by generalize (index - m * (n + 1)) / n = q at *; omega, ?_⟩
      have hnl : ¬ (m + (index - m * (n + 1)) / n < m) := Nat.not_lt.mpr (Nat.le_add_right _ _)
      simp only [localRange, InRange, hn, hm, hnl, if_false]
      have h1 := Nat.div_add_mod (index - m * (n + 1)) n
      have h2 := Nat.mod_lt (index - m * (n + 1)) hn0
      generalize (index - m * (n + 1)) / n = q at *
      have e1 : (m + q) * n = m * n + n * q := by ring
      have e2 : m * (n + 1) = m * n + m := by ring
      rw [e1]
      constructor <;> omega
  refine ⟨main.1, main.2, fun r hr' hi' => ?_⟩
  exact (C01_local_range_tiles N size hs).unique hr' main.1 hi' main.2

/-- Non-trivial instances: `N` not divisible by `size`, and `N < size`. -/
example : (List.range 4).map (fun r => localRange r 10 4) = [(0,3),(3,6),(6,8),(8,10)] := by decide
example : indexOwner 4 7 10 = 2 ∧ InRange 7 (localRange 2 10 4) := by
  constructor <;> simp [indexOwner, localRange, InRange]
example : indexOwner 7 2 3 = 2 ∧ InRange 2 (localRange 2 3 7) := by
  constructor <;> simp [indexOwner, localRange, InRange]

end Verif.Props
