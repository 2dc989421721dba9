import Verif.Spec.Partition
/-! Consequences of `Tiles`. -/
namespace Verif.Spec

theorem Tiles.mono_aux {R : Nat → Nat × Nat} {size N : Nat} (h : Tiles R size N)
    (a k : Nat) (hb : a + k + 1 < size) : (R a).2 ≤ (R (a + k + 1)).1 := by
  induction k with
  | zero => exact Nat.le_of_eq (h.glued a hb).symm
  | succ k ih =>
    have h1 := ih (by omega)
    have h2 := h.ordered (a + k + 1) (by omega)
    have h3 := h.glued (a + k + 1) (by omega)
    have e : a + (k + 1) + 1 = a + k + 1 + 1 := by omega
    rw [e]; omega

theorem Tiles.mono {R : Nat → Nat × Nat} {size N : Nat} (h : Tiles R size N)
    {a b : Nat} (hab : a < b) (hb : b < size) : (R a).2 ≤ (R b).1 := by
  have := h.mono_aux a (b - a - 1) (by omega)
  rwa [show a + (b - a - 1) + 1 = b by omega] at this

/-- Two different ranges of a tiling are disjoint. -/
theorem Tiles.unique {R : Nat → Nat × Nat} {size N : Nat} (h : Tiles R size N)
    {i a b : Nat} (ha : a < size) (hb : b < size)
    (hia : InRange i (R a)) (hib : InRange i (R b)) : a = b := by
  rcases Nat.lt_trichotomy a b with hlt | heq | hgt
  · have := h.mono hlt hb
    have h1 := hia.2; have h2 := hib.1; omega
  · exact heq
  · have := h.mono hgt ha
    have h1 := hib.2; have h2 := hia.1; omega

/-- Every index below `N` lies in some range of a tiling. -/
theorem Tiles.cover {R : Nat → Nat × Nat} {size N : Nat} (h : Tiles R size N)
    {i : Nat} (hs : 0 < size) (hi : i < N) : ∃ a, a < size ∧ InRange i (R a) := by
  have key : ∀ k, k < size → i < (R k).2 → ∃ a, a < size ∧ InRange i (R a) := by
    intro k
    induction k with
    | zero => intro hk h2; exact ⟨0, hk, by rw [h.start hs]; exact Nat.zero_le _, h2⟩
    | succ k ih =>
      intro hk h2
      by_cases hle : (R (k+1)).1 ≤ i
      · exact ⟨k+1, hk, hle, h2⟩
      · exact ih (by omega) (by have := h.glued k hk; omega)
  exact key (size - 1) (by omega) (by rw [h.stop (size-1) (by omega)]; exact hi)

end Verif.Spec
