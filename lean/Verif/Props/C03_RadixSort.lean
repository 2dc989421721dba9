import Verif.Lemmas.RadixSort
/-!
# C03: `radix_sort` is a stable sort

Full claim: for every integral key type, every digit width and every range.  The
code satisfies it only for ranges that are not longer than the key type can
count (`length ≤ 2^w`) and digit widths below the key width, so the positive
theorems carry the suffix `_partial` and the two `C03_refuted_*` theorems show
that neither restriction can be dropped.
-/
namespace Verif.Props
open Verif.RadixSort Verif.Spec

/-- C03 (unsigned keys of `w` bits): for `1 ≤ BITS < w` and ranges of at most
`2^w` elements the result is the stable sort by key. -/
theorem C03_radix_sort_unsigned_partial {α : Type} [Inhabited α] (w b : Nat) (key : α → Nat)
    (l : List α) (hb : 0 < b) (hbw : b < w) (hkey : ∀ x ∈ l, key x < 2 ^ w)
    (hlen : l.length ≤ 2 ^ w) :
    ∃ out, radixSort w b key l = some out ∧ StableSorted key l out :=
  radixSort_stable w b key l hb hbw hkey hlen

/-- C03 (signed keys of `w` bits): same, ordered by the signed value. -/
theorem C03_radix_sort_signed_partial {α : Type} [Inhabited α] {w : Nat} (b : Nat)
    (key : α → BitVec w) (l : List α) (hb : 0 < b) (hbw : b < w) (hlen : l.length ≤ 2 ^ w) :
    ∃ out, radixSortSigned b key l = some out ∧ StableSorted (fun x => (key x).toInt) l out := by
  obtain ⟨out, h1, h2⟩ := radixSort_stable w b (fun x => (unsignedProjection (key x)).toNat) l hb hbw
    (fun x _ => (unsignedProjection (key x)).isLt) hlen
  refine ⟨out, h1, h2.congr_key ?_ ?_⟩
  · intro x _ y _ h
    have hx := xor_top_toInt (by omega) (key x)
    have hy := xor_top_toInt (by omega) (key y)
    have : ((unsignedProjection (key x)).toNat : Int) ≤ (unsignedProjection (key y)).toNat := by
      exact_mod_cast h
    omega
  · intro x _ y _ h
    have hx := xor_top_toInt (by omega) (key x)
    have hy := xor_top_toInt (by omega) (key y)
    have : ((unsignedProjection (key x)).toNat : Int) = (unsignedProjection (key y)).toNat := by
      rw [hx, hy, h]
    exact_mod_cast this

/-- C03 refuted for ranges longer than the key type can count: for every key
width `w ≥ 2` and digit width `b < w` there is a range of `2^w + 1` in-range
keys on which the function returns something that is not sorted. -/
theorem C03_refuted_long_range (w b : Nat) (hb : 0 < b) (hbw : b < w) :
    ∃ l : List Nat, l.length = 2 ^ w + 1 ∧ (∀ x ∈ l, x < 2 ^ w) ∧
      ∃ out, radixSort w b id l = some out ∧ ¬ StableSorted id l out := by
  have h2w : 4 ≤ 2 ^ w := by
    calc 4 = 2 ^ 2 := rfl
      _ ≤ 2 ^ w := Nat.pow_le_pow_right (by omega) (by omega)
  refine ⟨0 :: List.replicate (2 ^ w) 1, by simp, ?_, ?_⟩
  · intro x hx
    simp only [List.mem_cons, List.mem_replicate] at hx
    omega
  · unfold radixSort
    have h1 : ¬ (0 :: List.replicate (2 ^ w) 1).length ≤ 1 := by simp
    have h3 : ¬ 2 ^ b % 2 ^ w = 0 := by
      rw [Nat.mod_eq_of_lt (Nat.pow_lt_pow_right (by omega) hbw)]
      exact (Nat.two_pow_pos b).ne'
    rw [if_neg h1, if_neg h3]
    refine ⟨_, rfl, ?_⟩
    have hall : allTop w id (0 :: List.replicate (2 ^ w) 1) = false := by simp [allTop]
    have hmax : maxKey id (0 :: List.replicate (2 ^ w) 1) = 1 := by
      have hge := le_maxKey id (0 :: List.replicate (2 ^ w) 1) 1 (by simp)
      obtain ⟨x, hx, e⟩ := maxKey_mem id (0 :: List.replicate (2 ^ w) 1) (by simp)
      simp only [List.mem_cons, List.mem_replicate, id] at hx e hge
      omega
    have hits : its b (passMax w id (0 :: List.replicate (2 ^ w) 1)) = 1 := by
      have hp : passMax w id (0 :: List.replicate (2 ^ w) 1) = 1 := by simp [passMax, hall, hmax]
      have hz : 1 >>> b = 0 := by
        rw [Nat.shiftRight_eq_div_pow]
        exact Nat.div_eq_of_lt (Nat.one_lt_two_pow (by omega))
      rw [hp, its, dif_neg (by omega), hz, its, dif_pos (Or.inl rfl)]
    intro hs
    simp only [hits] at hs
    simp only [loop] at hs
    generalize hout : pass w b 0 id (0 :: List.replicate (2 ^ w) 1)
      (List.replicate (0 :: List.replicate (2 ^ w) 1).length default) = out at hs
    have hlast : out[2 ^ w]? = some 0 := by
      rw [← hout]; unfold pass
      simp only
      rw [place_untouched]
      · simp
      · intro j
        rw [offset_eq]; exact Nat.mod_lt _ (Nat.two_pow_pos w)
      · exact le_refl _
    have hlen : out.length = 2 ^ w + 1 := by rw [hs.perm.length_eq]; simp
    have hmem : (1 : Nat) ∈ out := hs.perm.mem_iff.mpr (by simp)
    obtain ⟨i, hi, hi1⟩ := List.getElem_of_mem hmem
    have hl0 : out[2 ^ w]'(by omega) = 0 := by
      rw [List.getElem?_eq_getElem (by omega)] at hlast
      exact Option.some.inj hlast
    have hne : i ≠ 2 ^ w := by intro e; subst e; omega
    have := List.pairwise_iff_getElem.mp hs.sorted i (2 ^ w) hi (by omega) (by omega)
    simp only [id] at this
    omega

/-- C03 refuted for digits as wide as the key (e.g. `sort_by_perm<std::int16_t>`,
whose default is `BITS = 16`, or `radix_sort<8>` on `std::int8_t`): every range of
two or more elements indexes a zero-length counter array. -/
theorem C03_refuted_wide_digit {α : Type} [Inhabited α] (w b : Nat) (key : α → Nat) (l : List α)
    (h : w ≤ b) (hl : 2 ≤ l.length) : radixSort w b key l = none := by
  unfold radixSort
  rw [if_neg (by omega), if_pos]
  exact Nat.mod_eq_zero_of_dvd (Nat.pow_dvd_pow 2 h)

/-- Concrete cases: 64-bit unsigned keys with payload and a tie; 32-bit signed keys. -/
example : radixSort 64 8 Prod.fst [(300, 'a'), (2, 'b'), (300, 'c'), (1, 'd')] =
    some [(1, 'd'), (2, 'b'), (300, 'a'), (300, 'c')] := by decide +kernel
example : radixSortSigned 8 id [(5 : BitVec 32), -3, 0, -3, 7] = some [-3, -3, 0, 5, 7] := by
  decide +kernel
example : (∀ x ∈ [(300 : Nat), 2, 300, 1], x < 2 ^ 64) ∧ [(300 : Nat), 2, 300, 1].length ≤ 2 ^ 64 := by
  decide

end Verif.Props
