import Verif.Model.StdAlg
import Mathlib.Data.List.Basic
import Mathlib.Data.List.Perm.Basic
import Mathlib.Data.List.Nodup
import Mathlib.Order.Defs.LinearOrder
import Mathlib.Order.Basic
import Mathlib.Order.Lattice
/-! Specifications of the modelled standard algorithms. -/
namespace Verif.Std

variable {α : Type}

/-- `p` holds on a prefix of `l` and on no later element. -/
def Partitioned (p : α → Bool) (l : List α) : Prop :=
  ∀ i j (hi : i < l.length) (hj : j < l.length), i ≤ j → p l[j] = true → p l[i] = true

theorem lowerBoundAux_spec (p : α → Bool) (l : List α) (hp : Partitioned p l) (fuel first len : Nat)
    (hf : len ≤ fuel)
    (hle : first + len ≤ l.length)
    (hlo : ∀ i (hi : i < l.length), i < first → p l[i] = true)
    (hhi : ∀ i (hi : i < l.length), first + len ≤ i → p l[i] = false) :
    lowerBoundAux p l fuel first len ≤ l.length ∧
    (∀ i (hi : i < l.length), i < lowerBoundAux p l fuel first len → p l[i] = true) ∧
    (∀ i (hi : i < l.length), lowerBoundAux p l fuel first len ≤ i → p l[i] = false) := by
  induction fuel generalizing first len with
  | zero =>
    have : len = 0 := by omega
    subst this
    exact ⟨by simpa [lowerBoundAux] using hle, by simpa [lowerBoundAux] using hlo,
      by simpa [lowerBoundAux] using hhi⟩
  | succ fuel ih =>
    rw [lowerBoundAux]
    split
    · rename_i h; subst h
      exact ⟨by omega, hlo, hhi⟩
    · rename_i h
      have hm : first + len / 2 < l.length := by omega
      simp only [List.getElem?_eq_getElem hm]
      split
      · rename_i hpx
        apply ih (first + len / 2 + 1) (len - len / 2 - 1) (by omega) (by omega)
        · intro i hi hlt
          exact hp i (first + len / 2) hi hm (by omega) hpx
        · intro i hi hge
          exact hhi i hi (by omega)
      · rename_i hpx
        apply ih first (len / 2) (by omega) (by omega) hlo
        intro i hi hge
        by_contra hc
        simp only [Bool.not_eq_false] at hc
        exact hpx (hp (first + len / 2) i hm hi hge hc)

/-- On a partitioned list `lower_bound` returns the partition point. -/
theorem lowerBound_spec (p : α → Bool) (l : List α) (hp : Partitioned p l) :
    lowerBound p l ≤ l.length ∧
    (∀ i (hi : i < l.length), i < lowerBound p l → p l[i] = true) ∧
    (∀ i (hi : i < l.length), lowerBound p l ≤ i → p l[i] = false) :=
  lowerBoundAux_spec p l hp l.length 0 l.length (le_refl _) (by omega) (by intros; omega) (by intros; omega)

theorem lowerBound_eq_of (p : α → Bool) (l : List α) (hp : Partitioned p l) (n : Nat)
    (hn : n ≤ l.length) (h1 : ∀ i (hi : i < l.length), i < n → p l[i] = true)
    (h2 : ∀ i (hi : i < l.length), n ≤ i → p l[i] = false) : lowerBound p l = n := by
  obtain ⟨hle, hlo, hhi⟩ := lowerBound_spec p l hp
  rcases Nat.lt_trichotomy (lowerBound p l) n with h | h | h
  · have a := h1 (lowerBound p l) (by omega) h
    have b := hhi (lowerBound p l) (by omega) (le_refl _)
    rw [a] at b; exact absurd b (by simp)
  · exact h
  · have a := h2 n (by omega) (le_refl _)
    have b := hlo n (by omega) h
    rw [b] at a; exact absurd a (by simp)

/-- `lower_bound` counts the elements before the searched value. -/
theorem lowerBound_eq_countP (p : α → Bool) (l : List α) (hp : Partitioned p l) :
    lowerBound p l = l.countP p := by
  obtain ⟨hle, hlo, hhi⟩ := lowerBound_spec p l hp
  have h := List.take_append_drop (lowerBound p l) l
  have h1 : (l.take (lowerBound p l)).countP p = lowerBound p l := by
    rw [List.countP_eq_length.mpr]
    · simp [hle]
    · intro a ha
      obtain ⟨i, hi, rfl⟩ := List.getElem_of_mem ha
      simp only [List.length_take] at hi
      rw [List.getElem_take]
      exact hlo i (by omega) (by omega)
  have h2 : (l.drop (lowerBound p l)).countP p = 0 := by
    rw [List.countP_eq_zero]
    intro a ha
    obtain ⟨i, hi, rfl⟩ := List.getElem_of_mem ha
    simp only [List.length_drop] at hi
    rw [List.getElem_drop, hhi _ _ (by omega)]
    simp
  conv_rhs => rw [← h]
  rw [List.countP_append, h1, h2, Nat.add_zero]

/-- A list sorted by a key is partitioned by `key < k`. -/
theorem partitioned_of_sorted {κ : Type} [LinearOrder κ] (key : α → κ) (l : List α)
    (hs : l.Pairwise (fun x y => key x ≤ key y)) (k : κ) :
    Partitioned (fun x => decide (key x < k)) l := by
  intro i j hi hj hij h
  simp only [decide_eq_true_eq] at h ⊢
  rcases Nat.lt_or_ge i j with hlt | hge
  · exact lt_of_le_of_lt (List.pairwise_iff_getElem.mp hs i j hi hj hlt) h
  · have : i = j := by omega
    subst this; exact h

/-- Lookup by `lower_bound` in a list sorted by key: if some element has the key,
the position found is the first such element. -/
theorem lowerBound_find {κ : Type} [LinearOrder κ] (key : α → κ) (l : List α)
    (hs : l.Pairwise (fun x y => key x ≤ key y)) (k : κ) (h : ∃ x ∈ l, key x = k) :
    ∃ x, l[lowerBound (fun x => decide (key x < k)) l]? = some x ∧ key x = k ∧ x ∈ l := by
  obtain ⟨hle, hlo, hhi⟩ := lowerBound_spec _ l (partitioned_of_sorted key l hs k)
  generalize lowerBound (fun x => decide (key x < k)) l = n at *
  obtain ⟨x, hx, hk⟩ := h
  obtain ⟨i, hi, rfl⟩ := List.getElem_of_mem hx
  have hni : n ≤ i := by
    by_contra hc
    have := hlo i hi (by omega)
    simp [hk] at this
  have hn : n < l.length := by omega
  refine ⟨l[n], List.getElem?_eq_getElem hn, ?_, List.getElem_mem hn⟩
  have h1 := hhi n hn (le_refl _)
  simp only [decide_eq_false_iff_not, not_lt] at h1
  rcases Nat.lt_or_ge n i with hlt | hge
  · have h2 := List.pairwise_iff_getElem.mp hs n i hn hi hlt
    rw [hk] at h2
    exact le_antisymm h2 h1
  · have : n = i := by omega
    subst this; exact hk

theorem insertOrd_perm (le : α → α → Bool) (a : α) (l : List α) : (insertOrd le a l).Perm (a :: l) := by
  induction l with
  | nil => simp [insertOrd]
  | cons b l ih =>
    rw [insertOrd]; split
    · exact List.Perm.refl _
    · exact (List.Perm.cons b ih).trans (List.Perm.swap a b l)

theorem sort_perm (le : α → α → Bool) (l : List α) : (sort le l).Perm l := by
  induction l with
  | nil => simp [sort]
  | cons a l ih => exact (insertOrd_perm le a _).trans (List.Perm.cons a ih)

theorem sort_sorted (le : α → α → Bool) (htrans : ∀ a b c, le a b = true → le b c = true → le a c = true)
    (htot : ∀ a b, (le a b || le b a) = true) (l : List α) :
    (sort le l).Pairwise (fun a b => le a b = true) := by
  induction l with
  | nil => simp [sort]
  | cons a l ih =>
    rw [sort]
    generalize sort le l = s at ih
    induction s with
    | nil => simp [insertOrd]
    | cons b s ih2 =>
      obtain ⟨h1, h2⟩ := List.pairwise_cons.mp ih
      rw [insertOrd]; split
      · rename_i hab
        refine List.pairwise_cons.mpr ⟨?_, ih⟩
        intro c hc
        rcases List.mem_cons.mp hc with rfl | hc
        · exact hab
        · exact htrans _ _ _ hab (h1 c hc)
      · rename_i hab
        refine List.pairwise_cons.mpr ⟨?_, ih2 h2⟩
        intro c hc
        rcases List.mem_cons.mp ((insertOrd_perm le a s).mem_iff.mp hc) with rfl | hc
        · have := htot c b
          simpa [hab] using this
        · exact h1 c hc

theorem length_sort (le : α → α → Bool) (l : List α) : (sort le l).length = l.length :=
  (sort_perm le l).length_eq

/-- Sorting is stable: equal-key elements keep their order. -/
theorem sort_filter (le : α → α → Bool) (q : α → Bool) (hq : ∀ a b, q a = true → q b = true → le a b = true)
    (l : List α) : (sort le l).filter q = l.filter q := by
  induction l with
  | nil => simp [sort]
  | cons a l ih =>
    rw [sort, List.filter_cons, ← ih]
    generalize sort le l = s
    by_cases hqa : q a = true
    · rw [if_pos hqa]
      induction s with
      | nil => simp [insertOrd, hqa]
      | cons b s ih2 =>
        rw [insertOrd]; split
        · rw [List.filter_cons, if_pos hqa]
        · rename_i hab
          have hqb : q b ≠ true := fun h => hab (hq a b hqa h)
          rw [List.filter_cons, if_neg hqb, ih2, List.filter_cons, if_neg hqb]
    · rw [if_neg hqa]
      induction s with
      | nil => simp [insertOrd, hqa]
      | cons b s ih2 =>
        rw [insertOrd]; split
        · rw [List.filter_cons, if_neg hqa]
        · rw [List.filter_cons, List.filter_cons, ih2]

theorem mem_sort (le : α → α → Bool) (l : List α) (x : α) : x ∈ sort le l ↔ x ∈ l :=
  (sort_perm le l).mem_iff

theorem sort_sorted_le [LinearOrder α] (l : List α) :
    (sort (fun a b => decide (a ≤ b)) l).Pairwise (· ≤ ·) := by
  have := sort_sorted (fun a b : α => decide (a ≤ b))
    (fun a b c h1 h2 => by simp only [decide_eq_true_eq] at *; exact le_trans h1 h2)
    (fun a b => by simp only [Bool.or_eq_true, decide_eq_true_eq]; exact le_total a b) l
  exact this.imp (fun h => by simpa using h)

theorem mem_unique [DecidableEq α] (l : List α) (x : α) : x ∈ unique l ↔ x ∈ l := by
  induction l with
  | nil => simp [unique]
  | cons a l ih =>
    rw [unique]
    split
    · rename_i h
      rw [h] at ih
      simp only [List.mem_cons, ← ih]
    · rename_i b r h
      rw [h] at ih
      split
      · rename_i e; subst e
        rw [ih]; simp only [List.mem_cons]
        constructor
        · exact Or.inr
        · rintro (rfl | h2)
          · exact ih.mp (by simp)
          · exact h2
      · rw [List.mem_cons, ih, List.mem_cons]

/-- `unique` of a sorted list is strictly sorted. -/
theorem unique_sorted [DecidableEq α] [LinearOrder α] (l : List α) (h : l.Pairwise (· ≤ ·)) :
    (unique l).Pairwise (· < ·) := by
  induction l with
  | nil => simp [unique]
  | cons a l ih =>
    obtain ⟨h1, h2⟩ := List.pairwise_cons.mp h
    have ih := ih h2
    rw [unique]
    split
    · simp
    · rename_i b r e
      rw [e] at ih
      split
      · exact ih
      · rename_i hne
        refine List.pairwise_cons.mpr ⟨?_, ih⟩
        have hb : b ∈ l := (mem_unique l b).mp (by rw [e]; simp)
        have hab : a < b := lt_of_le_of_ne (h1 b hb) hne
        intro x hx
        rcases List.mem_cons.mp hx with rfl | hx
        · exact hab
        · exact lt_trans hab ((List.pairwise_cons.mp ih).1 x hx)

theorem sortNat_sorted (l : List Nat) : (sortNat l).Pairwise (· ≤ ·) := sort_sorted_le l

theorem mem_sortNat (l : List Nat) (x : Nat) : x ∈ sortNat l ↔ x ∈ l := mem_sort _ l x

theorem sortNat_perm (l : List Nat) : (sortNat l).Perm l := sort_perm _ l

theorem unique_sortNat_sorted (l : List Nat) : (unique (sortNat l)).Pairwise (· < ·) :=
  unique_sorted _ (sortNat_sorted l)

theorem mem_unique_sortNat (l : List Nat) (x : Nat) : x ∈ unique (sortNat l) ↔ x ∈ l := by
  rw [mem_unique, mem_sortNat]

theorem nodup_of_strict [LinearOrder α] {l : List α} (h : l.Pairwise (· < ·)) : l.Nodup :=
  h.imp (fun h => ne_of_lt h)

end Verif.Std
