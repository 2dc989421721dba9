import Verif.Model.Offsets
import Mathlib.Data.List.Basic
import Mathlib.Data.List.Range
/-! Correctness of exclusive prefix sums and of cursor-driven bucket filling. -/
namespace Verif.Offsets

variable {α β : Type}

@[simp] theorem excl_zero (c : Nat → Nat) : excl c 0 = 0 := rfl

theorem excl_succ (c : Nat → Nat) (b : Nat) : excl c (b + 1) = excl c b + c b := by
  simp [excl, List.range_succ]

theorem excl_mono (c : Nat → Nat) {a b : Nat} (h : a ≤ b) : excl c a ≤ excl c b := by
  induction b with
  | zero => simp [Nat.le_zero.mp h]
  | succ b ih =>
    rcases Nat.lt_or_ge a (b + 1) with h1 | h1
    · exact le_trans (ih (by omega)) (by rw [excl_succ]; omega)
    · have : a = b + 1 := by omega
      subst this; exact le_refl _

theorem excl_lt (c : Nat → Nat) {a b : Nat} (h : a < b) : excl c a + c a ≤ excl c b := by
  rw [← excl_succ]; exact excl_mono c h

theorem excl_congr {c d : Nat → Nat} {b : Nat} (h : ∀ i, i < b → c i = d i) :
    excl c b = excl d b := by
  induction b with
  | zero => rfl
  | succ b ih => rw [excl_succ, excl_succ, ih (fun i hi => h i (by omega)), h b (by omega)]

/-- Positions inside different segments differ. -/
theorem excl_inj (c : Nat → Nat) {b b' k k' : Nat} (hk : k < c b) (hk' : k' < c b')
    (h : excl c b + k = excl c b' + k') : b = b' ∧ k = k' := by
  rcases Nat.lt_trichotomy b b' with hlt | heq | hgt
  · have := excl_lt c hlt; omega
  · subst heq; exact ⟨rfl, by omega⟩
  · have := excl_lt c hgt; omega

/-- Every position below the total lies in some segment. -/
theorem excl_split (c : Nat → Nat) {B p : Nat} (h : p < excl c B) :
    ∃ b k, b < B ∧ k < c b ∧ p = excl c b + k := by
  induction B with
  | zero => simp at h
  | succ B ih =>
    rcases Nat.lt_or_ge p (excl c B) with h1 | h1
    · obtain ⟨b, k, hb, hk, e⟩ := ih h1
      exact ⟨b, k, by omega, hk, e⟩
    · refine ⟨B, p - excl c B, by omega, ?_, by omega⟩
      rw [excl_succ] at h; omega

/-- Length of a concatenation. -/
theorem length_flatMap_range (f : Nat → List β) (B : Nat) :
    ((List.range B).flatMap f).length = excl (fun b => (f b).length) B := by
  simp [excl, List.length_flatMap]

/-- Reading a concatenation through displacements. -/
theorem getElem?_flatMap_range (f : Nat → List β) {B b k : Nat} (hb : b < B)
    (hk : k < (f b).length) :
    ((List.range B).flatMap f)[excl (fun b => (f b).length) b + k]? = (f b)[k]? := by
  induction B with
  | zero => omega
  | succ B ih =>
    rw [List.range_succ, List.flatMap_append]
    rcases Nat.lt_or_ge b B with h1 | h1
    · rw [List.getElem?_append_left, ih h1]
      rw [length_flatMap_range]
      have := excl_lt (fun b => (f b).length) h1
      omega
    · have : b = B := by omega
      subst this
      rw [List.getElem?_append_right (by rw [length_flatMap_range]; omega), length_flatMap_range]
      simp

theorem cnt_nil (key : α → Nat) (b : Nat) : cnt key [] b = 0 := rfl

theorem cnt_append_singleton (key : α → Nat) (l : List α) (x : α) (b : Nat) :
    cnt key (l ++ [x]) b = cnt key l b + if key x = b then 1 else 0 := by
  simp only [cnt, List.countP_append, List.countP_singleton, beq_iff_eq]

theorem cnt_eq_length (key : α → Nat) (l : List α) (b : Nat) :
    cnt key l b = (l.filter (fun x => key x == b)).length := List.countP_eq_length_filter

theorem cnt_le_length (key : α → Nat) (l : List α) (b : Nat) : cnt key l b ≤ l.length :=
  List.countP_le_length

theorem fill_append_singleton (key : α → Nat) (val : α → β) (cur : Nat → Nat) (buf : List β)
    (l : List α) (x : α) :
    fill key val cur buf (l ++ [x]) = fillStep key val (fill key val cur buf l) x := by
  simp [fill]

theorem fill_cursor (key : α → Nat) (val : α → β) (cur : Nat → Nat) (buf : List β)
    (l : List α) (b : Nat) : (fill key val cur buf l).1 b = cur b + cnt key l b := by
  induction l using List.reverseRecOn with
  | nil => simp [fill, cnt]
  | append_singleton l x ih =>
    rw [fill_append_singleton, cnt_append_singleton]
    simp only [fillStep]
    by_cases h : b = key x
    · simp [h] at *; omega
    · have h' : ¬ key x = b := fun e => h e.symm
      simp [h, h', ih]

theorem fill_length (key : α → Nat) (val : α → β) (cur : Nat → Nat) (buf : List β)
    (l : List α) : (fill key val cur buf l).2.length = buf.length := by
  induction l using List.reverseRecOn with
  | nil => simp [fill]
  | append_singleton l x ih => rw [fill_append_singleton]; simp [fillStep, ih]

/-- Main invariant of the fill loop: if segments of different buckets do not
overlap and lie inside the buffer, segment `b` holds the values with key `b` in
input order and everything outside the segments is untouched. -/
theorem fill_get (key : α → Nat) (val : α → β) (cur : Nat → Nat) (buf : List β) (l : List α)
    (hdisj : ∀ b b' k k', k < cnt key l b → k' < cnt key l b' →
      cur b + k = cur b' + k' → b = b' ∧ k = k')
    (hin : ∀ b k, k < cnt key l b → cur b + k < buf.length) :
    (∀ b k, k < cnt key l b → (fill key val cur buf l).2[cur b + k]? =
      ((l.filter (fun x => key x == b)).map val)[k]?) ∧
    (∀ p, (∀ b k, k < cnt key l b → p ≠ cur b + k) →
      (fill key val cur buf l).2[p]? = buf[p]?) := by
  induction l using List.reverseRecOn with
  | nil => simp [fill, cnt]
  | append_singleton l x ih =>
    have hle : ∀ b, cnt key l b ≤ cnt key (l ++ [x]) b := by
      intro b; rw [cnt_append_singleton]; omega
    obtain ⟨ih1, ih2⟩ := ih
      (fun b b' k k' hk hk' e => hdisj b b' k k' (lt_of_lt_of_le hk (hle b))
        (lt_of_lt_of_le hk' (hle b')) e)
      (fun b k hk => hin b k (lt_of_lt_of_le hk (hle b)))
    have hx : cnt key l (key x) < cnt key (l ++ [x]) (key x) := by
      rw [cnt_append_singleton]; simp
    rw [fill_append_singleton]
    simp only [fillStep, fill_cursor]
    constructor
    · intro b k hk
      by_cases hb : b = key x
      · subst hb
        rw [cnt_append_singleton] at hk
        simp only [if_true] at hk
        rcases Nat.lt_or_ge k (cnt key l (key x)) with h1 | h1
        · rw [List.getElem?_set_ne (by omega), ih1 _ _ h1]
          simp only [List.filter_append, List.map_append]
          rw [List.getElem?_append_left (by simpa [← cnt_eq_length] using h1)]
        · have : k = cnt key l (key x) := by omega
          subst this
          rw [List.getElem?_set_self (by rw [fill_length]; exact hin _ _ hx)]
          simp only [List.filter_append, List.map_append]
          rw [List.getElem?_append_right (by simp [← cnt_eq_length])]
          simp [← cnt_eq_length]
      · have hb' : ¬ key x = b := fun e => hb e.symm
        have hk' : k < cnt key l b := by
          rw [cnt_append_singleton] at hk; simpa [hb'] using hk
        rw [List.getElem?_set_ne, ih1 b k hk']
        · simp [List.filter_append, hb']
        · intro e
          exact hb (hdisj _ _ _ _ hk hx e.symm).1
    · intro p hp
      rw [List.getElem?_set_ne (fun e => hp _ _ hx e.symm)]
      exact ih2 p (fun b k hk => hp b k (lt_of_lt_of_le hk (hle b)))

/-- Counts over all buckets add up to the number of elements. -/
theorem excl_cnt_total (key : α → Nat) (l : List α) (B : Nat) (hkey : ∀ x ∈ l, key x < B) :
    excl (cnt key l) B = l.length := by
  induction l using List.reverseRecOn with
  | nil => have : cnt key ([] : List α) = fun _ => 0 := rfl
           simp [excl, this]
  | append_singleton l x ih =>
    have h1 := ih (fun y hy => hkey y (by simp [hy]))
    have hx := hkey x (by simp)
    have : ∀ B', excl (cnt key (l ++ [x])) B' =
        excl (cnt key l) B' + if key x < B' then 1 else 0 := by
      intro B'
      induction B' with
      | zero => simp
      | succ B' ihB =>
        rw [excl_succ, excl_succ, ihB, cnt_append_singleton]
        split <;> split <;> split <;> omega
    rw [this, h1]; simp [hx]

/-- With displacements from counts, a buffer of the right size and all keys below
`B`, the fill loop produces the concatenation of the buckets. -/
theorem fill_eq_buckets (key : α → Nat) (val : α → β) (buf : List β) (l : List α) (B : Nat)
    (hkey : ∀ x ∈ l, key x < B) (hlen : buf.length = l.length) :
    (fill key val (excl (cnt key l)) buf l).2 =
      (List.range B).flatMap (fun b => (l.filter (fun x => key x == b)).map val) := by
  have hc : ∀ b, ((l.filter (fun x => key x == b)).map val).length = cnt key l b := by
    intro b; rw [List.length_map, cnt_eq_length]
  have htot := excl_cnt_total key l B hkey
  have hcz : ∀ b, B ≤ b → cnt key l b = 0 := by
    intro b hb
    rw [cnt, List.countP_eq_zero]
    intro x hx; have := hkey x hx; simp; omega
  have hin : ∀ b k, k < cnt key l b → excl (cnt key l) b + k < buf.length := by
    intro b k hk
    have hb : b < B := by
      by_contra h; rw [hcz b (by omega)] at hk; omega
    have := excl_lt (cnt key l) hb
    omega
  obtain ⟨h1, -⟩ := fill_get key val (excl (cnt key l)) buf l
    (fun b b' k k' hk hk' e => excl_inj _ hk hk' e) hin
  have hlen2 : ((List.range B).flatMap
      (fun b => (l.filter (fun x => key x == b)).map val)).length = l.length := by
    rw [length_flatMap_range, ← htot]; exact excl_congr (fun i _ => hc i)
  apply List.ext_getElem?
  intro p
  rcases Nat.lt_or_ge p l.length with hp | hp
  · rw [← htot] at hp
    obtain ⟨b, k, hb, hk, e⟩ := excl_split _ hp
    subst e
    rw [h1 b k hk]
    have e2 : excl (cnt key l) b = excl (fun b => ((l.filter (fun x => key x == b)).map val).length) b :=
      excl_congr (fun i _ => (hc i).symm)
    rw [e2, getElem?_flatMap_range _ hb (by rw [hc]; exact hk)]
  · rw [List.getElem?_eq_none (by rw [fill_length]; omega), List.getElem?_eq_none (by omega)]

end Verif.Offsets
