import Verif.Model.RadixSort
import Verif.Lemmas.BucketFill
import Verif.Lemmas.StableSort
import Mathlib.Tactic.Ring
import Mathlib.Tactic.Linarith
/-! Lemmas for `radix_sort`: digits, passes and the pass loop. -/
namespace Verif.RadixSort
open Verif.Offsets Verif.Spec

variable {α : Type}

theorem digit_eq (w b i k : Nat) (hb : b < w) (hk : k < 2 ^ w) :
    digit w b i k = k / 2 ^ (i * b) % 2 ^ b := by
  apply Nat.eq_of_testBit_eq
  intro j
  have hm : (2 ^ b - 1) % 2 ^ w = 2 ^ b - 1 := by
    apply Nat.mod_eq_of_lt
    have := Nat.pow_lt_pow_right (a := 2) (by omega) hb
    omega
  simp only [digit, mask, hm, Nat.testBit_shiftRight, Nat.testBit_and, Nat.testBit_mod_two_pow,
    Nat.testBit_shiftLeft, Nat.testBit_two_pow_sub_one, Nat.testBit_div_two_pow]
  rcases Nat.lt_or_ge (i * b + j) w with h | h
  · have e : j + i * b = i * b + j := by omega
    simp [h, e, Bool.and_comm]
  · have : k.testBit (i * b + j) = false :=
      Nat.testBit_lt_two_pow (lt_of_lt_of_le hk (Nat.pow_le_pow_right (by omega) h))
    have e : j + i * b = i * b + j := by omega
    simp [this, e]

theorem counter_append (w : Nat) (dig : α → Nat) (l : List α) (x : α) (j : Nat) :
    counter w dig (l ++ [x]) j =
      if j = dig x then (counter w dig l j + 1) % 2 ^ w else counter w dig l j := by
  simp [counter]

theorem counter_eq (w : Nat) (dig : α → Nat) (l : List α) (j : Nat) :
    counter w dig l j = cnt dig l j % 2 ^ w := by
  induction l using List.reverseRecOn with
  | nil => simp [counter, cnt]
  | append_singleton l x ih =>
    rw [counter_append, cnt_append_singleton, ih]
    by_cases h : j = dig x
    · simp [h]
    · have h' : ¬ dig x = j := fun e => h e.symm
      simp [h, h']

theorem offset_eq (w : Nat) (dig : α → Nat) (l : List α) (j : Nat) :
    offset w (counter w dig l) j = excl (cnt dig l) j % 2 ^ w := by
  induction j with
  | zero => simp [offset]
  | succ j ih => rw [offset, ih, counter_eq, excl_succ, Nat.add_mod]; simp

theorem place_eq_fill (w : Nat) (dig : α → Nat) (cur nxt : List α) (B : Nat)
    (hB : ∀ x ∈ cur, dig x < B) (hlen : cur.length ≤ 2 ^ w) (l1 l2 : List α)
    (hl : l1 ++ l2 = cur) :
    (∀ j, (l1.foldl (placeStep w dig) (offset w (counter w dig cur), nxt)).1 j =
      (fill dig id (excl (cnt dig cur)) nxt l1).1 j % 2 ^ w) ∧
    (l1.foldl (placeStep w dig) (offset w (counter w dig cur), nxt)).2 =
      (fill dig id (excl (cnt dig cur)) nxt l1).2 := by
  induction l1 using List.reverseRecOn generalizing l2 with
  | nil => simp [fill, offset_eq]
  | append_singleton l1 x ih =>
    obtain ⟨ih1, ih2⟩ := ih (x :: l2) (by simpa using hl)
    rw [List.foldl_append, fill_append_singleton]
    simp only [List.foldl_cons, List.foldl_nil, placeStep, fillStep]
    constructor
    · intro j
      by_cases h : j = dig x
      · subst h; simp [ih1]
      · simp [h, ih1]
    · rw [ih1, ih2, fill_cursor]
      have hxin : x ∈ cur := by rw [← hl]; simp
      have hc : cnt dig l1 (dig x) < cnt dig cur (dig x) := by
        rw [← hl]
        simp only [cnt, List.countP_append, List.countP_cons, List.countP_nil]
        simp; omega
      have h1 := excl_lt (cnt dig cur) (hB x hxin)
      have h2 := excl_cnt_total dig cur B hB
      rw [Nat.mod_eq_of_lt (by omega)]
      rfl

/-- One pass distributes the elements over the buckets of its digit, in order. -/
theorem pass_eq (w b i : Nat) (key : α → Nat) (cur nxt : List α) (hb : b < w)
    (hkey : ∀ x ∈ cur, key x < 2 ^ w) (hlen : cur.length ≤ 2 ^ w)
    (hn : nxt.length = cur.length) :
    pass w b i key cur nxt = (List.range (2 ^ b)).flatMap
      (fun j => cur.filter (fun x => key x / 2 ^ (i * b) % 2 ^ b == j)) := by
  have hB : ∀ x ∈ cur, digit w b i (key x) < 2 ^ b := by
    intro x hx
    rw [digit_eq w b i _ hb (hkey x hx)]
    exact Nat.mod_lt _ (Nat.two_pow_pos b)
  unfold pass
  simp only
  rw [(place_eq_fill w _ cur nxt (2 ^ b) hB hlen cur [] (by simp)).2,
    fill_eq_buckets _ _ _ _ (2 ^ b) hB hn]
  congr 1
  funext j
  simp only [List.map_id_fun, id]
  apply List.filter_congr
  intro x hx
  rw [digit_eq w b i _ hb (hkey x hx)]

theorem flatMap_length_of_perm {l m : List α} (h : l.Perm m) : l.length = m.length := h.length_eq

/-- Invariant of the pass loop. -/
theorem loop_sorted (w b : Nat) (key : α → Nat) (inp : List α) (hb : b < w)
    (hkey : ∀ x ∈ inp, key x < 2 ^ w) (hlen : inp.length ≤ 2 ^ w) (n i : Nat)
    (cur nxt : List α) (hn : nxt.length = inp.length)
    (hcur : StableSorted (fun x => key x % 2 ^ (i * b)) inp cur) :
    StableSorted (fun x => key x % 2 ^ ((i + n) * b)) inp (loop w b key n i cur nxt) := by
  induction n generalizing i cur nxt with
  | zero => simpa [loop] using hcur
  | succ n ih =>
    rw [loop]
    have hperm := hcur.perm
    have hstep : StableSorted (fun x => key x % 2 ^ ((i + 1) * b)) inp (pass w b i key cur nxt) := by
      rw [pass_eq w b i key cur nxt hb (fun x hx => hkey x (hperm.mem_iff.mp hx))
        (by rw [hperm.length_eq]; exact hlen) (by rw [hperm.length_eq]; exact hn)]
      have hdec : ∀ k, k % 2 ^ ((i + 1) * b) =
          2 ^ (i * b) * (k / 2 ^ (i * b) % 2 ^ b) + k % 2 ^ (i * b) := by
        intro k
        rw [show (i + 1) * b = i * b + b by ring, pow_add, Nat.mod_mul, Nat.add_comm]
      apply hcur.bucket (d := fun x => key x / 2 ^ (i * b) % 2 ^ b)
      · intro x _; exact Nat.mod_lt _ (Nat.two_pow_pos b)
      · intro x _ y _ h
        simp only [hdec]
        have h1 := Nat.mod_lt (key x) (Nat.two_pow_pos (i * b))
        have h2 := Nat.mul_le_mul_left (2 ^ (i * b)) (Nat.succ_le_of_lt h)
        rw [Nat.mul_succ] at h2
        omega
      · intro x _ y _ h hle
        simp only [hdec, h]
        omega
      · intro x _ y _ h
        simp only [hdec] at h
        have h1 := Nat.mod_lt (key x) (Nat.two_pow_pos (i * b))
        have h2 := Nat.mod_lt (key y) (Nat.two_pow_pos (i * b))
        have e1 : (2 ^ (i * b) * (key x / 2 ^ (i * b) % 2 ^ b) + key x % 2 ^ (i * b)) / 2 ^ (i * b) =
            (2 ^ (i * b) * (key y / 2 ^ (i * b) % 2 ^ b) + key y % 2 ^ (i * b)) / 2 ^ (i * b) := by rw [h]
        rw [Nat.mul_add_div (Nat.two_pow_pos _), Nat.mul_add_div (Nat.two_pow_pos _),
          Nat.div_eq_of_lt h1, Nat.div_eq_of_lt h2] at e1
        simp only [Nat.add_zero] at e1
        refine ⟨e1, ?_⟩
        rw [e1] at h
        exact Nat.add_left_cancel h
    have := ih (i + 1) (pass w b i key cur nxt) cur hperm.length_eq hstep
    rw [show i + 1 + n = i + (n + 1) by omega] at this
    exact this

theorem its_spec (b m : Nat) (hb : 0 < b) : m < 2 ^ (its b m * b) := by
  induction m using Nat.strongRecOn with
  | _ m ih =>
    rw [its]
    split
    · rename_i h
      rcases h with h | h
      · subst h; simp
      · omega
    · rename_i h
      simp only [not_or] at h
      have hlt : m >>> b < m := by
        rw [Nat.shiftRight_eq_div_pow]
        exact Nat.div_lt_self (Nat.pos_of_ne_zero h.1) (Nat.one_lt_two_pow h.2)
      have h1 := ih _ hlt
      rw [Nat.shiftRight_eq_div_pow] at h1
      rw [Nat.add_mul, Nat.one_mul, pow_add, Nat.shiftRight_eq_div_pow]
      rw [Nat.mul_comm]; exact (Nat.div_lt_iff_lt_mul (Nat.two_pow_pos b)).mp h1

theorem le_maxKey (key : α → Nat) (l : List α) : ∀ x ∈ l, key x ≤ maxKey key l := by
  have aux : ∀ (l : List α) (m : Nat), m ≤ l.foldl (fun m x => max m (key x)) m ∧
      ∀ x ∈ l, key x ≤ l.foldl (fun m x => max m (key x)) m := by
    intro l
    induction l with
    | nil => simp
    | cons a l ih =>
      intro m
      obtain ⟨h1, h2⟩ := ih (max m (key a))
      simp only [List.foldl_cons]
      refine ⟨by omega, ?_⟩
      intro x hx
      rcases List.mem_cons.mp hx with rfl | hx
      · omega
      · exact h2 x hx
  exact (aux l 0).2

theorem maxKey_mem (key : α → Nat) (l : List α) (h : l ≠ []) : ∃ x ∈ l, maxKey key l = key x := by
  have aux : ∀ (l : List α) (m : Nat), l.foldl (fun m x => max m (key x)) m = m ∨
      ∃ x ∈ l, l.foldl (fun m x => max m (key x)) m = key x := by
    intro l
    induction l with
    | nil => simp
    | cons a l ih =>
      intro m
      simp only [List.foldl_cons]
      rcases ih (max m (key a)) with h | ⟨x, hx, h⟩
      · rcases Nat.le_total m (key a) with hm | hm
        · right; exact ⟨a, by simp, by rw [h]; omega⟩
        · left; rw [h]; omega
      · right; exact ⟨x, by simp [hx], h⟩
  cases l with
  | nil => exact absurd rfl h
  | cons a l =>
    rcases aux (a :: l) 0 with h0 | h0
    · refine ⟨a, by simp, ?_⟩
      have := le_maxKey key (a :: l) a (by simp)
      simp only [maxKey] at *
      omega
    · exact h0

theorem top_set_iff (w k : Nat) (hw : 0 < w) (hk : k < 2 ^ w) :
    (k &&& 2 ^ (w - 1)) ≠ 0 ↔ 2 ^ (w - 1) ≤ k := by
  have hpow : 2 ^ w = 2 ^ (w - 1) * 2 := by
    rw [← pow_succ]; congr 1; omega
  constructor
  · intro h
    by_contra hlt
    apply h
    apply Nat.eq_of_testBit_eq
    intro j
    rw [Nat.testBit_and, Nat.testBit_two_pow]
    by_cases hj : w - 1 = j
    · subst hj; simp [Nat.testBit_lt_two_pow (by omega : k < 2 ^ (w - 1))]
    · simp [hj]
  · intro h h0
    have hb : k.testBit (w - 1) = true := by
      have : k = 2 ^ (w - 1) + (k - 2 ^ (w - 1)) := by omega
      rw [this, Nat.testBit_two_pow_add_eq, Nat.testBit_lt_two_pow (by omega)]; rfl
    have := congrArg (fun n => n.testBit (w - 1)) h0
    simp [Nat.testBit_and, hb] at this

/-- Every key is determined, in order, by its value modulo the power reached
after all passes. -/
theorem passes_suffice (w b : Nat) (key : α → Nat) (l : List α) (hb : 0 < b) (hw : 0 < w)
    (hkey : ∀ x ∈ l, key x < 2 ^ w) :
    ∃ c, ∀ x ∈ l, key x = c + key x % 2 ^ (its b (passMax w key l) * b) := by
  have hpow : 2 ^ w = 2 ^ (w - 1) * 2 := by
    rw [← pow_succ]; congr 1; omega
  have hits := its_spec b (passMax w key l) hb
  generalize its b (passMax w key l) * b = e at *
  unfold passMax at hits
  split at hits
  · rename_i hall
    have htop : ∀ x ∈ l, 2 ^ (w - 1) ≤ key x := by
      intro x hx
      have := List.all_eq_true.mp hall x hx
      simp only [bne_iff_ne] at this
      exact (top_set_iff w _ hw (hkey x hx)).mp this
    rcases Nat.lt_or_ge e w with hew | hew
    · refine ⟨2 ^ (w - 1), fun x hx => ?_⟩
      have hne : l ≠ [] := List.ne_nil_of_mem hx
      obtain ⟨y, hy, hmax⟩ := maxKey_mem key l hne
      have hle := le_maxKey key l x hx
      have htm := htop y hy
      have hym := hkey y hy
      have emask : 2 ^ w - 1 - 2 ^ (w - 1) = 2 ^ (w - 1) - 1 := by omega
      rw [emask, Nat.and_two_pow_sub_one_eq_mod, hmax] at hits
      have e1 : key y % 2 ^ (w - 1) = key y - 2 ^ (w - 1) := by
        rw [Nat.mod_eq_sub_mod htm, Nat.mod_eq_of_lt (by omega)]
      have htx := htop x hx
      have hlow : key x - 2 ^ (w - 1) < 2 ^ e := by omega
      have hdvd : 2 ^ e ∣ 2 ^ (w - 1) := Nat.pow_dvd_pow 2 (by omega)
      have e2 : key x % 2 ^ e = key x - 2 ^ (w - 1) := by
        obtain ⟨q, hq⟩ := hdvd
        have e3 : key x = (key x - 2 ^ (w - 1)) + 2 ^ e * q := by omega
        rw [e3, Nat.add_mul_mod_self_left, Nat.mod_eq_of_lt hlow]
        omega
      omega
    · refine ⟨0, fun x hx => ?_⟩
      rw [Nat.mod_eq_of_lt (lt_of_lt_of_le (hkey x hx) (Nat.pow_le_pow_right (by omega) hew))]
      omega
  · refine ⟨0, fun x hx => ?_⟩
    rw [Nat.mod_eq_of_lt (lt_of_le_of_lt (le_maxKey key l x hx) hits)]
    omega

theorem radixSort_stable [Inhabited α] (w b : Nat) (key : α → Nat) (l : List α) (hb : 0 < b)
    (hbw : b < w) (hkey : ∀ x ∈ l, key x < 2 ^ w) (hlen : l.length ≤ 2 ^ w) :
    ∃ out, radixSort w b key l = some out ∧ StableSorted key l out := by
  unfold radixSort
  split
  · rename_i h
    refine ⟨l, rfl, StableSorted.refl_of_sorted ?_⟩
    match l, h with
    | [], _ => simp
    | [a], _ => simp
  · have h2 : ¬ 2 ^ b % 2 ^ w = 0 := by
      rw [Nat.mod_eq_of_lt (Nat.pow_lt_pow_right (by omega) hbw)]
      exact (Nat.two_pow_pos b).ne'
    rw [if_neg h2]
    refine ⟨_, rfl, ?_⟩
    have h3 := loop_sorted w b key l hbw hkey hlen (its b (passMax w key l)) 0 l
      (List.replicate l.length default) (by simp)
      ⟨List.Perm.refl _, List.pairwise_of_forall (by simp [Nat.mod_one]), fun k => rfl⟩
    rw [Nat.zero_add] at h3
    obtain ⟨c, hc⟩ := passes_suffice w b key l hb (by omega) hkey
    apply h3.congr_key
    · intro x hx y hy h; rw [hc x hx, hc y hy]; exact Nat.add_le_add_left h c
    · intro x hx y hy h; simp only [h]

/-- Cursors of `w` bits never write at or beyond position `2^w`. -/
theorem place_untouched (w : Nat) (dig : α → Nat) (l : List α) (cur : Nat → Nat) (buf : List α)
    (hcur : ∀ j, cur j < 2 ^ w) (p : Nat) (hp : 2 ^ w ≤ p) :
    (l.foldl (placeStep w dig) (cur, buf)).2[p]? = buf[p]? := by
  induction l generalizing cur buf with
  | nil => rfl
  | cons x l ih =>
    simp only [List.foldl_cons, placeStep]
    rw [ih]
    · have := hcur (dig x)
      rw [List.getElem?_set_ne (by omega)]
    · intro j
      split
      · exact Nat.mod_lt _ (Nat.two_pow_pos w)
      · exact hcur j

theorem xor_top_toInt {w : Nat} (hw : 0 < w) (x : BitVec w) :
    ((unsignedProjection x).toNat : Int) = x.toInt + 2 ^ (w - 1) := by
  have hpow : 2 ^ w = 2 ^ (w - 1) * 2 := by
    rw [← pow_succ]; congr 1; omega
  have hxlt := x.isLt
  have e : (unsignedProjection x).toNat = x.toNat ^^^ 2 ^ (w - 1) := by
    simp only [unsignedProjection, BitVec.toNat_xor, BitVec.toNat_twoPow]
    rw [Nat.mod_eq_of_lt (by have := Nat.two_pow_pos (w - 1); omega)]
  have hx2 : x.toNat ^^^ 2 ^ (w - 1) =
      if x.toNat < 2 ^ (w - 1) then x.toNat + 2 ^ (w - 1) else x.toNat - 2 ^ (w - 1) := by
    apply Nat.eq_of_testBit_eq
    intro j
    rw [Nat.testBit_xor, Nat.testBit_two_pow]
    split
    · rename_i h
      rw [Nat.add_comm]
      rcases Nat.lt_trichotomy j (w - 1) with hj | hj | hj
      · rw [Nat.testBit_two_pow_add_gt hj]; simp [show w - 1 ≠ j by omega]
      · subst hj; rw [Nat.testBit_two_pow_add_eq]; simp
      · have h1 : x.toNat.testBit j = false := Nat.testBit_lt_two_pow
          (lt_of_lt_of_le h (Nat.pow_le_pow_right (by omega) (by omega)))
        have h2 : (2 ^ (w - 1) + x.toNat).testBit j = false := Nat.testBit_lt_two_pow
          (lt_of_lt_of_le (by omega : 2 ^ (w - 1) + x.toNat < 2 ^ w) (Nat.pow_le_pow_right (by omega) (by omega)))
        simp [h1, h2, show w - 1 ≠ j by omega]
    · rename_i h
      have hd : x.toNat = 2 ^ (w - 1) + (x.toNat - 2 ^ (w - 1)) := by omega
      generalize hy : x.toNat - 2 ^ (w - 1) = y at *
      have hylt : y < 2 ^ (w - 1) := by omega
      rw [hd]
      rcases Nat.lt_trichotomy j (w - 1) with hj | hj | hj
      · rw [Nat.testBit_two_pow_add_gt hj]; simp [show w - 1 ≠ j by omega]
      · subst hj; rw [Nat.testBit_two_pow_add_eq]; simp
      · have h1 : y.testBit j = false := Nat.testBit_lt_two_pow
          (lt_of_lt_of_le hylt (Nat.pow_le_pow_right (by omega) (by omega)))
        have h2 : (2 ^ (w - 1) + y).testBit j = false := Nat.testBit_lt_two_pow
          (lt_of_lt_of_le (by omega : 2 ^ (w - 1) + y < 2 ^ w) (Nat.pow_le_pow_right (by omega) (by omega)))
        simp [h1, h2, show w - 1 ≠ j by omega]
  rw [e, hx2, BitVec.toInt_eq_toNat_cond]
  have hc : (2 * x.toNat < 2 ^ w) ↔ x.toNat < 2 ^ (w - 1) := by omega
  have hz : ((2 ^ (w - 1) : Nat) : Int) = 2 ^ (w - 1) := by push_cast; rfl
  by_cases h : x.toNat < 2 ^ (w - 1)
  · rw [if_pos h, if_pos (hc.mpr h)]; push_cast; rfl
  · rw [if_neg h, if_neg (fun h' => h (hc.mp h'))]
    rw [Nat.cast_sub (by omega), hpow]; push_cast; ring

end Verif.RadixSort
