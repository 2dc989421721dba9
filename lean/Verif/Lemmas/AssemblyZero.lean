import Verif.Spec.Assembly
import Verif.Prelude
import Mathlib.Algebra.BigOperators.Ring.Finset
import Mathlib.Tactic.Abel
/-! Zeroing of rows and columns of element matrices, copies into joint dof lists. -/
namespace Verif.Assembly
open Verif.Spec.Assemble Finset

variable {R : Type} [CommRing R]

/-- `B` is `A` with zeros where `Z` holds. -/
def ZeroOn (Z : Nat → Prop) (A B : Nat → R) : Prop := ∀ p, (Z p → B p = 0) ∧ (¬ Z p → B p = A p)

theorem foldl_zero {α : Type} (g : (Nat → R) → α → (Nat → R)) (Z : α → Nat → Prop)
    (hg : ∀ A x, ZeroOn (Z x) A (g A x)) (l : List α) (A : Nat → R) :
    ZeroOn (fun p => ∃ x ∈ l, Z x p) A (l.foldl g A) := by
  induction l generalizing A with
  | nil => intro p; simp
  | cons x l ih =>
    intro p
    rw [List.foldl_cons]
    obtain ⟨i1, i2⟩ := ih (g A x) p
    obtain ⟨g1, g2⟩ := hg A x p
    by_cases h1 : ∃ y ∈ l, Z y p
    · refine ⟨fun _ => i1 h1, fun h => absurd ?_ h⟩
      obtain ⟨y, hy, hz⟩ := h1
      exact ⟨y, by simp [hy], hz⟩
    · rw [i2 h1]
      constructor
      · rintro ⟨y, hy, hz⟩
        rcases List.mem_cons.mp hy with rfl | hy
        · exact g1 hz
        · exact absurd ⟨y, hy, hz⟩ h1
      · intro h
        exact g2 (fun hz => h ⟨x, by simp, hz⟩)

theorem zeroOn_if {c : Prop} [Decidable c] {Z : Nat → Prop} {A B : Nat → R} (h : c → ZeroOn Z A B) :
    ZeroOn (fun p => c ∧ Z p) A (if c then B else A) := by
  intro p
  by_cases hc : c
  · rw [if_pos hc]
    exact ⟨fun hz => (h hc p).1 hz.2, fun hz => (h hc p).2 (fun h => hz ⟨hc, h⟩)⟩
  · rw [if_neg hc]
    exact ⟨fun hz => absurd hz.1 hc, fun _ => rfl⟩

theorem zeroOn_fill (A : Nat → R) (start n : Nat) : ZeroOn (fun p => start ≤ p ∧ p < start + n) A (fillZero A start n) := by
  intro p
  unfold fillZero
  exact ⟨fun h => if_pos h, fun h => if_neg h⟩

/-- Two-digit decomposition. -/
theorem digits {n a b c d : Nat} (hb : b < n) (hd : d < n) (h : a * n + b = c * n + d) : a = c ∧ b = d := by
  have h1 : a = c := by
    have := congrArg (· / n) h
    simp only [Nat.mul_comm _ n, Nat.mul_add_div (by omega : n > 0), Nat.div_eq_of_lt hb, Nat.div_eq_of_lt hd,
      Nat.add_zero] at this
    exact this
  subst h1
  omega

/-- Marked dof. -/
def marked (bc : List Bool) (p : Nat) : Prop := bc.getD p false = true

theorem not_marked_nil (p : Nat) : ¬ marked [] p := by simp [marked]

theorem zeroRows_get (bs ncols : Nat) (bc : List Bool) (dofs : List Nat) (A : Nat → R) (a k s d : Nat)
    (hk : k < bs) (hs : s < ncols) (hd : dofs[a]? = some d) :
    (marked bc (bs * d + k) → zeroRows bs ncols bc dofs A ((bs * a + k) * ncols + s) = 0) ∧
    (¬ marked bc (bs * d + k) → zeroRows bs ncols bc dofs A ((bs * a + k) * ncols + s) = A ((bs * a + k) * ncols + s)) := by
  have hall := foldl_zero (R := R) (α := Nat × Nat) _ _
    (fun A x => foldl_zero (R := R) (α := Nat) _ _
      (fun A k => zeroOn_if (c := bc.getD (bs * x.1 + k) false = true)
        (fun _ => zeroOn_fill A (ncols * (bs * x.2 + k)) ncols)) (List.range bs) A)
    dofs.zipIdx A ((bs * a + k) * ncols + s)
  have hiff : (∃ x ∈ dofs.zipIdx, ∃ k' ∈ List.range bs, marked bc (bs * x.1 + k') ∧
      ncols * (bs * x.2 + k') ≤ (bs * a + k) * ncols + s ∧ (bs * a + k) * ncols + s < ncols * (bs * x.2 + k') + ncols) ↔
      marked bc (bs * d + k) := by
    constructor
    · rintro ⟨⟨y, m⟩, hx, k', hk', hm, h1, h2⟩
      rw [List.mem_zipIdx_iff_getElem?] at hx
      simp only at hx hm h1 h2
      have e1 : bs * m + k' = bs * a + k := by
        obtain ⟨u, hu⟩ : ∃ u, (bs * a + k) * ncols + s = ncols * (bs * m + k') + u := ⟨_, (Nat.add_sub_cancel' h1).symm⟩
        have hu2 : u < ncols := by omega
        have := digits hs hu2 (by rw [hu, Nat.mul_comm ncols] : (bs * a + k) * ncols + s = (bs * m + k') * ncols + u)
        exact this.1.symm
      have e2 := digits (n := bs) (a := m) (b := k') (c := a) (d := k) (List.mem_range.mp hk') hk
        (by rw [Nat.mul_comm m, Nat.mul_comm a]; exact e1)
      obtain ⟨rfl, rfl⟩ := e2
      rw [hd] at hx
      have := Option.some.inj hx
      subst this
      exact hm
    · intro hm
      refine ⟨(d, a), List.mem_zipIdx_iff_getElem?.mpr hd, k, List.mem_range.mpr hk, hm, ?_, ?_⟩
      · simp only; rw [Nat.mul_comm ncols]; omega
      · simp only; rw [Nat.mul_comm ncols]; omega
  constructor
  · intro hm
    exact hall.1 (hiff.mpr hm)
  · intro hm
    exact hall.2 (fun h => hm (hiff.mp h))

theorem zeroCols_get (bs nrows ncols : Nat) (bc : List Bool) (dofs : List Nat) (A : Nat → R) (r b l d : Nat)
    (hr : r < nrows) (hl : l < bs) (hn : ncols = bs * dofs.length) (hd : dofs[b]? = some d) :
    (marked bc (bs * d + l) → zeroCols bs nrows ncols bc dofs A (r * ncols + (bs * b + l)) = 0) ∧
    (¬ marked bc (bs * d + l) → zeroCols bs nrows ncols bc dofs A (r * ncols + (bs * b + l)) = A (r * ncols + (bs * b + l))) := by
  have hlt : ∀ x y, x < dofs.length → y < bs → bs * x + y < ncols := by
    intro x y hx hy
    rw [hn]
    calc bs * x + y < bs * x + bs := by omega
      _ = bs * (x + 1) := by ring
      _ ≤ bs * dofs.length := Nat.mul_le_mul_left _ hx
  have hb : b < dofs.length := (List.getElem?_eq_some_iff.mp hd).1
  have hall := foldl_zero (R := R) (α := Nat × Nat) _ _
    (fun A x => foldl_zero (R := R) (α := Nat) _ _
      (fun A k => zeroOn_if (c := bc.getD (bs * x.1 + k) false = true)
        (fun _ => foldl_zero (R := R) (α := Nat) _ _
          (fun A row => zeroOn_fill A (row * ncols + (bs * x.2 + k)) 1) (List.range nrows) A)) (List.range bs) A)
    dofs.zipIdx A (r * ncols + (bs * b + l))
  have hiff : (∃ x ∈ dofs.zipIdx, ∃ k' ∈ List.range bs, marked bc (bs * x.1 + k') ∧
      ∃ row ∈ List.range nrows, row * ncols + (bs * x.2 + k') ≤ r * ncols + (bs * b + l) ∧
        r * ncols + (bs * b + l) < row * ncols + (bs * x.2 + k') + 1) ↔ marked bc (bs * d + l) := by
    constructor
    · rintro ⟨⟨y, m⟩, hx, k', hk', hm, row, _, h1⟩
      rw [List.mem_zipIdx_iff_getElem?] at hx
      simp only at hx hm h1
      have hk'' := List.mem_range.mp hk'
      have e1 := (digits (hlt b l hb hl) (hlt m k' (List.getElem?_eq_some_iff.mp hx).1 hk'') (Nat.le_antisymm (by omega) h1.1)).2
      have e2 := digits (n := bs) (a := m) (b := k') (c := b) (d := l) hk'' hl
        (by rw [Nat.mul_comm m, Nat.mul_comm b]; exact e1.symm)
      obtain ⟨rfl, rfl⟩ := e2
      rw [hd] at hx
      have := Option.some.inj hx
      subst this
      exact hm
    · intro hm
      exact ⟨(d, b), List.mem_zipIdx_iff_getElem?.mpr hd, l, List.mem_range.mpr hl, hm, r, List.mem_range.mpr hr, le_refl _, Nat.lt_succ_self _⟩
  constructor
  · intro hm
    exact hall.1 (hiff.mpr hm)
  · intro hm
    exact hall.2 (fun h => hm (hiff.mp h))

open Classical in
/-- Effect of the zeroing on the entry for two dofs. -/
theorem zeroBc_get (bs0 bs1 : Nat) (bc0 bc1 : List Bool) (dofs0 dofs1 : List Nat) (A : Nat → R) (a k b l i j : Nat)
    (hk : k < bs0) (hl : l < bs1) (hi : dofs0[a]? = some i) (hj : dofs1[b]? = some j) :
    zeroBc bs0 bs1 bc0 bc1 dofs0 dofs1 A ((bs0 * a + k) * (bs1 * dofs1.length) + (bs1 * b + l)) =
      if marked bc0 (bs0 * i + k) ∨ marked bc1 (bs1 * j + l) then 0
      else A ((bs0 * a + k) * (bs1 * dofs1.length) + (bs1 * b + l)) := by
  have hb : b < dofs1.length := (List.getElem?_eq_some_iff.mp hj).1
  have ha : a < dofs0.length := (List.getElem?_eq_some_iff.mp hi).1
  have hlt : ∀ {bs x y n : Nat}, x < n → y < bs → bs * x + y < bs * n := by
    intro bs x y n hx hy
    calc bs * x + y < bs * x + bs := by omega
      _ = bs * (x + 1) := by ring
      _ ≤ bs * n := Nat.mul_le_mul_left _ hx
  unfold zeroBc
  set A1 := (if bc0.isEmpty then A else zeroRows bs0 (bs1 * dofs1.length) bc0 dofs0 A) with hA1
  have h1 : A1 ((bs0 * a + k) * (bs1 * dofs1.length) + (bs1 * b + l)) =
      if marked bc0 (bs0 * i + k) then 0 else A ((bs0 * a + k) * (bs1 * dofs1.length) + (bs1 * b + l)) := by
    rw [hA1]
    cases hb0 : bc0.isEmpty
    · rw [if_neg (by simp)]
      obtain ⟨e1, e2⟩ := zeroRows_get bs0 (bs1 * dofs1.length) bc0 dofs0 A a k (bs1 * b + l) i hk (hlt hb hl) hi
      by_cases hm : marked bc0 (bs0 * i + k)
      · rw [if_pos hm, e1 hm]
      · rw [if_neg hm, e2 hm]
    · rw [if_pos rfl]
      have : bc0 = [] := by simpa using hb0
      subst this
      rw [if_neg (not_marked_nil _)]
  cases hb1 : bc1.isEmpty
  · rw [if_neg (by simp)]
    obtain ⟨e1, e2⟩ := zeroCols_get bs1 (bs0 * dofs0.length) (bs1 * dofs1.length) bc1 dofs1 A1 (bs0 * a + k) b l j
      (hlt ha hk) hl rfl hj
    by_cases hm : marked bc1 (bs1 * j + l)
    · rw [e1 hm, if_pos (Or.inr hm)]
    · rw [e2 hm, h1]
      by_cases hm0 : marked bc0 (bs0 * i + k)
      · rw [if_pos hm0, if_pos (Or.inl hm0)]
      · rw [if_neg hm0, if_neg (by rintro (h | h); exact hm0 h; exact hm h)]
  · rw [if_pos rfl, h1]
    have : bc1 = [] := by simpa using hb1
    subst this
    by_cases hm0 : marked bc0 (bs0 * i + k)
    · rw [if_pos hm0, if_pos (Or.inl hm0)]
    · rw [if_neg hm0, if_neg (by rintro (h | h); exact hm0 h; exact not_marked_nil _ h)]

theorem hasBc_iff (dofs : List Nat) (bc : List Bool) (bs : Nat) :
    hasBc dofs bc bs = true ↔ ∃ d ∈ dofs, ∃ k, k < bs ∧ marked bc (bs * d + k) := by
  unfold hasBc marked
  simp [List.any_eq_true]

/-! ## Copies -/

theorem copyAt_length (buf : List Nat) (pos : Nat) (l : List Nat) : (copyAt buf pos l).length = buf.length := by
  unfold copyAt
  generalize l.zipIdx = z
  induction z generalizing buf with
  | nil => rfl
  | cons x z ih => rw [List.foldl_cons, ih, List.length_set]

theorem copyAt_get (buf : List Nat) (pos : Nat) (l : List Nat) (h : pos + l.length ≤ buf.length) (n : Nat) :
    (copyAt buf pos l)[n]? = if pos ≤ n ∧ n < pos + l.length then l[n - pos]? else buf[n]? := by
  induction l using List.reverseRecOn with
  | nil => simp [copyAt]
  | append_singleton l x ih =>
    rw [List.length_append, List.length_singleton] at h
    have hx : copyAt buf pos (l ++ [x]) = (copyAt buf pos l).set (pos + l.length) x := by
      unfold copyAt
      rw [List.zipIdx_append, List.foldl_append]
      simp
    rw [hx, List.getElem?_set, copyAt_length, List.length_append, List.length_singleton]
    by_cases hn : pos + l.length = n
    · subst hn
      rw [if_pos rfl, if_pos (by omega), if_pos (by omega), Nat.add_sub_cancel_left,
        List.getElem?_append_right (le_refl _)]
      simp
    · rw [if_neg hn, ih (by omega)]
      by_cases hc : pos ≤ n ∧ n < pos + l.length
      · rw [if_pos hc, if_pos (by omega), List.getElem?_append_left (by omega)]
      · rw [if_neg hc, if_neg (by omega)]

end Verif.Assembly
