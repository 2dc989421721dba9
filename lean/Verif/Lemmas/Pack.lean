import Verif.Lemmas.Group
import Verif.Lemmas.BucketFill
/-!
# Packing a send buffer through write cursors
-/
namespace Verif.Group
open Verif.Std Verif.Offsets

variable {α β : Type}

theorem flatMap_range_getElem {γ δ : Type} (l : List γ) (f : γ → List δ) (g : Nat → List δ)
    (h : ∀ (b : Nat) (d : γ), l[b]? = some d → g b = f d) : (List.range l.length).flatMap g = l.flatMap f := by
  induction l generalizing g with
  | nil => rfl
  | cons a l ih =>
    rw [List.length_cons, List.range_succ_eq_map, List.flatMap_cons, List.flatMap_map, List.flatMap_cons,
      h 0 a rfl, ih (fun b => g (b + 1)) (fun b d hb => h (b + 1) d (by simpa using hb))]

theorem take_sum_excl (l : List Nat) (b : Nat) : (l.take b).sum = excl (fun b => l.getD b 0) b := by
  induction b with
  | zero => simp
  | succ b ih =>
    rw [excl_succ, ← ih, List.take_succ, List.sum_append, List.getD_eq_getElem?_getD]
    cases l[b]? <;> simp

/-- Records with keys from a duplicate-free list `D`, written through cursors at the position of
their key in `D`: the buffer is the concatenation of the groups in the order of `D`. -/
theorem pack_eq (D : List Nat) (hD : D.Nodup) (items : List α) (key pos : α → Nat) (val : α → β)
    (hk : ∀ x ∈ items, key x ∈ D) (hpos : ∀ x ∈ items, pos x = D.idxOf (key x)) (sizes : List Nat)
    (hs : sizes = D.map fun d => (grp key items d).length) (buf : List β) (hlen : buf.length = items.length) :
    (fill pos val (fun b => (sizes.take b).sum) buf items).2 = D.flatMap fun d => (grp key items d).map val := by
  have hfil : ∀ (b d : Nat), D[b]? = some d → items.filter (fun x => pos x == b) = grp key items d := by
    intro b d hb
    obtain ⟨hlt, hget⟩ := List.getElem?_eq_some_iff.mp hb
    unfold grp
    apply List.filter_congr
    intro e he
    rw [Bool.eq_iff_iff]
    simp only [beq_iff_eq, decide_eq_true_eq]
    rw [hpos e he]
    constructor
    · intro h
      have h1 := List.getElem?_idxOf (hk e he)
      rw [h, hb] at h1
      exact (Option.some.inj h1).symm
    · intro h
      rw [h, ← hget, hD.idxOf_getElem]
  have hlt : ∀ x ∈ items, pos x < D.length := by
    intro x hx; rw [hpos x hx]; exact List.idxOf_lt_length_of_mem (hk x hx)
  have hcnt : ∀ b, cnt pos items b = sizes.getD b 0 := by
    intro b
    rw [cnt_eq_length, hs, List.getD_eq_getElem?_getD, List.getElem?_map]
    cases hb : D[b]? with
    | none =>
      simp only [Option.map_none, Option.getD_none, List.length_eq_zero_iff, List.filter_eq_nil_iff]
      intro x hx
      have h2 := List.getElem?_eq_none_iff.mp hb
      have := hlt x hx
      simp; omega
    | some d => rw [hfil b d hb]; simp
  have hcur : (fun b => (sizes.take b).sum) = excl (cnt pos items) := by
    funext b
    rw [take_sum_excl]
    apply excl_congr
    intro i _; exact (hcnt i).symm
  rw [hcur, fill_eq_buckets _ _ _ _ D.length hlt hlen]
  apply flatMap_range_getElem
  intro b d hb
  rw [hfil b d hb]

/-- `std::lower_bound` in a strictly sorted list finds the position of a member. -/
theorem lowerBound_idxOf (D : List Nat) (hD : D.Pairwise (· < ·)) (d : Nat) (hd : d ∈ D) :
    lowerBound (fun x => decide (x < d)) D = D.idxOf d := by
  obtain ⟨x, h1, h2, _⟩ := lowerBound_find (fun x : Nat => x) D (hD.imp (fun h => le_of_lt h)) d ⟨d, hd, rfl⟩
  subst h2
  obtain ⟨hlt, hget⟩ := List.getElem?_eq_some_iff.mp h1
  have := (nodup_of_strict hD).idxOf_getElem _ hlt
  rw [hget] at this
  exact this.symm

/-- Slice of a concatenation through the displacements. -/
theorem slice_flatMap_range (f : Nat → List β) (n i : Nat) (hi : i < n) :
    (((List.range n).flatMap f).drop (excl (fun b => (f b).length) i)).take
      (excl (fun b => (f b).length) (i + 1) - excl (fun b => (f b).length) i) = f i := by
  rw [excl_succ, Nat.add_sub_cancel_left]
  induction n with
  | zero => omega
  | succ n ih =>
    rw [List.range_succ, List.flatMap_append]
    have hl := length_flatMap_range f n
    rcases Nat.lt_or_ge i n with h | h
    · have h2 := excl_lt (fun b => (f b).length) h
      rw [List.drop_append_of_le_length (by omega), List.take_append_of_le_length (by rw [List.length_drop]; omega)]
      exact ih h
    · have : i = n := by omega
      subst this
      rw [← hl, List.drop_left']
      · simp
      · rfl

/-- Sum of the group sizes. -/
theorem sum_grp (key : α → Nat) (D : List Nat) (hD : D.Nodup) (items : List α) (hk : ∀ x ∈ items, key x ∈ D) :
    (D.map fun d => (grp key items d).length).sum = items.length := by
  induction items with
  | nil =>
    have : ∀ l : List Nat, (l.map fun d => (grp key ([] : List α) d).length).sum = 0 := by
      intro l; induction l with
      | nil => rfl
      | cons a l ih => simp [grp]
    simpa using this D
  | cons x items ih =>
    have h2 := ih (fun y hy => hk y (by simp [hy]))
    rw [List.length_cons, ← h2]
    have hx := hk x (by simp)
    clear ih h2 hk
    induction D with
    | nil => simp at hx
    | cons d D ihD =>
      obtain ⟨hd, hD'⟩ := List.nodup_cons.mp hD
      rw [List.map_cons, List.sum_cons, List.map_cons, List.sum_cons]
      by_cases hxd : key x = d
      · have : (grp key (x :: items) d).length = (grp key items d).length + 1 := by simp [grp, hxd]
        rw [this]
        have : (D.map fun d => (grp key (x :: items) d).length) = D.map fun d => (grp key items d).length := by
          apply List.map_congr_left
          intro d' hd'
          have : key x ≠ d' := by rintro rfl; exact hd (hxd ▸ hd')
          simp [grp, this]
        rw [this]; omega
      · have : (grp key (x :: items) d).length = (grp key items d).length := by simp [grp, hxd]
        rw [this, ihD hD' (by
          rcases List.mem_cons.mp hx with h | h
          · exact absurd h hxd
          · exact h)]
        omega

end Verif.Group
