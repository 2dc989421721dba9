import Verif.Lemmas.Coefficients
/-!
# Lemmas: packing of values
-/
namespace Verif.Coefficients
open Verif.Spec.Coefficients
open Verif.Integration (Kind)

variable {T : Type}

/-- One block is copied. -/
theorem copy_block (v : List T) (a b n : Nat) : ∀ (co : List T), a + n ≤ co.length → b + n ≤ v.length →
    ∃ co', (List.range n).foldlM (fun co k => copyAt co v (a + k) (b + k)) co = some co' ∧ co'.length = co.length ∧
      (∀ k < n, co'[a + k]? = v[b + k]?) ∧ ∀ q, (q < a ∨ a + n ≤ q) → co'[q]? = co[q]? := by
  induction n with
  | zero => intro co _ _; exact ⟨co, rfl, rfl, by simp, by simp⟩
  | succ n ih =>
    intro co ha hb
    obtain ⟨c1, h1, h2, h3, h4⟩ := ih co (by omega) (by omega)
    have hv : v[b + n]? = some (v[b + n]'(by omega)) := List.getElem?_eq_getElem (by omega)
    refine ⟨c1.set (a + n) (v[b + n]'(by omega)), ?_, by simp [h2], ?_, ?_⟩
    · rw [List.range_succ, List.foldlM_append, h1]
      simp only [Option.bind_eq_bind, Option.bind_some, List.foldlM_cons, List.foldlM_nil, copyAt, hv]
      rw [if_pos (by omega)]; rfl
    · intro k hk
      rcases Nat.lt_or_ge k n with h | h
      · rw [List.getElem?_set_ne (by omega)]; exact h3 k h
      · obtain rfl : k = n := by omega
        rw [List.getElem?_set_self (by omega), hv]
    · intro q hq
      rw [List.getElem?_set_ne (by omega)]
      exact h4 q (by omega)

/-- All dofs of a cell are copied. -/
theorem copy_dofs (u : Fn T) (ds : List Nat) (hx : ∀ d ∈ ds, u.bs * d + u.bs ≤ u.x.length) : ∀ (co : List T), ds.length * u.bs ≤ co.length →
    ∃ co', ds.zipIdx.foldlM (fun co (d : Nat × Nat) =>
      (List.range u.bs).foldlM (fun co k => copyAt co u.x (u.bs * d.2 + k) (u.bs * d.1 + k)) co) co = some co' ∧ co'.length = co.length ∧
      ∀ i d : Nat, ds[i]? = some d → ∀ k < u.bs, co'[u.bs * i + k]? = u.x[u.bs * d + k]? := by
  induction ds using List.reverseRecOn with
  | nil => intro co _; exact ⟨co, rfl, rfl, by simp⟩
  | append_singleton ds d ih =>
    intro co hc
    simp only [List.length_append, List.length_singleton] at hc
    have hmul : (ds.length + 1) * u.bs = ds.length * u.bs + u.bs := by ring
    obtain ⟨c1, h1, h2, h3⟩ := ih (fun d hd => hx d (by simp [hd])) co (by omega)
    have hcm : u.bs * ds.length = ds.length * u.bs := Nat.mul_comm _ _
    obtain ⟨c2, h4, h5, h6, h7⟩ := copy_block u.x (u.bs * ds.length) (u.bs * d) u.bs c1 (by omega) (hx d (by simp))
    refine ⟨c2, ?_, by omega, ?_⟩
    · rw [List.zipIdx_append, List.foldlM_append, h1]
      simp only [Option.bind_eq_bind, Option.bind_some, List.zipIdx_singleton, List.foldlM_cons, List.foldlM_nil, Nat.zero_add, h4]
      rfl
    · intro i e hi k hk
      rcases Nat.lt_trichotomy i ds.length with h | h | h
      · rw [List.getElem?_append_left h] at hi
        have hle : u.bs * i + u.bs ≤ u.bs * ds.length := by
          have : u.bs * (i + 1) ≤ u.bs * ds.length := Nat.mul_le_mul (Nat.le_refl _) (by omega)
          rw [Nat.mul_succ] at this; exact this
        rw [h7 _ (Or.inl (by omega))]
        exact h3 i e hi k hk
      · subst h
        rw [List.getElem?_append_right (by omega)] at hi
        simp only [Nat.sub_self, List.getElem?_cons_zero, Option.some.injEq] at hi
        subst hi
        exact h6 k hk
      · rw [List.getElem?_eq_none (by simp; omega)] at hi
        cases hi

/-- What is packed for a cell. -/
theorem packImpl_ok (u : Fn T) (hu : FnOk u) (co : List T) (hco : co.length = u.spaceDim) (cell : Nat) (hc : cell < u.dofs.length) :
    ∃ vals, LocalValues u cell vals ∧ packImpl u co cell = some (u.transform cell vals) := by
  have hd : u.dofs[cell]? = some u.dofs[cell] := List.getElem?_eq_getElem hc
  obtain ⟨h1, h2⟩ := hu.1 _ (List.getElem_mem hc)
  obtain ⟨co', h3, h4, h5⟩ := copy_dofs u u.dofs[cell] h2 co (by omega)
  refine ⟨co', ⟨_, hd, by omega, ?_⟩, ?_⟩
  · intro i d hi k hk
    have hlt := h2 d (List.mem_of_getElem? hi)
    have hx : u.x[u.bs * d + k]? = some (u.x[u.bs * d + k]'(by omega)) := List.getElem?_eq_getElem (by omega)
    exact ⟨_, hx, by rw [h5 i d hi k hk, hx]⟩
  · rw [packImpl, hd]
    simp only [Option.bind_eq_bind, Option.bind_some, h3]

/-- Value `k` that belongs to a function on cell `j`. -/
def GoodAt (u : Fn T) (c : List T) (start : Nat) (j : Nat) : Prop :=
  ∃ vals, LocalValues u j vals ∧ ∀ k < u.spaceDim, ∃ y, c[start + k]? = some y ∧ (u.transform j vals)[k]? = some y

theorem GoodAt.congr {u : Fn T} {c c' : List T} {start j : Nat} (h : GoodAt u c start j)
    (hc : ∀ q, start ≤ q → q < start + u.spaceDim → c'[q]? = c[q]?) : GoodAt u c' start j := by
  obtain ⟨vals, h1, h2⟩ := h
  refine ⟨vals, h1, fun k hk => ?_⟩
  rw [hc _ (by omega) (by omega)]
  exact h2 k hk

theorem splice_get (c co : List T) (s n : Nat) (hs : s + n ≤ c.length) (hco : co.length = n) (q : Nat) :
    (c.take s ++ co ++ c.drop (s + n))[q]? = if s ≤ q ∧ q < s + n then co[q - s]? else c[q]? := by
  have hl : (c.take s).length = s := by rw [List.length_take]; omega
  rcases Nat.lt_or_ge q s with h | h
  · rw [if_neg (by omega), List.append_assoc, List.getElem?_append_left (by omega), List.getElem?_take_of_lt h]
  · rcases Nat.lt_or_ge q (s + n) with h' | h'
    · rw [if_pos ⟨h, h'⟩, List.getElem?_append_left (by rw [List.length_append]; omega), List.getElem?_append_right (by omega), hl]
    · rw [if_neg (by omega), List.getElem?_append_right (by rw [List.length_append]; omega), List.length_append, hl, hco, List.getElem?_drop]
      congr 1; omega

/-- One function is packed for all entities. -/
theorem packEntity_ok (u : Fn T) (hu : FnOk u) (S off : Nat) (hS : off + u.spaceDim ≤ S) (cells : List Int)
    (hcells : ∀ x ∈ cells, x < 0 ∨ x.toNat < u.dofs.length) : ∀ (c : List T), cells.length * S ≤ c.length →
    ∃ c', packEntity u c S cells off = some c' ∧ c'.length = c.length ∧
      (∀ e j : Nat, cells[e]? = some (j : Int) → GoodAt u c' (S * e + off) j) ∧
      ∀ q, (∀ e j : Nat, cells[e]? = some (j : Int) → q < S * e + off ∨ S * e + off + u.spaceDim ≤ q) → c'[q]? = c[q]? := by
  induction cells using List.reverseRecOn with
  | nil => intro c _; exact ⟨c, rfl, rfl, by simp, by simp⟩
  | append_singleton cells x ih =>
    intro c hc
    simp only [List.length_append, List.length_singleton] at hc
    have hmul : (cells.length + 1) * S = cells.length * S + S := by ring
    have hcm : S * cells.length = cells.length * S := Nat.mul_comm _ _
    obtain ⟨c1, h1, h2, h3, h4⟩ := ih (fun x hx => hcells x (by simp [hx])) c (by omega)
    have hstep : ∀ r, (if x < 0 then some c1
        else if cells.length * S + off + u.spaceDim ≤ c1.length then
          (packImpl u ((c1.drop (cells.length * S + off)).take u.spaceDim) x.toNat).map fun co =>
            c1.take (cells.length * S + off) ++ co ++ c1.drop (cells.length * S + off + u.spaceDim)
          else none) = some r → packEntity u c S (cells ++ [x]) off = some r := by
      intro r hr
      unfold packEntity at h1 ⊢
      rw [List.zipIdx_append, List.foldlM_append, h1]
      simp only [Option.bind_eq_bind, Option.bind_some, List.zipIdx_singleton, List.foldlM_cons, List.foldlM_nil, Nat.zero_add]
      rw [hr]; rfl
    have hget : ∀ e (y : Int), (cells ++ [x])[e]? = some y → cells[e]? = some y ∨ (e = cells.length ∧ y = x) := by
      intro e y he
      rcases Nat.lt_trichotomy e cells.length with h | h | h
      · rw [List.getElem?_append_left h] at he; exact Or.inl he
      · subst h
        rw [List.getElem?_append_right (by omega)] at he
        simp only [Nat.sub_self, List.getElem?_cons_zero, Option.some.injEq] at he
        exact Or.inr ⟨rfl, he.symm⟩
      · rw [List.getElem?_eq_none (by simp; omega)] at he; cases he
    by_cases hx : x < 0
    · refine ⟨c1, hstep c1 (by rw [if_pos hx]), h2, ?_, ?_⟩
      · intro e j he
        rcases hget e j he with h | ⟨_, h⟩
        · exact h3 e j h
        · omega
      · intro q hq
        exact h4 q fun e j he => hq e j (by
          rw [List.getElem?_append_left (List.getElem?_eq_some_iff.mp he).1]; exact he)
    · have hxd : x.toNat < u.dofs.length := by
        rcases hcells x (by simp) with h | h
        · exact absurd h hx
        · exact h
      obtain ⟨vals, hv, hp⟩ := packImpl_ok u hu ((c1.drop (cells.length * S + off)).take u.spaceDim)
        (by rw [List.length_take, List.length_drop]; omega) x.toNat hxd
      have htl : (u.transform x.toNat vals).length = u.spaceDim := by
        obtain ⟨_, _, h, _⟩ := hv
        rw [hu.2, h]
      have hsp := splice_get c1 (u.transform x.toNat vals) (cells.length * S + off) u.spaceDim (by omega) htl
      refine ⟨_, hstep _ (by rw [if_neg hx, if_pos (by omega), hp]; rfl), ?_, ?_, ?_⟩
      · simp only [List.length_append, List.length_take, List.length_drop, htl]; omega
      · intro e j he
        rcases hget e j he with h | ⟨he', h⟩
        · refine (h3 e j h).congr fun q hq1 hq2 => ?_
          rw [hsp, if_neg]
          have hlt := (List.getElem?_eq_some_iff.mp h).1
          have : S * (e + 1) ≤ S * cells.length := Nat.mul_le_mul (Nat.le_refl _) (by omega)
          rw [Nat.mul_succ] at this
          omega
        · subst he'
          have hj : x.toNat = j := by omega
          rw [hj] at hv hsp htl
          refine ⟨vals, hv, fun k hk => ?_⟩
          have hk' : k < (u.transform j vals).length := by omega
          refine ⟨(u.transform j vals)[k], ?_, List.getElem?_eq_getElem hk'⟩
          rw [hj, hsp, if_pos (by omega), ← List.getElem?_eq_getElem hk']
          congr 1; omega
      · intro q hq
        rw [hsp, if_neg, h4 q fun e j he => hq e j (by
          rw [List.getElem?_append_left (List.getElem?_eq_some_iff.mp he).1]; exact he)]
        have := hq cells.length x.toNat (by
          rw [List.getElem?_append_right (by omega)]
          simp only [Nat.sub_self, List.getElem?_cons_zero, Option.some.injEq]; omega)
        omega

/-! ## Offsets -/

theorem before_succ (us : List (Fn T)) (c : Nat) (u : Fn T) (h : us[c]? = some u) : before us (c + 1) = before us c + u.spaceDim := by
  obtain ⟨hc, rfl⟩ := List.getElem?_eq_some_iff.mp h
  unfold before
  rw [List.take_succ_eq_append_getElem hc]
  simp only [List.map_append, List.sum_append, List.map_cons, List.map_nil, List.sum_cons, List.sum_nil, Nat.add_zero]

theorem before_mono (us : List (Fn T)) {c c' : Nat} (h : c ≤ c') : before us c ≤ before us c' := by
  unfold before
  induction h with
  | refl => exact Nat.le_refl _
  | step h ih =>
    refine Nat.le_trans ih ?_
    rename_i m
    rcases Nat.lt_or_ge m us.length with hm | hm
    · rw [List.take_succ_eq_append_getElem hm]
      simp only [List.map_append, List.sum_append]
      omega
    · rw [List.take_of_length_le hm, List.take_of_length_le (by omega)]

theorem offsets_eq (us : List (Fn T)) : coefficientOffsets us = (List.range (us.length + 1)).map (before us) := by
  induction us using List.reverseRecOn with
  | nil => rfl
  | append_singleton us u ih =>
    have hf : coefficientOffsets (us ++ [u]) = coefficientOffsets us ++ [(coefficientOffsets us).getLastD 0 + u.spaceDim] := by
      unfold coefficientOffsets
      rw [List.foldl_append]; rfl
    rw [hf, ih, List.length_append, List.length_singleton, List.range_succ (n := us.length + 1), List.map_append]
    congr 1
    · refine List.map_congr_left fun c hc => ?_
      have : c ≤ us.length := by have := List.mem_range.mp hc; omega
      unfold before
      rw [List.take_append_of_le_length this]
    · simp only [List.map_cons, List.map_nil, List.cons.injEq, and_true]
      rw [List.range_succ, List.map_append, List.map_singleton]
      simp only [List.getLastD_eq_getLast?, List.getLast?_append, List.getLast?_singleton, Option.some_or, Option.getD_some]
      unfold before
      rw [List.take_of_length_le (Nat.le_refl _), List.take_of_length_le (by simp)]
      simp

theorem offsets_get (us : List (Fn T)) (c : Nat) (h : c ≤ us.length) : (coefficientOffsets us)[c]? = some (before us c) := by
  rw [offsets_eq, List.getElem?_map, List.getElem?_range (by omega)]; rfl

theorem offsets_last (us : List (Fn T)) : (coefficientOffsets us).getLastD 0 = before us us.length := by
  rw [offsets_eq, List.range_succ, List.map_append, List.map_singleton]
  simp [List.getLastD_eq_getLast?]

end Verif.Coefficients
