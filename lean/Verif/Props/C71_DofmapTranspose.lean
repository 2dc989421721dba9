import Verif.Model.DofmapTranspose
import Verif.Lemmas.DualGraphLocal
import Verif.Lemmas.MatMulFetch
/-! C71: `transpose_dofmap` lists for each dof all its places in the first cells of the dofmap. -/
namespace Verif.Props
open Verif.DofmapTranspose Verif.Offsets

private theorem le_foldl_maximum (l : List Nat) (a : Nat) : a ≤ l.foldl max a ∧ (∀ x ∈ l, x ≤ l.foldl max a) ∧
    (l.foldl max a = a ∨ l.foldl max a ∈ l) := by
  induction l generalizing a with
  | nil => simp
  | cons b l ih =>
    obtain ⟨h1, h2, h3⟩ := ih (max a b)
    rw [List.foldl_cons]
    refine ⟨by omega, ?_, ?_⟩
    · intro x hx
      rcases List.mem_cons.mp hx with rfl | hx
      · omega
      · exact h2 x hx
    · rcases h3 with h3 | h3
      · rw [h3]
        rcases le_total a b with h | h
        · right; rw [max_eq_right h]; simp
        · left; exact max_eq_left h
      · right; simp [h3]

/-- The result for the largest dof `m`. -/
private theorem transpose_rows {a : List Nat} {w n m : Nat} (hm : maxElement a (n * w) = some m)
    (hle : ∀ x ∈ a.take (n * w), x ≤ m) :
    transposeDofmap a w n = some ((List.range (m + 1)).map fun d => (List.range (n * w)).filter fun k => decide (a[k]? = some d)) := by
  unfold transposeDofmap
  rw [hm]
  simp only [Option.bind_eq_bind, Option.bind_some, Option.some.injEq]
  have hlen : n * w ≤ a.length := by
    unfold maxElement at hm
    by_contra hc
    rw [if_pos (by omega)] at hm
    cases hm
  have hk : ∀ x ∈ (a.take (n * w)).zipIdx, x.1 < m + 1 := by
    intro x hx
    have := hle x.1 (by
      have := List.mem_zipIdx_iff_getElem?.mp hx
      exact List.mem_of_getElem? this)
    omega
  have hnum : ∀ b ≤ m + 1, excl (fun b => ((List.range (m + 1)).map (cnt Prod.fst (a.take (n * w)).zipIdx)).getD b 0) b =
      excl (cnt Prod.fst (a.take (n * w)).zipIdx) b := by
    intro b hb
    apply excl_congr
    intro i hi
    rw [List.getD_eq_getElem?_getD, List.getElem?_map, List.getElem?_range (by omega)]
    rfl
  have hget : ∀ b ≤ m + 1, ((List.range (m + 2)).map (excl fun b =>
      ((List.range (m + 1)).map (cnt Prod.fst (a.take (n * w)).zipIdx)).getD b 0)).getD b 0 =
      excl (cnt Prod.fst (a.take (n * w)).zipIdx) b := by
    intro b hb
    rw [List.getD_eq_getElem?_getD, List.getElem?_map, List.getElem?_range (by omega), Option.map_some, Option.getD_some]
    exact hnum b hb
  apply List.map_congr_left
  intro d hd
  rw [List.mem_range] at hd
  rw [hget (m + 1) (le_refl _), hget d (by omega), hget (d + 1) (by omega),
    MatMul.fill_congr_lt Prod.fst Prod.snd (m + 1) _ (excl (cnt Prod.fst (a.take (n * w)).zipIdx)) (fun j hj => hget j (by omega)) _ hk,
    DualGraph.fill_rows Prod.fst Prod.snd _ (m + 1) d hk hd]
  generalize hN : n * w = N at *
  have key : ∀ N, N ≤ a.length → (((a.take N).zipIdx).filter fun x => x.1 == d).map Prod.snd =
      (List.range N).filter fun k => decide (a[k]? = some d) := by
    intro N
    induction N with
    | zero => intro _; simp
    | succ N ih =>
      intro hN
      have hx : a[N]? = some a[N] := List.getElem?_eq_getElem (by omega)
      rw [List.take_succ, hx, List.range_succ, List.zipIdx_append, List.filter_append, List.map_append, ih (by omega),
        List.filter_append]
      congr 1
      have hl : (a.take N).length = N := by rw [List.length_take]; omega
      rw [hl]
      by_cases h : a[N] = d
      · simp [h, hx]
      · simp [h, hx]
  exact key N hlen

/-- C71: for the first `n` cells of a dofmap with `w` columns and at least one entry, the transpose has a row for each
dof up to the largest, and this row has exactly the places `c * w + i` of the dof, in increasing order. The case without
entries is missing: it reads outside the array. -/
theorem C71_transpose_partial (a : List Nat) (w n : Nat) (hle : n * w ≤ a.length) (hne : a ≠ []) :
    ∃ m, transposeDofmap a w n = some ((List.range (m + 1)).map fun d => (List.range (n * w)).filter fun k => decide (a[k]? = some d)) ∧
      (∀ x ∈ a.take (n * w), x ≤ m) ∧ (0 < n * w → m ∈ a.take (n * w)) := by
  cases ht : a.take (n * w) with
  | nil =>
    cases a with
    | nil => exact absurd rfl hne
    | cons x a =>
      have hm : maxElement (x :: a) (n * w) = some x := by
        unfold maxElement
        rw [if_neg (by omega), ht]
        rfl
      refine ⟨x, transpose_rows hm (by rw [ht]; simp), by simp, ?_⟩
      intro h
      have := congrArg List.length ht
      rw [List.length_take, List.length_nil] at this
      have hl : 0 < (x :: a).length := by simp
      omega
  | cons x l =>
    have hm : maxElement a (n * w) = some (l.foldl max x) := by
      unfold maxElement
      rw [if_neg (by omega), ht]
    obtain ⟨h1, h2, h3⟩ := le_foldl_maximum l x
    have hall : ∀ y ∈ x :: l, y ≤ l.foldl max x := by
      intro y hy
      rcases List.mem_cons.mp hy with rfl | hy
      · exact h1
      · exact h2 y hy
    refine ⟨_, transpose_rows hm (by rw [ht]; exact hall), hall, ?_⟩
    intro _
    rcases h3 with h3 | h3
    · rw [h3]; simp
    · simp [h3]

/-- C71: adding up values per dof with the transpose gives the sum over all cells and columns, so that assembling in
parallel over dofs gives the same vector as assembling cell by cell. -/
theorem C71_assemble {K : Type} [AddCommMonoid K] (a : List Nat) (w n : Nat) (rows : List (List Nat))
    (hne : a ≠ []) (hle : n * w ≤ a.length) (h : transposeDofmap a w n = some rows) (v : Nat → K) (d : Nat) :
    ((rows.getD d []).map v).sum =
      ((List.range n).map fun c => ((List.range w).map fun i => if a[c * w + i]? = some d then v (c * w + i) else 0).sum).sum := by
  obtain ⟨m, h1, h2, -⟩ := C71_transpose_partial a w n hle hne
  rw [h1] at h
  obtain rfl := Option.some.inj h
  have hrow : ((((List.range (m + 1)).map fun d => (List.range (n * w)).filter fun k => decide (a[k]? = some d)).getD d []).map v).sum =
      (((List.range (n * w)).filter fun k => decide (a[k]? = some d)).map v).sum := by
    by_cases hd : d < m + 1
    · rw [List.getD_eq_getElem?_getD, List.getElem?_map, List.getElem?_range hd]
      rfl
    · rw [List.getD_eq_getElem?_getD, List.getElem?_eq_none (by simpa using hd)]
      have : (List.range (n * w)).filter (fun k => decide (a[k]? = some d)) = [] := by
        rw [List.filter_eq_nil_iff]
        intro k hk
        rw [List.mem_range] at hk
        simp only [decide_eq_true_eq]
        intro hc
        have := h2 d (List.mem_of_getElem? (i := k) (by rw [List.getElem?_take_of_lt hk]; exact hc))
        omega
      rw [this]
      rfl
  rw [hrow]
  have hsum : ∀ l : List Nat, ((l.filter fun k => decide (a[k]? = some d)).map v).sum =
      (l.map fun k => if a[k]? = some d then v k else 0).sum := by
    intro l
    induction l with
    | nil => rfl
    | cons k l ih =>
      rw [List.filter_cons, List.map_cons, List.sum_cons, ← ih]
      by_cases hk : a[k]? = some d
      · rw [if_pos (by simpa using hk), if_pos hk, List.map_cons, List.sum_cons]
      · rw [if_neg (by simpa using hk), if_neg hk, zero_add]
  rw [hsum]
  clear h1 h2 hrow hle hsum h
  induction n with
  | zero => simp
  | succ n ih =>
    rw [List.range_succ, List.map_append, List.sum_append, ← ih, Nat.succ_mul]
    have hadd : List.range (n * w + w) = List.range (n * w) ++ (List.range w).map (n * w + ·) := List.range_add
    rw [hadd, List.map_append, List.sum_append, List.map_map]
    simp [Function.comp_def]

/-- Without entries, as on a process without cells, an element outside the array is read. -/
theorem C71_refuted_empty (w : Nat) : transposeDofmap [] w 0 = none := by
  unfold transposeDofmap maxElement
  simp

/-- The dofmap of the test in the repository. -/
example : transposeDofmap [0, 2, 1, 3, 2, 1, 4, 3, 1] 3 3 = some [[0], [2, 5, 8], [1, 4], [3, 7], [6]] := by decide +kernel
example : transposeDofmap [0, 2, 1, 3, 2, 1, 4, 3, 1] 3 2 = some [[0], [2, 5], [1, 4], [3]] := by decide +kernel

end Verif.Props
