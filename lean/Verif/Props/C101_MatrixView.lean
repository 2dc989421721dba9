import Verif.Spec.MatrixView
import Verif.Props.C18_MatrixScatter
import Verif.Props.C46_Vector
import Verif.Lemmas.DofmapExchange
import Verif.Lemmas.VectorOps
import Verif.Props.C10_C11_Scatter
/-!
# C101: dense copies, SciPy matrices and norms
-/
namespace Verif.Props
open Verif.World Verif.Spec Verif.MatScatter Verif.MatrixView Verif.Spec.MatrixView Finset

section sets
variable {R : Type}

theorem events_length (E : List (Nat × R)) (A : List R) : (E.foldl (fun A e => A.set e.1 e.2) A).length = A.length := by
  induction E generalizing A with
  | nil => rfl
  | cons e E ih => rw [List.foldl_cons, ih, List.length_set]

theorem events_get (E : List (Nat × R)) (A : List R) (p : Nat) (v : R) (hp : p < A.length) (hv : ∀ e ∈ E, e.1 = p → e.2 = v)
    (h : (∃ e ∈ E, e.1 = p) ∨ A[p]? = some v) : (E.foldl (fun A e => A.set e.1 e.2) A)[p]? = some v := by
  induction E generalizing A with
  | nil => simpa using h
  | cons e E ih =>
    rw [List.foldl_cons]
    apply ih _ (by simpa using hp) (fun e' he' => hv e' (by simp [he']))
    by_cases hE : ∃ e' ∈ E, e'.1 = p
    · exact Or.inl hE
    · right
      by_cases he : e.1 = p
      · subst he
        rw [List.getElem?_set_self hp, hv e (by simp) rfl]
      · rw [List.getElem?_set_ne he]
        rcases h with ⟨e', he', hp'⟩ | h
        · rcases List.mem_cons.mp he' with rfl | he'
          · exact absurd hp' he
          · exact absurd ⟨e', he', hp'⟩ hE
        · exact h

end sets

theorem radix {a a' b c c' : Nat} (hc : c < b) (hc' : c' < b) (h : a * b + c = a' * b + c') : a = a' ∧ c = c' := by
  have hb : 0 < b := by omega
  have h1 : (a * b + c) / b = a := by rw [mul_comm, Nat.mul_add_div hb, Nat.div_eq_of_lt hc, add_zero]
  have h2 : (a' * b + c') / b = a' := by rw [mul_comm, Nat.mul_add_div hb, Nat.div_eq_of_lt hc', add_zero]
  have : a = a' := by rw [← h1, ← h2, h]
  exact ⟨this, by subst this; omega⟩

theorem radix_lt {a b c n : Nat} (ha : a < n) (hc : c < b) : a * b + c < n * b := by
  calc a * b + c < a * b + b := by omega
    _ = (a + 1) * b := by ring
    _ ≤ n * b := Nat.mul_le_mul_right _ ha

section dense
variable {R : Type} [AddCommMonoid R]

theorem rows_le {n nc : Nat} {ptr : Nat → Nat} {cols : List Nat} (h : Spec.MatrixView.RowsOk n nc ptr cols) (i : Nat) (hi : i ≤ n) : ptr i ≤ cols.length := by
  rw [← h.len]
  have : ∀ d, ∀ i, i + d = n → ptr i ≤ ptr n := by
    intro d
    induction d with
    | zero => intro i hi; rw [← hi]; exact le_rfl
    | succ d ih => intro i hi; exact le_trans (h.mono i (by omega)) (ih (i + 1) (by omega))
  exact this (n - i) i (by omega)

theorem rows_col {n nc : Nat} {ptr : Nat → Nat} {cols : List Nat} (h : Spec.MatrixView.RowsOk n nc ptr cols) (i t : Nat) (hi : i < n)
    (ht : t < ptr (i + 1) - ptr i) : cols.getD (ptr i + t) 0 < nc := by
  have := rows_le h (i + 1) hi
  rw [List.getD_eq_getElem?_getD, List.getElem?_eq_getElem (by omega)]
  exact h.range _ (List.getElem_mem _)

/-- The column is held at one position of the row at most. -/
theorem row_unique (w1 : World) (hw1 : w1.Valid) (q : Nat) (hq : q < w1.P) {n : Nat} {ptr : Nat → Nat} {cols : List Nat}
    (h : Spec.MatrixView.RowsOk n (w1.size q + (w1.ghosts q).length) ptr cols) (i : Nat) (hi : i < n) (J s t : Nat)
    (hs : s < ptr (i + 1) - ptr i) (ht : t < ptr (i + 1) - ptr i) (h1 : globalOf w1 q (cols.getD (ptr i + s) 0) = some J)
    (h2 : globalOf w1 q (cols.getD (ptr i + t) 0) = some J) : s = t := by
  have e := Dofmap.globalOf_inj hw1 hq (rows_col h i s hi hs) (rows_col h i t hi ht) (h1.trans h2.symm)
  rcases Nat.lt_trichotomy s t with hlt | heq | hlt
  · exact absurd e (h.distinct i hi s t hlt ht)
  · exact heq
  · exact absurd e.symm (h.distinct i hi t s hlt hs)

/-- The dense copy has, for each local row and each global column, the value that is stored for them, or zero. -/
theorem C101_dense (w0 w1 : World) (hw1 : w1.Valid) (g : Graph) (bs0 bs1 : Nat) (data : Nat → R) (q : Nat) (hq : q < w1.P)
    (hok : Spec.MatrixView.RowsOk (w0.size q + (w0.ghosts q).length) (w1.size q + (w1.ghosts q).length) g.rowPtr g.cols) :
    (toDense w0 w1 g bs0 bs1 data q).length = ((w0.size q + (w0.ghosts q).length) * bs0) * (w1.r0 w1.P * bs1) ∧
    ∀ i k0 J k1, i < w0.size q + (w0.ghosts q).length → k0 < bs0 → J < w1.r0 w1.P → k1 < bs1 →
      (toDense w0 w1 g bs0 bs1 data q)[(i * bs0 + k0) * (w1.r0 w1.P * bs1) + (J * bs1 + k1)]? =
        some (rowEntry w1 g.rowPtr g.cols bs0 bs1 data q i k0 J k1) := by
  set N := w1.r0 w1.P with hN
  set n := w0.size q + (w0.ghosts q).length with hn
  have hE : toDense w0 w1 g bs0 bs1 data q = ((List.range n).flatMap fun r => (List.range (g.rowPtr (r + 1) - g.rowPtr r)).flatMap fun t =>
      (List.range bs0).flatMap fun i0 => (List.range bs1).map fun i1 =>
        ((r * bs0 + i0) * N * bs1 + globalCol w1 q (g.cols.getD (g.rowPtr r + t) 0) * bs1 + i1,
          data ((g.rowPtr r + t) * bs0 * bs1 + i0 * bs1 + i1))).foldl (fun A e => A.set e.1 e.2) (List.replicate (n * N * bs0 * bs1) 0) := by
    simp only [List.foldl_flatMap, List.foldl_map]
    rfl
  rw [hE, events_length, List.length_replicate]
  refine ⟨by ring, ?_⟩
  intro i k0 J k1 hi hk0 hJ hk1
  have hpos : ∀ r i0 G i1, (r * bs0 + i0) * N * bs1 + G * bs1 + i1 = (((r * bs0 + i0) * N + G) * bs1 + i1) := fun r i0 G i1 => by ring
  have hp : (i * bs0 + k0) * (N * bs1) + (J * bs1 + k1) = (((i * bs0 + k0) * N + J) * bs1 + k1) := by ring
  have hglob : ∀ r t, r < n → t < g.rowPtr (r + 1) - g.rowPtr r → ∃ G, globalOf w1 q (g.cols.getD (g.rowPtr r + t) 0) = some G ∧
      globalCol w1 q (g.cols.getD (g.rowPtr r + t) 0) = G ∧ G < N := by
    intro r t hr ht
    obtain ⟨G, hG⟩ := globalOf_some w1 q _ (rows_col hok r t hr ht)
    exact ⟨G, hG, globalCol_eq w1 q _ G hG, globalOf_lt_total w1 hw1 q hq _ G hG⟩
  apply events_get
  · rw [List.length_replicate, hp]
    calc _ < (n * bs0 * N) * bs1 := radix_lt (radix_lt (radix_lt hi hk0) hJ) hk1
      _ = _ := by ring
  · intro e he hpe
    simp only [List.mem_flatMap, List.mem_map, List.mem_range] at he
    obtain ⟨r, hr, t, ht, i0, hi0, i1, hi1, rfl⟩ := he
    dsimp only at hpe ⊢
    obtain ⟨G, hG, hG', hGN⟩ := hglob r t hr ht
    rw [hG', hpos, hp] at hpe
    obtain ⟨h1, h2⟩ := radix hi1 hk1 hpe
    obtain ⟨h3, h4⟩ := radix hGN hJ h1
    obtain ⟨h5, h6⟩ := radix hi0 hk0 h3
    subst h2 h4 h5 h6
    unfold rowEntry
    rw [Finset.sum_eq_single_of_mem t (mem_range.mpr ht)]
    · rw [if_pos hG]; congr 1; ring
    · intro s hs hne
      rw [if_neg]
      intro hs'
      exact hne (row_unique w1 hw1 q hq hok r hi G s t (mem_range.mp hs) ht hs' hG)
  · by_cases hex : ∃ t, t < g.rowPtr (i + 1) - g.rowPtr i ∧ globalOf w1 q (g.cols.getD (g.rowPtr i + t) 0) = some J
    · left
      obtain ⟨t, ht, hJt⟩ := hex
      refine ⟨_, List.mem_flatMap.mpr ⟨i, List.mem_range.mpr hi, List.mem_flatMap.mpr ⟨t, List.mem_range.mpr ht,
        List.mem_flatMap.mpr ⟨k0, List.mem_range.mpr hk0, List.mem_map.mpr ⟨k1, List.mem_range.mpr hk1, rfl⟩⟩⟩⟩, ?_⟩
      dsimp only
      rw [globalCol_eq w1 q _ J hJt, hpos, hp]
    · right
      have hz : rowEntry w1 g.rowPtr g.cols bs0 bs1 data q i k0 J k1 = 0 := by
        apply Finset.sum_eq_zero
        intro t ht
        rw [if_neg]
        intro h
        exact hex ⟨t, mem_range.mp ht, h⟩
      rw [hz, List.getElem?_replicate, if_pos]
      rw [hp]
      calc _ < (n * bs0 * N) * bs1 := radix_lt (radix_lt (radix_lt hi hk0) hJ) hk1
        _ = _ := by ring

/-- Positions of all rows. -/
theorem sum_rows {n : Nat} (ptr : Nat → Nat) (h0 : ptr 0 = 0) (hm : ∀ i, i < n → ptr i ≤ ptr (i + 1)) (f : Nat → R) :
    ∑ j ∈ range (ptr n), f j = ∑ i ∈ range n, ∑ t ∈ range (ptr (i + 1) - ptr i), f (ptr i + t) := by
  induction n with
  | zero => simp [h0]
  | succ n ih =>
    rw [Finset.sum_range_succ, ← ih fun i hi => hm i (by omega), ← Finset.sum_range_add]
    congr 2
    have := hm n (by omega)
    omega

/-- Both cases of `to_scipy`. -/
theorem scipy_eq (w0 w1 : World) (g : Graph) (bs0 bs1 : Nat) (data : Nat → R) (q : Nat) (ghosted : Bool) {nc : Nat}
    (hok : Spec.MatrixView.RowsOk (w0.size q + (w0.ghosts q).length) nc g.rowPtr g.cols) :
    ∃ m, m = (if ghosted then w0.size q + (w0.ghosts q).length else w0.size q) ∧ m ≤ w0.size q + (w0.ghosts q).length ∧
      toScipy w0 w1 g bs0 bs1 data q ghosted = ⟨(List.range (g.rowPtr m * (bs0 * bs1))).map data, g.cols.take (g.rowPtr m),
        (List.range (m + 1)).map g.rowPtr, bs0 * m, bs1 * (w1.size q + (w1.ghosts q).length), bs0, bs1⟩ := by
  cases ghosted with
  | true =>
    refine ⟨_, rfl, le_rfl, ?_⟩
    unfold toScipy numAllRows
    simp only [if_true]
    rw [hok.len, List.take_length]
  | false =>
    refine ⟨_, rfl, by simp, ?_⟩
    have hz := rows_le hok (w0.size q) (by omega)
    have hget : ((List.range (w0.size q + (w0.ghosts q).length + 1)).map g.rowPtr).getD (w0.size q) 0 = g.rowPtr (w0.size q) := by
      rw [List.getD_eq_getElem?_getD, List.getElem?_map, List.getElem?_range (by omega)]; rfl
    have htake : ∀ {β : Type} (f : Nat → β) (a b : Nat), b ≤ a → ((List.range a).map f).take b = (List.range b).map f := by
      intro β f a b hab
      rw [← List.map_take]
      congr 1
      apply List.ext_getElem?
      intro k
      by_cases hk : k < b
      · rw [List.getElem?_take_of_lt hk, List.getElem?_range (by omega), List.getElem?_range hk]
      · rw [List.getElem?_eq_none (by simp; omega), List.getElem?_eq_none (by simp; omega)]
    unfold toScipy numAllRows
    simp only [if_false, Bool.false_eq_true]
    rw [hget, htake _ _ _ (by rw [mul_comm]; exact Nat.mul_le_mul_right _ hz), htake _ _ _ (by omega), mul_comm (bs0 * bs1)]

/-- The SciPy matrix is accepted, has the owned rows (or all local rows) and all local columns, and holds the stored values. -/
theorem C101_scipy (w0 w1 : World) (g : Graph) (bs0 bs1 : Nat) (h0 : 0 < bs0) (h1 : 0 < bs1) (data : Nat → R) (q : Nat) (ghosted : Bool)
    (hok : Spec.MatrixView.RowsOk (w0.size q + (w0.ghosts q).length) (w1.size q + (w1.ghosts q).length) g.rowPtr g.cols) :
    let M := toScipy w0 w1 g bs0 bs1 data q ghosted
    Accepted M ∧ M.nrows = bs0 * (if ghosted then w0.size q + (w0.ghosts q).length else w0.size q) ∧
      M.ncols = bs1 * (w1.size q + (w1.ghosts q).length) ∧
      ∀ i k0 c k1, bs0 * i + k0 < M.nrows → k0 < bs0 → k1 < bs1 →
        scipyEntry M (bs0 * i + k0) (bs1 * c + k1) = localColEntry g.rowPtr g.cols bs0 bs1 data i k0 c k1 := by
  intro M
  obtain ⟨m, hm, hmn, hM⟩ := scipy_eq w0 w1 g bs0 bs1 data q ghosted hok
  have hMe : M = _ := hM
  rw [hMe]
  have hz : g.rowPtr m ≤ g.cols.length := rows_le hok m hmn
  have hlen : (g.cols.take (g.rowPtr m)).length = g.rowPtr m := by simp [hz]
  have hmono : ∀ a b, a ≤ b → b ≤ m → g.rowPtr a ≤ g.rowPtr b := by
    intro a b hab
    induction b, hab using Nat.le_induction with
    | base => intro _; exact le_rfl
    | succ b hab ih => intro hb; exact le_trans (ih (by omega)) (hok.mono b (by omega))
  refine ⟨⟨⟨m, rfl, by simp⟩, ?_, ?_, ?_, ?_, ?_⟩, by rw [hm], rfl, ?_⟩
  · have : ((List.range (m + 1)).map g.rowPtr).getD 0 0 = g.rowPtr 0 := by
      rw [List.getD_eq_getElem?_getD, List.getElem?_map, List.getElem?_range (by omega)]; rfl
    exact this.trans hok.zero
  · dsimp only
    rw [List.pairwise_map]
    refine List.Pairwise.imp_of_mem ?_ List.pairwise_lt_range
    intro a b ha hb hab
    exact hmono a b (le_of_lt hab) (by have := List.mem_range.mp hb; omega)
  · dsimp only
    rw [hlen, List.range_succ, List.map_append]
    simp
  · dsimp only
    rw [List.length_map, List.length_range, hlen]
  · intro c hc
    dsimp only at hc ⊢
    have := hok.range c (List.mem_of_mem_take hc)
    calc bs1 * c + bs1 = bs1 * (c + 1) := by ring
      _ ≤ _ := Nat.mul_le_mul_left _ this
  · intro i k0 c k1 hI hk0 hk1
    dsimp only at hI
    have hi : i < m := by
      by_contra hcon
      have := Nat.mul_le_mul_left bs0 (Nat.le_of_not_lt hcon)
      omega
    have d0 : (bs0 * i + k0) / bs0 = i := by rw [Nat.mul_add_div h0, Nat.div_eq_of_lt hk0, add_zero]
    have m0 : (bs0 * i + k0) % bs0 = k0 := by rw [Nat.mul_add_mod, Nat.mod_eq_of_lt hk0]
    have d1 : (bs1 * c + k1) / bs1 = c := by rw [Nat.mul_add_div h1, Nat.div_eq_of_lt hk1, add_zero]
    have m1 : (bs1 * c + k1) % bs1 = k1 := by rw [Nat.mul_add_mod, Nat.mod_eq_of_lt hk1]
    unfold scipyEntry localColEntry
    dsimp only
    rw [d0, m0, d1, m1, hlen]
    have hg : ∀ k, k ≤ m → ((List.range (m + 1)).map g.rowPtr).getD k 0 = g.rowPtr k := by
      intro k hk
      rw [List.getD_eq_getElem?_getD, List.getElem?_map, List.getElem?_range (by omega)]; rfl
    rw [hg i (by omega), hg (i + 1) (by omega), sum_rows (n := m) g.rowPtr hok.zero (fun i hi => hok.mono i (by omega)),
      Finset.sum_eq_single_of_mem i (mem_range.mpr hi)]
    · apply Finset.sum_congr rfl
      intro t ht
      have ht' := mem_range.mp ht
      have hle := hmono (i + 1) m (by omega) le_rfl
      have hj : g.rowPtr i + t < g.rowPtr m := by omega
      rw [List.getElem?_take_of_lt hj, List.getElem?_map, List.getElem?_range, List.getD_eq_getElem?_getD,
        List.getElem?_eq_getElem (show g.rowPtr i + t < g.cols.length by omega)]
      · by_cases hc : g.cols[g.rowPtr i + t]'(by omega) = c
        · rw [if_pos ⟨by omega, by omega, by rw [hc]⟩, if_pos (by simpa using hc)]
          rfl
        · rw [if_neg (by rintro ⟨-, -, h⟩; exact hc (Option.some.inj h)), if_neg (by simpa using hc)]
      · exact radix_lt hj (by rw [mul_comm bs0]; have := radix_lt (n := bs0) hk0 hk1; rwa [mul_comm bs1])
    · intro i' hi' hne
      apply Finset.sum_eq_zero
      intro t ht
      have ht' := mem_range.mp ht
      have hi'' := mem_range.mp hi'
      rw [if_neg]
      rintro ⟨h2, h3, -⟩
      rcases Nat.lt_or_gt_of_ne hne with hlt | hlt
      · have := hmono (i' + 1) i (by omega) (by omega)
        omega
      · have := hmono (i + 1) i' (by omega) (by omega)
        omega

end dense

section norm
variable {K : Type} [RCLike K]

theorem foldl_norm (l : List K) (a : ℝ) : l.foldl (fun norm y => norm + ‖y‖ ^ 2) a = a + (l.map fun y => ‖y‖ ^ 2).sum := by
  induction l generalizing a with
  | nil => simp
  | cons y l ih => rw [List.foldl_cons, ih, List.map_cons, List.sum_cons, add_assoc]

theorem list_sum_range (n : Nat) (f : Nat → ℝ) : ((List.range n).map f).sum = ∑ i ∈ range n, f i := by
  induction n with
  | zero => rfl
  | succ n ih => rw [List.range_succ, List.map_append, List.sum_append, ih, Finset.sum_range_succ]; simp

theorem normLocal_eq (w0 : World) (g : Graph) (bs0 bs1 : Nat) (data : Nat → K) (q : Nat) (h0 : g.rowPtr 0 = 0)
    (hm : ∀ i, i < w0.size q → g.rowPtr i ≤ g.rowPtr (i + 1)) :
    normLocal w0 g bs0 bs1 data q = ∑ i ∈ range (w0.size q), ∑ t ∈ range (g.rowPtr (i + 1) - g.rowPtr i), ∑ b ∈ range (bs0 * bs1),
      ‖data ((g.rowPtr i + t) * (bs0 * bs1) + b)‖ ^ 2 := by
  unfold normLocal
  rw [foldl_norm, zero_add, List.map_map, list_sum_range, mul_comm (g.rowPtr _), sum_blocks,
    sum_rows g.rowPtr h0 hm fun j => ∑ b ∈ range (bs0 * bs1), ((fun y : K => ‖y‖ ^ 2) ∘ data) (j * (bs0 * bs1) + b)]
  rfl

/-- Squares of the entries of a row. -/
theorem row_squares (w1 : World) (hw1 : w1.Valid) (q : Nat) (hq : q < w1.P) {n : Nat} {ptr : Nat → Nat} {cols : List Nat}
    (h : Spec.MatrixView.RowsOk n (w1.size q + (w1.ghosts q).length) ptr cols) (i : Nat) (hi : i < n) (d : Nat → K) :
    ∑ J ∈ range (w1.r0 w1.P), ‖∑ t ∈ range (ptr (i + 1) - ptr i), if globalOf w1 q (cols.getD (ptr i + t) 0) = some J then d t else 0‖ ^ 2 =
      ∑ t ∈ range (ptr (i + 1) - ptr i), ‖d t‖ ^ 2 := by
  have key : ∀ J, ‖∑ t ∈ range (ptr (i + 1) - ptr i), if globalOf w1 q (cols.getD (ptr i + t) 0) = some J then d t else 0‖ ^ 2 =
      ∑ t ∈ range (ptr (i + 1) - ptr i), if globalOf w1 q (cols.getD (ptr i + t) 0) = some J then ‖d t‖ ^ 2 else 0 := by
    intro J
    by_cases hex : ∃ t, t < ptr (i + 1) - ptr i ∧ globalOf w1 q (cols.getD (ptr i + t) 0) = some J
    · obtain ⟨t, ht, hJ⟩ := hex
      have hoth : ∀ s ∈ range (ptr (i + 1) - ptr i), s ≠ t → globalOf w1 q (cols.getD (ptr i + s) 0) ≠ some J := fun s hs hne hs' =>
        hne (row_unique w1 hw1 q hq h i hi J s t (mem_range.mp hs) ht hs' hJ)
      rw [Finset.sum_eq_single_of_mem t (mem_range.mpr ht) fun s hs hne => if_neg (hoth s hs hne),
        Finset.sum_eq_single_of_mem t (mem_range.mpr ht) fun s hs hne => if_neg (hoth s hs hne), if_pos hJ, if_pos hJ]
    · have hoth : ∀ s ∈ range (ptr (i + 1) - ptr i), globalOf w1 q (cols.getD (ptr i + s) 0) ≠ some J := fun s hs hs' =>
        hex ⟨s, mem_range.mp hs, hs'⟩
      rw [Finset.sum_eq_zero fun s hs => if_neg (hoth s hs), Finset.sum_eq_zero fun s hs => if_neg (hoth s hs)]
      simp
  simp only [key]
  rw [Finset.sum_comm]
  apply Finset.sum_congr rfl
  intro t ht
  obtain ⟨G, hG⟩ := globalOf_some w1 q _ (rows_col h i t hi (mem_range.mp ht))
  have hGN := globalOf_lt_total w1 hw1 q hq _ G hG
  rw [Finset.sum_eq_single_of_mem G (mem_range.mpr hGN)]
  · rw [if_pos hG]
  · intro J _ hne
    rw [if_neg]
    rw [hG]
    intro h
    exact hne (Option.some.inj h).symm

/-- The squared norm is the sum of the squared moduli of the entries in owned rows of all ranks. -/
theorem C101_norm (w0 w1 : World) (hw1 : w1.Valid) (hP : w0.P = w1.P) (g : Nat → Graph) (bs0 bs1 : Nat) (data : Nat → Nat → K)
    (hok : ∀ q, q < w0.P → Spec.MatrixView.RowsOk (w0.size q + (w0.ghosts q).length) (w1.size q + (w1.ghosts q).length) (g q).rowPtr (g q).cols) :
    squaredNorm w0 g bs0 bs1 data = ∑ q ∈ range w0.P, ∑ i ∈ range (w0.size q), ∑ k0 ∈ range bs0, ∑ J ∈ range (w1.r0 w1.P), ∑ k1 ∈ range bs1,
      ‖rowEntry w1 (g q).rowPtr (g q).cols bs0 bs1 (data q) q i k0 J k1‖ ^ 2 := by
  unfold squaredNorm
  rw [list_sum_range]
  apply Finset.sum_congr rfl
  intro q hq
  have hq' := mem_range.mp hq
  have hk := hok q hq'
  rw [normLocal_eq w0 (g q) bs0 bs1 (data q) q hk.zero fun i hi => hk.mono i (by omega)]
  apply Finset.sum_congr rfl
  intro i hi
  have hi' : i < w0.size q + (w0.ghosts q).length := by have := mem_range.mp hi; omega
  rw [Finset.sum_comm, mul_comm bs0, sum_blocks]
  apply Finset.sum_congr rfl
  intro k0 _
  conv_rhs => rw [Finset.sum_comm]
  apply Finset.sum_congr rfl
  intro k1 _
  unfold rowEntry
  rw [row_squares w1 hw1 q (hP ▸ hq') hk i hi' fun t => data q (((g q).rowPtr i + t) * (bs0 * bs1) + (k0 * bs1 + k1))]
  simp only [mul_comm bs1 bs0]

/-- After ghost rows have been added to their owners, it is the sum of the squared moduli of the entries of the whole matrix. -/
theorem C101_norm_global (w0 w1 : World) (hw0 : w0.Valid) (hw1 : w1.Valid) (hP : w0.P = w1.P) (g : Nat → Graph) (bs0 bs1 : Nat)
    (data : Nat → Nat → K) (hmat : Spec.MatOk w0 w1 (fun q => (g q).rowPtr) (fun q => (g q).cols))
    (hok : ∀ q, q < w0.P → Spec.MatrixView.RowsOk (w0.size q + (w0.ghosts q).length) (w1.size q + (w1.ghosts q).length) (g q).rowPtr (g q).cols) :
    squaredNorm w0 g bs0 bs1 (MatScatter.scatterRev w0 w1 g (bs0 * bs1) data) =
      ∑ I ∈ range (w0.r0 w0.P), ∑ J ∈ range (w1.r0 w1.P), ∑ b ∈ range (bs0 * bs1),
        ‖globalEntry w0 w1 (fun q => (g q).rowPtr) (fun q => (g q).cols) (bs0 * bs1) data I J b‖ ^ 2 := by
  rw [C101_norm w0 w1 hw1 hP g bs0 bs1 _ hok]
  refine VectorOps.sum_global w0.size w0.P _ _ ?_
  intro q hq i hi
  have hown : Owns w0 q (w0.r0 q + i) := ⟨hq, by omega, by omega⟩
  conv_rhs => rw [Finset.sum_comm]
  apply Finset.sum_congr rfl
  intro J _
  rw [mul_comm bs0 bs1, sum_blocks]
  apply Finset.sum_congr rfl
  intro k0 hk0
  apply Finset.sum_congr rfl
  intro k1 hk1
  have hb : k0 * bs1 + k1 < bs1 * bs0 := by rw [mul_comm bs1]; exact radix_lt (mem_range.mp hk0) (mem_range.mp hk1)
  change ‖globalEntry w0 w1 (fun q => (g q).rowPtr) (fun q => (g q).cols) (bs1 * bs0) data (w0.r0 q + i) J (k0 * bs1 + k1)‖ ^ 2 = _
  rw [← C18_owner w0 w1 g hw0 hw1 hP hmat (bs1 * bs0) data q (w0.r0 q + i) J _ hb hown, localEntry_split,
    ghostPart_zero w0 w1 g hmat _ _ _ _ _ _ hq, add_zero, ownedPart_row w0 w1 g _ _ q i J _ hi]
  unfold rowEntry
  simp only [mul_comm bs1 bs0]

end norm

/-- The arrays of a matrix made from any finalised sparsity pattern meet the conditions. -/
theorem C101_pattern (w0 w1 : World) (hw0 : w0.Valid) (hw1 : w1.Valid) (hP : w0.P = w1.P)
    (ops : Nat → List InsOp) (hin : InRange w0 w1 ops) (p p' : Nat → SP.Pattern)
    (hp : ∀ q, q < w0.P → runIns SP.new (ops q) = .ok (p q))
    (hf : ∀ q, q < w0.P → SP.finalize w0 w1 p q = .ok (p' q)) (q : Nat) (hq : q < w0.P) :
    Spec.MatrixView.RowsOk (w0.size q + (w0.ghosts q).length) ((patternCols w1 p').size q + ((patternCols w1 p').ghosts q).length)
      (fun i => (p' q).offsets.getD i 0) (p' q).edges := by
  obtain ⟨p1, rows, h1, h2, h3, h4, -, h6, -⟩ := finalize_facts w0 w1 hw0 hw1 hP ops hin p hp q hq
  have : p1 = p' q := by rw [hf q hq] at h1; injection h1 with h; exact h.symm
  subst this
  have ho : ∀ i, i ≤ rows.length → (p' q).offsets.getD i 0 = Offsets.excl (fun i => (rows[i]?.map List.length).getD 0) i :=
    fun i hi => by rw [h4]; exact rows_getD rows i hi
  have hget : ∀ (i : Nat) (hi : i < rows.length), (p' q).offsets.getD (i + 1) 0 = (p' q).offsets.getD i 0 + rows[i].length ∧
      ∀ t, t < rows[i].length → (p' q).edges.getD ((p' q).offsets.getD i 0 + t) 0 = rows[i].getD t 0 := by
    intro i hi
    have hd := rows_diff rows i hi
    refine ⟨by rw [ho (i + 1) (by omega), ho i (by omega), hd], ?_⟩
    intro t ht
    have hs := AdjList.slice_flatten rows i hi
    rw [h3, ho i (by omega), List.getD_eq_getElem?_getD, List.getD_eq_getElem?_getD]
    have h2 := congrArg (fun l : List Nat => l[t]?) hs
    simp only [List.getElem?_take_of_lt ht, List.getElem?_drop] at h2
    rw [← h2]
  refine ⟨?_, ?_, ?_, ?_, ?_⟩
  · exact (ho 0 (by omega)).trans rfl
  · intro i hi
    have := (hget i (by omega)).1
    omega
  · rw [← h2, ho _ le_rfl, h3, List.length_flatten]
    unfold Offsets.excl
    congr 1
    apply List.ext_getElem?
    intro k
    by_cases hk : k < rows.length
    · simp [hk]
    · simp [hk]
  · intro c hc
    rw [h3, List.mem_flatten] at hc
    obtain ⟨row, hrow, hc⟩ := hc
    obtain ⟨i, hi, rfl⟩ := List.getElem_of_mem hrow
    obtain ⟨C, hC⟩ := (h6 i _ (List.getElem?_eq_getElem hi)).2.1 c hc
    exact Dofmap.globalOf_lt (w := patternCols w1 p') (r := q) (g := C) hC
  · intro i hi s t hst ht
    obtain ⟨g1, g2⟩ := hget i (by omega)
    rw [g2 s (by omega), g2 t (by omega), List.getD_eq_getElem?_getD, List.getD_eq_getElem?_getD,
      List.getElem?_eq_getElem (by omega), List.getElem?_eq_getElem (by omega)]
    have := List.pairwise_iff_getElem.mp (h6 i _ (List.getElem?_eq_getElem (by omega))).1 s t (by omega) (by omega) hst
    exact Nat.ne_of_lt this

/-- The pattern of the example of C18, on both ranks. -/
example : ∀ q, q < 2 → Spec.MatrixView.RowsOk (spWorld.size q + (spWorld.ghosts q).length) (msCols.size q + (msCols.ghosts q).length)
    (msGraph q).rowPtr (msGraph q).cols := by
  have key : ∀ q < 2, (msGraph q).rowPtr 0 = 0 ∧ (∀ i < spWorld.size q + (spWorld.ghosts q).length, (msGraph q).rowPtr i ≤ (msGraph q).rowPtr (i + 1)) ∧
      (msGraph q).rowPtr (spWorld.size q + (spWorld.ghosts q).length) = (msGraph q).cols.length ∧
      (∀ c ∈ (msGraph q).cols, c < msCols.size q + (msCols.ghosts q).length) ∧
      ∀ i < spWorld.size q + (spWorld.ghosts q).length, ∀ t < (msGraph q).rowPtr (i + 1) - (msGraph q).rowPtr i, ∀ s < t,
        (msGraph q).cols.getD ((msGraph q).rowPtr i + s) 0 ≠ (msGraph q).cols.getD ((msGraph q).rowPtr i + t) 0 := by decide +kernel
  intro q hq
  obtain ⟨h1, h2, h3, h4, h5⟩ := key q hq
  exact ⟨h1, h2, h3, h4, fun i hi s t hst ht => h5 i hi t ht s hst⟩

/-- Blocks of one row and two columns: two rows and four global columns of rank 1, and the owned rows of rank 0. -/
example : toDense spWorld msCols (msGraph 1) 1 2 (fun n => (n : Int) + 1) 1 = [7, 8, 5, 6, 1, 2, 3, 4, 0, 0, 0, 0, 0, 0, 9, 10] := by decide +kernel
example : (toScipy spWorld msCols (msGraph 0) 1 2 (fun n => (n : Int) + 1) 0 false).data = [1, 2, 3, 4, 5, 6, 7, 8] ∧
    (toScipy spWorld msCols (msGraph 0) 1 2 (fun n => (n : Int) + 1) 0 false).indptr = [0, 2, 4] := by decide +kernel

end Verif.Props
