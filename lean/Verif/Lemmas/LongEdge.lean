import Verif.Model.LongEdge
import Mathlib.Data.Prod.Lex
import Mathlib.Data.Finset.Card
import Mathlib.Data.Finset.Lattice.Fold
import Mathlib.Algebra.BigOperators.Group.Finset.Basic
import Mathlib.Tactic.IntervalCases
/-! The longest edge is the maximum of an order of all edges. -/
namespace Verif.Refine

variable {K : Type} [LinearOrder K] [Zero K]

/-- The fold finds the largest length, and among equal ones (in 3D) the largest number of the opposite vertex. -/
theorem long_index (tdim : Nat) (elen : Nat → K) (gidx : Nat → Nat) (edges verts : List Nat) (h0 : ∀ e, 0 ≤ elen e) :
    ∃ i < 3, faceLong tdim elen gidx edges verts = edges.getD i 0 ∧ ∀ j < 3,
      elen (edges.getD j 0) ≤ elen (edges.getD i 0) ∧
      (tdim = 3 → elen (edges.getD j 0) = elen (edges.getD i 0) → gidx (verts.getD j 0) ≤ gidx (verts.getD i 0)) := by
  -- invariant after the first `k` edges
  have key : ∀ k, 0 < k → k ≤ 3 → ∃ i < k, ((List.range k).foldl (longStep tdim elen gidx edges verts) (0, 0)) = (i, elen (edges.getD i 0)) ∧
      ∀ j < k, elen (edges.getD j 0) ≤ elen (edges.getD i 0) ∧
        (tdim = 3 → elen (edges.getD j 0) = elen (edges.getD i 0) → gidx (verts.getD j 0) ≤ gidx (verts.getD i 0)) := by
    intro k hk hk3
    induction k with
    | zero => omega
    | succ k ih =>
      rw [List.range_succ, List.foldl_append]
      by_cases hk0 : k = 0
      · subst hk0
        refine ⟨0, by omega, ?_, ?_⟩
        · show longStep tdim elen gidx edges verts (0, 0) 0 = _
          unfold longStep
          simp only
          split
          · rfl
          · rename_i h
            have he : elen (edges.getD 0 0) = 0 := le_antisymm (not_lt.mp h) (h0 _)
            rw [he]; simp
        · intro j hj
          obtain rfl : j = 0 := by omega
          exact ⟨le_refl _, fun _ _ => le_refl _⟩
      · obtain ⟨i, hi, h1, h2⟩ := ih (by omega) (by omega)
        rw [h1]
        show ∃ i' < k + 1, longStep tdim elen gidx edges verts (i, elen (edges.getD i 0)) k = _ ∧ _
        unfold longStep
        simp only
        by_cases hlt : elen (edges.getD i 0) < elen (edges.getD k 0)
        · rw [if_pos hlt]
          refine ⟨k, by omega, rfl, ?_⟩
          intro j hj
          by_cases hjk : j = k
          · subst hjk; exact ⟨le_refl _, fun _ _ => le_refl _⟩
          · have := (h2 j (by omega)).1
            exact ⟨this.trans hlt.le, fun _ he => absurd (he ▸ this) (not_le.mpr hlt)⟩
        · rw [if_neg hlt]
          by_cases heq : tdim = 3 ∧ elen (edges.getD k 0) = elen (edges.getD i 0)
          · rw [if_pos heq]
            by_cases hg : gidx (verts.getD i 0) < gidx (verts.getD k 0)
            · rw [if_pos hg]
              refine ⟨k, by omega, by rw [heq.2], ?_⟩
              intro j hj
              by_cases hjk : j = k
              · subst hjk; exact ⟨le_refl _, fun _ _ => le_refl _⟩
              · obtain ⟨a, b⟩ := h2 j (by omega)
                rw [heq.2]
                exact ⟨a, fun ht he => (b ht he).trans hg.le⟩
            · rw [if_neg hg]
              refine ⟨i, by omega, rfl, ?_⟩
              intro j hj
              by_cases hjk : j = k
              · subst hjk; exact ⟨heq.2.le, fun _ _ => not_lt.mp hg⟩
              · exact h2 j (by omega)
          · rw [if_neg heq]
            refine ⟨i, by omega, rfl, ?_⟩
            intro j hj
            by_cases hjk : j = k
            · subst hjk; exact ⟨not_lt.mp hlt, fun ht he => absurd ⟨ht, he⟩ heq⟩
            · exact h2 j (by omega)
  obtain ⟨i, hi, h1, h2⟩ := key 3 (by omega) (by omega)
  refine ⟨i, hi, ?_, h2⟩
  unfold faceLong
  rw [show ([0, 1, 2] : List Nat) = List.range 3 by decide, h1]

/-- Order of the edges of a mesh: by length, then by the (reversed) lexicographic order of the vertex pairs. -/
def edgeKey (L : Finset Nat → K) (e : Finset Nat) : Lex (K × Lex (ℕᵒᵈ × ℕᵒᵈ)) :=
  toLex (L e, toLex (OrderDual.toDual (e.sum id - e.sup id), OrderDual.toDual (e.sup id)))

theorem pair_key (a b : Nat) (h : a < b) : (({a, b} : Finset Nat).sum id - ({a, b} : Finset Nat).sup id) = a ∧ ({a, b} : Finset Nat).sup id = b := by
  have h1 : ({a, b} : Finset Nat).sup id = b := by simp; omega
  refine ⟨?_, h1⟩
  rw [h1, Finset.sum_pair (by omega)]; simp

omit [Zero K] in
/-- Among two edges of a triangle with equal lengths the one opposite to the larger vertex is larger. -/
theorem edgeKey_lt (L : Finset Nat → K) (a b c : Nat) (hac : a ≠ c) (hbc : b ≠ c)
    (h : L {b, c} < L {a, c} ∨ (L {b, c} = L {a, c} ∧ a < b)) : edgeKey L {b, c} < edgeKey L {a, c} := by
  unfold edgeKey
  rw [Prod.Lex.toLex_lt_toLex]
  rcases h with h | ⟨h1, h2⟩
  · exact Or.inl h
  · refine Or.inr ⟨h1, ?_⟩
    rw [Prod.Lex.toLex_lt_toLex]
    simp only [OrderDual.toDual_lt_toDual, OrderDual.toDual_inj]
    rcases Nat.lt_or_ge b c with h3 | h3
    · rw [(pair_key b c h3).1, (pair_key b c h3).2, (pair_key a c (by omega)).1, (pair_key a c (by omega)).2]
      left; exact h2
    · have h3 : c < b := by omega
      rw [Finset.pair_comm b c, (pair_key c b h3).1, (pair_key c b h3).2]
      rcases Nat.lt_or_ge a c with h4 | h4
      · rw [(pair_key a c h4).1, (pair_key a c h4).2]; left; exact h4
      · have h4 : c < a := by omega
        rw [Finset.pair_comm a c, (pair_key c a h4).1, (pair_key c a h4).2]
        right; exact ⟨rfl, h2⟩

/-- The edge of a triangle opposite to vertex `i`. -/
def oppEdge (g : Nat → Nat) (i : Nat) : Finset Nat := {g ((i + 1) % 3), g ((i + 2) % 3)}

/-- In 3D the longest edge of a face is the largest one in the order of all edges. -/
theorem long_largest (elen : Nat → K) (gidx : Nat → Nat) (edges verts : List Nat) (h0 : ∀ e, 0 ≤ elen e) (L : Finset Nat → K)
    (hinj : ∀ i < 3, ∀ j < 3, gidx (verts.getD i 0) = gidx (verts.getD j 0) → i = j)
    (hL : ∀ i < 3, elen (edges.getD i 0) = L (oppEdge (fun k => gidx (verts.getD k 0)) i)) :
    ∃ i < 3, faceLong 3 elen gidx edges verts = edges.getD i 0 ∧ ∀ j < 3, j ≠ i →
      edgeKey L (oppEdge (fun k => gidx (verts.getD k 0)) j) < edgeKey L (oppEdge (fun k => gidx (verts.getD k 0)) i) := by
  obtain ⟨i, hi, h1, h2⟩ := long_index 3 elen gidx edges verts h0
  refine ⟨i, hi, h1, ?_⟩
  intro j hj hji
  have h3 := h2 j hj
  rw [hL i hi, hL j hj] at h3
  have hne : gidx (verts.getD j 0) ≠ gidx (verts.getD i 0) := fun h => hji (hinj j hj i hi h)
  generalize hg : (fun k => gidx (verts.getD k 0)) = g at *
  have hgk : ∀ k, gidx (verts.getD k 0) = g k := fun k => by rw [← hg]
  rw [hgk, hgk] at h3 hne
  obtain ⟨k, hk, hkj, hki, ej, ei⟩ : ∃ k < 3, k ≠ j ∧ k ≠ i ∧ oppEdge g j = {g i, g k} ∧ oppEdge g i = {g j, g k} := by
    unfold oppEdge
    interval_cases i <;> interval_cases j <;> first | omega | skip
    · exact ⟨2, by omega, by omega, by omega, Finset.pair_comm _ _, rfl⟩
    · exact ⟨1, by omega, by omega, by omega, rfl, Finset.pair_comm _ _⟩
    · exact ⟨2, by omega, by omega, by omega, rfl, Finset.pair_comm _ _⟩
    · exact ⟨0, by omega, by omega, by omega, Finset.pair_comm _ _, rfl⟩
    · exact ⟨1, by omega, by omega, by omega, Finset.pair_comm _ _, rfl⟩
    · exact ⟨0, by omega, by omega, by omega, rfl, Finset.pair_comm _ _⟩
  rw [ej, ei] at h3 ⊢
  have hjk : g j ≠ g k := fun h => hkj (hinj j hj k hk (by rw [hgk, hgk]; exact h)).symm
  have hik : g i ≠ g k := fun h => hki (hinj i hi k hk (by rw [hgk, hgk]; exact h)).symm
  refine edgeKey_lt L (g j) (g i) (g k) hjk hik ?_
  rcases lt_or_eq_of_le h3.1 with h | h
  · exact Or.inl h
  · exact Or.inr ⟨h, lt_of_le_of_ne (h3.2 rfl h) hne⟩

end Verif.Refine
