import Verif.Prelude
/-!
# Loops that write array positions
-/
namespace Verif.ArrayFold

variable {β : Type}

theorem set_length (A : List (Nat × β)) (m : List (Option β)) :
    (A.foldl (fun m e => m.set e.1 (some e.2)) m).length = m.length := by
  induction A generalizing m with
  | nil => rfl
  | cons a A ih => simp [List.foldl_cons, ih]

theorem set_untouched (A : List (Nat × β)) (m : List (Option β)) (i : Nat) (h : ∀ b, (i, b) ∉ A) :
    (A.foldl (fun m e => m.set e.1 (some e.2)) m)[i]? = m[i]? := by
  induction A generalizing m with
  | nil => rfl
  | cons a A ih =>
    rw [List.foldl_cons, ih _ (fun b hb => h b (by simp [hb]))]
    rw [List.getElem?_set_ne]
    intro he
    apply h a.2
    simp [← he]

theorem set_written (A : List (Nat × β)) (m : List (Option β)) (i : Nat) (b : β) (hi : i < m.length)
    (hm : (i, b) ∈ A) (hf : ∀ b', (i, b') ∈ A → b' = b) :
    (A.foldl (fun m e => m.set e.1 (some e.2)) m)[i]? = some (some b) := by
  induction A generalizing m with
  | nil => simp at hm
  | cons a A ih =>
    rw [List.foldl_cons]
    by_cases hA : ∃ b', (i, b') ∈ A
    · obtain ⟨b', hb'⟩ := hA
      have : b' = b := hf b' (by simp [hb'])
      subst this
      exact ih _ (by simpa using hi) hb' (fun b'' hb'' => hf b'' (by simp [hb'']))
    · push Not at hA
      rw [set_untouched _ _ _ hA]
      rcases List.mem_cons.mp hm with h | h
      · subst h; simp [hi]
      · exact absurd h (hA b)

/-- Function-valued variant: `m[key] = value`, later writes win. -/
theorem write_spec {α : Type} (l : List α) (key : α → Nat) (val : α → β) (m : Nat → Option β) (k : Nat) :
    (∃ e ∈ l, key e = k ∧ (l.foldl (fun m p => fun k => if k = key p then some (val p) else m k) m) k = some (val e)) ∨
    ((∀ e ∈ l, key e ≠ k) ∧ (l.foldl (fun m p => fun k => if k = key p then some (val p) else m k) m) k = m k) := by
  induction l using List.reverseRecOn with
  | nil => right; simp
  | append_singleton l a ih =>
    rw [List.foldl_append]
    simp only [List.foldl_cons, List.foldl_nil]
    by_cases h : k = key a
    · left; exact ⟨a, by simp, h.symm, by simp [h]⟩
    · rw [if_neg h]
      rcases ih with ⟨e, he, hk, hv⟩ | ⟨hn, hv⟩
      · left; exact ⟨e, by simp [he], hk, hv⟩
      · right
        refine ⟨?_, hv⟩
        intro e he
        rcases List.mem_append.mp he with h1 | h1
        · exact hn e h1
        · simp at h1; subst h1; exact fun hh => h hh.symm

end Verif.ArrayFold
