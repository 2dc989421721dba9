import Verif.Lemmas.AssemblyLift
/-! Values of Dirichlet conditions, and lifting on one rank. -/
namespace Verif.Assembly
open Verif.Spec.Assemble Verif.Spec Verif.World Finset

variable {R : Type} [CommRing R]

omit [CommRing R] in
theorem BC.at_value (c : BC R) (hc : BcOk c) (i d : Nat) (h : c.dofs[i]? = some d) : BcValue c i d (c.at i) := by
  have hd : c.dofs.getD i 0 = d := by rw [List.getD_eq_getElem?_getD, h]; rfl
  obtain ⟨dofs, value⟩ := c
  cases value with
  | func f => exact congrArg f hd
  | sub f ds =>
    by_cases h0 : ds = []
    · subst h0
      exact Or.inl ⟨rfl, congrArg f hd⟩
    · right
      have hl : ds.length = dofs.length := Or.resolve_left hc h0
      have hi : i < ds.length := by rw [hl]; exact (List.getElem?_eq_some_iff.mp h).1
      refine ⟨ds[i], List.getElem?_eq_getElem hi, ?_⟩
      have : ds.isEmpty = false := by simpa using h0
      change f ((if ds.isEmpty then dofs else ds).getD i 0) = f ds[i]
      rw [this, List.getD_eq_getElem?_getD]
      simp [List.getElem?_eq_getElem hi]
  | const bs f => exact congrArg (fun d => f (d % bs)) hd

variable [DecidableEq R]

def setStep (c : BC R) (n : Nat) (x0 : Option (Nat → R)) (alpha : R) (x : Nat → R) (i : Nat) : Nat → R :=
  if c.dofs.getD i 0 < n then
    fun p => if p = c.dofs.getD i 0 then
      (if alpha = 0 then 0 else
        match x0 with
        | some y => alpha * (c.at i - y (c.dofs.getD i 0))
        | none => alpha * c.at i)
    else x p
  else x

theorem BC.set_eq (c : BC R) (n : Nat) (x : Nat → R) (x0 : Option (Nat → R)) (alpha : R) :
    c.set n x x0 alpha = (List.range c.dofs.length).foldl (setStep c n x0 alpha) x := rfl

/-- One condition: unconstrained dofs keep their value, the last position of a dof counts. -/
theorem BC.set_at (c : BC R) (n : Nat) (x : Nat → R) (x0 : Option (Nat → R)) (alpha : R) (p : Nat) :
    ((p ∉ c.dofs ∨ n ≤ p) → c.set n x x0 alpha p = x p) ∧
    (∀ i, p < n → c.dofs[i]? = some p → (∀ i', i < i' → c.dofs[i']? ≠ some p) →
      c.set n x x0 alpha p = alpha * (c.at i - (x0.getD fun _ => 0) p)) := by
  have key : ∀ m, 
    m ≤ c.dofs.length → (((∀ i, i < m → c.dofs[i]? ≠ some p) ∨ n ≤ p) → (List.range m).foldl (setStep c n x0 alpha) x p = x p) ∧
    (∀ i, i < m → p < n → c.dofs[i]? = some p → (∀ i', i < i' → i' < m → c.dofs[i']? ≠ some p) →
      (List.range m).foldl (setStep c n x0 alpha) x p = alpha * (c.at i - (x0.getD fun _ => 0) p)) := by
    intro m
    induction m with
    | zero => intro _; exact ⟨fun _ => rfl, by intro i h; omega⟩
    | succ m ih =>
      intro hm
      obtain ⟨h1, h2⟩ := ih (by omega)
      have hd : c.dofs[m]? = some (c.dofs.getD m 0) := by
        rw [List.getD_eq_getElem?_getD, List.getElem?_eq_getElem (by omega)]; rfl
      rw [List.range_succ, List.foldl_append, List.foldl_cons, List.foldl_nil]
      generalize (List.range m).foldl (setStep c n x0 alpha) x = s at *
      unfold setStep
      refine ⟨?_, ?_⟩
      · intro h
        have h1 := h1 (by
          rcases h with h | h
          · exact Or.inl fun i hi => h i (by omega)
          · exact Or.inr h)
        rw [← h1]
        split
        · rename_i hlt
          beta_reduce
          rw [if_neg (c := p = _)]
          rintro rfl
          rcases h with h | h
          · exact h m (by omega) hd
          · omega
        · rfl
      · intro i hi hp hdi hlast
        rcases Nat.lt_succ_iff_lt_or_eq.mp hi with him | rfl
        · have h2 := h2 i him hp hdi (fun i' h h' => hlast i' h (by omega))
          rw [← h2]
          split
          · beta_reduce
            rw [if_neg (c := p = _)]
            rintro rfl
            exact hlast m him (by omega) hd
          · rfl
        · have e : c.dofs.getD i 0 = p := by rw [List.getD_eq_getElem?_getD, hdi]; rfl
          rw [e, if_pos hp, if_pos rfl]
          split
          · rename_i ha; rw [ha, zero_mul]
          · cases x0 <;> simp
  obtain ⟨h1, h2⟩ := key c.dofs.length (Nat.le_refl _)
  refine ⟨?_, ?_⟩
  · intro h
    apply h1
    rcases h with h | h
    · left
      intro i _ hi
      exact h (List.mem_of_getElem? hi)
    · exact Or.inr h
  · intro i hp hi hlast
    exact h2 i (List.getElem?_eq_some_iff.mp hi).1 hp hi (fun i' h _ => hlast i' h)

theorem last_index (l : List Nat) (d : Nat) (h : d ∈ l) : ∃ i : Nat, l[i]? = some d ∧ ∀ i' : Nat, i < i' → l[i']? ≠ some d := by
  induction l using List.reverseRecOn with
  | nil => cases h
  | append_singleton l x ih =>
    by_cases hx : x = d
    · refine ⟨l.length, by simp [hx], ?_⟩
      intro i' hi' he
      have := (List.getElem?_eq_some_iff.mp he).1
      simp at this
      omega
    · have hl : d ∈ l := by
        rcases List.mem_append.mp h with h | h
        · exact h
        · exact absurd (List.mem_singleton.mp h).symm hx
      obtain ⟨i, hi, hlast⟩ := ih hl
      have hil := (List.getElem?_eq_some_iff.mp hi).1
      refine ⟨i, by rw [List.getElem?_append_left hil]; exact hi, ?_⟩
      intro i' hi' he
      by_cases hl' : i' < l.length
      · rw [List.getElem?_append_left hl'] at he; exact hlast i' hi' he
      · rw [List.getElem?_append_right (by omega)] at he
        have := List.mem_of_getElem? he
        exact hx (List.mem_singleton.mp this).symm

/-- All conditions in turn: the prescribed value counts. -/
theorem set_all (bcs : List (BC R)) (hok : ∀ c ∈ bcs, BcOk c) (n : Nat) (x : Nat → R) (x0 : Option (Nat → R)) (alpha : R) (p : Nat) :
    (((¬ ∃ c ∈ bcs, p ∈ c.dofs) ∨ n ≤ p) → bcs.foldl (fun v c => c.set n v x0 alpha) x p = x p) ∧
    (p < n → (∃ c ∈ bcs, p ∈ c.dofs) → ∃ v, Prescribed bcs p v ∧
      bcs.foldl (fun v c => c.set n v x0 alpha) x p = alpha * (v - (x0.getD fun _ => 0) p)) := by
  induction bcs using List.reverseRecOn with
  | nil => exact ⟨fun _ => rfl, by rintro _ ⟨c, hc, _⟩; cases hc⟩
  | append_singleton bcs c ih =>
    obtain ⟨h1, h2⟩ := ih (fun c hc => hok c (by simp [hc]))
    rw [List.foldl_append, List.foldl_cons, List.foldl_nil]
    obtain ⟨s1, s2⟩ := c.set_at n (bcs.foldl (fun v c => c.set n v x0 alpha) x) x0 alpha p
    refine ⟨?_, ?_⟩
    · intro h
      rw [s1, h1]
      · rcases h with h | h
        · left
          rintro ⟨c', hc', hp⟩
          exact h ⟨c', by simp [hc'], hp⟩
        · exact Or.inr h
      · rcases h with h | h
        · exact Or.inl fun hp => h ⟨c, by simp, hp⟩
        · exact Or.inr h
    · intro hp hex
      by_cases hc : p ∈ c.dofs
      · obtain ⟨i, hi, hlast⟩ := last_index c.dofs p hc
        exact ⟨c.at i, ⟨bcs, c, [], i, rfl, hi, hlast, by simp, c.at_value (hok c (by simp)) i p hi⟩, s2 i hp hi hlast⟩
      · rw [s1 (Or.inl hc)]
        obtain ⟨v, ⟨pre, c', post, i, rfl, q1, q2, q3, q4⟩, hv⟩ := h2 hp (by
          obtain ⟨c', hc', hp'⟩ := hex
          rcases List.mem_append.mp hc' with h | h
          · exact ⟨c', h, hp'⟩
          · rw [List.mem_singleton] at h; subst h; exact absurd hp' hc)
        refine ⟨v, ⟨pre, c', post ++ [c], i, by simp, q1, q2, ?_, q4⟩, hv⟩
        intro c'' h
        rcases List.mem_append.mp h with h | h
        · exact q3 c'' h
        · rw [List.mem_singleton] at h; subst h; exact hc

omit [CommRing R] [DecidableEq R] in
theorem liftMarkers (bcs : List (BC R)) (dim p : Nat) :
    (bcs.foldl (fun m c => c.markDofs m) (List.replicate dim false)).getD p false = true ↔
      p < dim ∧ ∃ c ∈ bcs, p ∈ c.dofs := by
  have key : ∀ (bcs : List (BC R)) (m : List Bool),
      (bcs.foldl (fun m c => c.markDofs m) m).length = m.length ∧
      (marked (bcs.foldl (fun m c => c.markDofs m) m) p ↔ marked m p ∨ (p < m.length ∧ ∃ c ∈ bcs, p ∈ c.dofs)) := by
    intro bcs
    induction bcs with
    | nil => intro m; simp
    | cons c bcs ih =>
      intro m
      obtain ⟨f1, f2⟩ := foldl_mark c.dofs m
      obtain ⟨i1, i2⟩ := ih (c.markDofs m)
      refine ⟨i1.trans f1, ?_⟩
      rw [List.foldl_cons, i2]
      unfold BC.markDofs
      rw [f2, f1]
      simp only [List.mem_cons, exists_eq_or_imp]
      tauto
  have := (key bcs (List.replicate dim false)).2
  rw [List.length_replicate] at this
  refine Iff.trans this ?_
  have h0 : ¬ marked (List.replicate dim false) p := by simp only [marked, List.getD_eq_getElem?_getD, List.getElem?_replicate]; split <;> simp
  tauto

open Classical in
/-- Lifting with the conditions of one block. -/
theorem applyLifting1_ok (bs0 bs1 : Nat) (F : Form R) (dm0 dm1 : Nat → Dofmap) (hd0 : DofmapOk bs0 dm0) (hd1 : DofmapOk bs1 dm1)
    (hF : Accepted F) (n : Nat) (hn : ∀ t c, ∀ d ∈ (dm1 t).dofs c, d < n) (bcs : List (BC R)) (hok : ∀ c ∈ bcs, BcOk c)
    (x0 : Option (Nat → R)) (alpha : R) (b : Nat → R) :
    ∃ b', applyLifting1 F dm0 dm1 (bs1 * n) bcs x0 alpha b = some b' ∧ ∃ v : Nat → R,
      (∀ p, p < bs1 * n → (∃ c ∈ bcs, p ∈ c.dofs) → Prescribed bcs p (v p)) ∧
      ∀ i m, m < bs0 → b' (bs0 * i + m) = b (bs0 * i + m) -
        ∑ j ∈ range n, ∑ l ∈ range bs1, if ∃ c ∈ bcs, bs1 * j + l ∈ c.dofs then
          localOp bs0 bs1 (elems F dm0 dm1) i m j l * (alpha * (v (bs1 * j + l) - (x0.getD fun _ => 0) (bs1 * j + l))) else 0 := by
  unfold applyLifting1
  by_cases hb : bcs = []
  · subst hb
    exact ⟨b, rfl, fun _ => 0, (by rintro p _ ⟨c, hc, _⟩; cases hc), by intro i m _; simp⟩
  · have he : bcs.isEmpty = false := by simpa using hb
    rw [he]
    simp only [Bool.false_eq_true, if_false]
    obtain ⟨b', h1, h2⟩ := liftBc_ok bs0 bs1 F dm0 dm1 hd0 hd1 hF alpha (bcs.foldl (fun v c => c.set (bs1 * n) v none 1) (fun _ => 0))
      (bcs.foldl (fun m c => c.markDofs m) (List.replicate (bs1 * n) false)) (x0.getD fun _ => 0) b n hn
    refine ⟨b', h1, bcs.foldl (fun v c => c.set (bs1 * n) v none 1) (fun _ => 0), ?_, ?_⟩
    · intro p hp hex
      obtain ⟨v, hv, e⟩ := (set_all bcs hok (bs1 * n) (fun _ => 0) none 1 p).2 hp hex
      rw [e]
      simpa using hv
    · intro i m hm
      rw [h2 i m hm]
      congr 1
      apply sum_congr rfl
      intro j hj
      apply sum_congr rfl
      intro l hl
      have hlt : bs1 * j + l < bs1 * n := by
        have h3 := mem_range.mp hj
        have h4 := mem_range.mp hl
        calc bs1 * j + l < bs1 * j + bs1 := by omega
          _ = bs1 * (j + 1) := by ring
          _ ≤ bs1 * n := Nat.mul_le_mul_left _ h3
      have := liftMarkers bcs (bs1 * n) (bs1 * j + l)
      by_cases hc : ∃ c ∈ bcs, bs1 * j + l ∈ c.dofs
      · rw [if_pos (this.mpr ⟨hlt, hc⟩), if_pos hc]
      · rw [if_neg (fun h => hc (this.mp h).2), if_neg hc]

end Verif.Assembly
