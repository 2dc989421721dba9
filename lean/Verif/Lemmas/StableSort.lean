import Verif.Spec.Sorting
import Mathlib.Data.List.Perm.Basic
import Mathlib.Data.List.Count
import Mathlib.Data.List.Range
/-! Facts about stable sorting: one bucket pass refines a stable sort. -/
namespace Verif.Spec

variable {α κ κ' : Type}

theorem perm_of_stable [DecidableEq κ] {key : α → κ} {inp out : List α}
    (h : ∀ k, out.filter (fun x => decide (key x = k)) = inp.filter (fun x => decide (key x = k))) :
    out.Perm inp := by
  classical
  rw [List.perm_iff_count]
  intro a
  have e : ∀ l : List α, l.count a = (l.filter (fun x => decide (key x = key a))).count a := by
    intro l
    rw [List.count_filter (by simp)]
  rw [e out, e inp, h]

theorem StableSorted.refl_of_sorted [LE κ] [DecidableEq κ] {key : α → κ} {l : List α}
    (h : l.Pairwise (fun x y => key x ≤ key y)) : StableSorted key l l :=
  ⟨List.Perm.refl _, h, fun _ => rfl⟩

/-- Only one bucket contributes. -/
theorem flatMap_range_single {β : Type} (f : Nat → List β) (B b : Nat) (hb : b < B)
    (h : ∀ i, i ≠ b → f i = []) : (List.range B).flatMap f = f b := by
  induction B with
  | zero => omega
  | succ B ih =>
    rw [List.range_succ, List.flatMap_append]
    rcases Nat.lt_or_ge b B with h1 | h1
    · rw [ih h1]; simp [h B (by omega)]
    · have : b = B := by omega
      subst this
      have : (List.range b).flatMap f = [] := by
        rw [List.flatMap_eq_nil_iff]; intro i hi; exact h i (by have := List.mem_range.mp hi; omega)
      simp [this]

/-- Distributing a list that is stably sorted by `k1` over buckets by digit `d`
gives a list stably sorted by any key that orders lexicographically by
`(d, k1)`. -/
theorem StableSorted.bucket [LE κ] [DecidableEq κ] [LE κ'] [DecidableEq κ']
    {k1 : α → κ} {k2 : α → κ'} {d : α → Nat} {inp cur : List α} {B : Nat}
    (h : StableSorted k1 inp cur) (hd : ∀ x ∈ inp, d x < B)
    (hlt : ∀ x ∈ inp, ∀ y ∈ inp, d x < d y → k2 x ≤ k2 y)
    (hle : ∀ x ∈ inp, ∀ y ∈ inp, d x = d y → k1 x ≤ k1 y → k2 x ≤ k2 y)
    (heq : ∀ x ∈ inp, ∀ y ∈ inp, k2 x = k2 y → d x = d y ∧ k1 x = k1 y) :
    StableSorted k2 inp ((List.range B).flatMap (fun b => cur.filter (fun x => d x == b))) := by
  have hmem : ∀ x, x ∈ cur ↔ x ∈ inp := fun x => h.perm.mem_iff
  have hstable : ∀ k, ((List.range B).flatMap (fun b => cur.filter (fun x => d x == b))).filter
      (fun x => decide (k2 x = k)) = inp.filter (fun x => decide (k2 x = k)) := by
    intro k
    rw [List.filter_flatMap]
    by_cases hex : ∃ x ∈ inp, k2 x = k
    · obtain ⟨x0, hx0, rfl⟩ := hex
      rw [flatMap_range_single _ B (d x0) (hd x0 hx0)]
      · have e1 : (cur.filter (fun x => d x == d x0)).filter (fun x => decide (k2 x = k2 x0)) =
            (cur.filter (fun x => decide (k1 x = k1 x0))).filter (fun x => decide (k2 x = k2 x0)) := by
          rw [List.filter_filter, List.filter_filter]
          apply List.filter_congr
          intro x hx
          by_cases hk : k2 x = k2 x0
          · have := heq x ((hmem x).mp hx) x0 hx0 hk
            simp [hk, this.1, this.2]
          · simp [hk]
        rw [e1, h.stable, List.filter_filter]
        apply List.filter_congr
        intro x hx
        by_cases hk : k2 x = k2 x0
        · simp [hk, (heq x hx x0 hx0 hk).2]
        · simp [hk]
      · intro b hb
        rw [List.filter_eq_nil_iff]
        intro x hx
        rw [List.mem_filter] at hx
        simp only [decide_eq_true_eq]
        intro hk
        have := (heq x ((hmem x).mp hx.1) x0 hx0 hk).1
        simp at hx; omega
    · have hn : ∀ x ∈ inp, k2 x ≠ k := fun x hx e => hex ⟨x, hx, e⟩
      have e2 : inp.filter (fun x => decide (k2 x = k)) = [] := by
        rw [List.filter_eq_nil_iff]; intro x hx; simp [hn x hx]
      rw [e2, List.flatMap_eq_nil_iff]
      intro b _
      rw [List.filter_eq_nil_iff]
      intro x hx
      rw [List.mem_filter] at hx
      simp [hn x ((hmem x).mp hx.1)]
  refine ⟨perm_of_stable hstable, ?_, hstable⟩
  rw [List.pairwise_flatMap]
  constructor
  · intro b _
    apply List.Pairwise.imp_of_mem _ (h.sorted.filter _)
    intro x y hx hy hxy
    rw [List.mem_filter] at hx hy
    simp only [beq_iff_eq] at hx hy
    exact hle x ((hmem x).mp hx.1) y ((hmem y).mp hy.1) (by omega) hxy
  · apply List.Pairwise.imp _ List.pairwise_lt_range
    intro a b hab x hx y hy
    rw [List.mem_filter] at hx hy
    simp only [beq_iff_eq] at hx hy
    exact hlt x ((hmem x).mp hx.1) y ((hmem y).mp hy.1) (by omega)

/-- A stable sort is unique. -/
theorem StableSorted.congr_key [LE κ] [DecidableEq κ] [LE κ'] [DecidableEq κ']
    {k1 : α → κ} {k2 : α → κ'} {inp out : List α} (h : StableSorted k1 inp out)
    (hle : ∀ x ∈ inp, ∀ y ∈ inp, k1 x ≤ k1 y → k2 x ≤ k2 y)
    (heq : ∀ x ∈ inp, ∀ y ∈ inp, k2 x = k2 y → k1 x = k1 y) :
    StableSorted k2 inp out := by
  have hmem : ∀ x, x ∈ out ↔ x ∈ inp := fun x => h.perm.mem_iff
  refine ⟨h.perm, h.sorted.imp_of_mem (fun hx hy hxy => hle _ ((hmem _).mp hx) _ ((hmem _).mp hy) hxy), ?_⟩
  intro k
  by_cases hex : ∃ x ∈ inp, k2 x = k
  · obtain ⟨x0, hx0, rfl⟩ := hex
    have e : ∀ l : List α, (∀ x ∈ l, x ∈ inp) → l.filter (fun x => decide (k2 x = k2 x0)) =
        (l.filter (fun x => decide (k1 x = k1 x0))).filter (fun x => decide (k2 x = k2 x0)) := by
      intro l hl
      rw [List.filter_filter]
      apply List.filter_congr
      intro x hx
      by_cases hk : k2 x = k2 x0
      · simp [hk, heq x (hl x hx) x0 hx0 hk]
      · simp [hk]
    rw [e out (fun x hx => (hmem x).mp hx), e inp (fun x hx => hx), h.stable]
  · have hn : ∀ x ∈ inp, k2 x ≠ k := fun x hx e => hex ⟨x, hx, e⟩
    rw [List.filter_eq_nil_iff.mpr (fun x hx => by simp [hn x ((hmem x).mp hx)]),
      List.filter_eq_nil_iff.mpr (fun x hx => by simp [hn x hx])]

/-- There is only one stable sort (for an antisymmetric order of keys). -/
theorem StableSorted.unique [LE κ] [DecidableEq κ] {key : α → κ}
    (hanti : ∀ a b : κ, a ≤ b → b ≤ a → a = b) {inp inp' p q : List α}
    (hp : StableSorted key inp p) (hq : StableSorted key inp' q)
    (hin : ∀ k, inp.filter (fun x => decide (key x = k)) = inp'.filter (fun x => decide (key x = k))) :
    p = q := by
  have hpq : ∀ k, p.filter (fun x => decide (key x = k)) = q.filter (fun x => decide (key x = k)) := by
    intro k; rw [hp.stable, hq.stable, hin]
  have hsp := hp.sorted
  have hsq := hq.sorted
  clear hp hq hin
  induction p generalizing q with
  | nil =>
    have := (perm_of_stable hpq).symm.eq_nil
    rw [this]
  | cons a p ih =>
    cases q with
    | nil => exact absurd (perm_of_stable hpq).eq_nil (by simp)
    | cons b q =>
      have hperm := perm_of_stable hpq
      have hab : key a = key b := by
        have h1 : b ∈ a :: p := hperm.mem_iff.mpr (by simp)
        have h2 : a ∈ b :: q := hperm.mem_iff.mp (by simp)
        rcases List.mem_cons.mp h1 with e | h1
        · rw [e]
        rcases List.mem_cons.mp h2 with e | h2
        · rw [e]
        exact hanti _ _ ((List.pairwise_cons.mp hsp).1 b h1) ((List.pairwise_cons.mp hsq).1 a h2)
      have e := hpq (key a)
      simp only [List.filter_cons, decide_true, if_true, hab] at e
      have e1 := (List.cons.inj e).1
      subst e1
      rw [ih ?_ (List.pairwise_cons.mp hsp).2 (List.pairwise_cons.mp hsq).2]
      intro k
      have e2 := hpq k
      by_cases hk : key a = k
      · simpa [List.filter_cons, hk] using e2
      · simpa [List.filter_cons, hk] using e2

/-- Collecting the elements of each key, for increasing keys, is a stable sort. -/
theorem stableSorted_flatMap_keys {α : Type} {key : α → Nat} {inp : List α} {ks : List Nat}
    (hks : ks.Pairwise (· < ·)) (hcov : ∀ x ∈ inp, key x ∈ ks) :
    Verif.Spec.StableSorted key inp (ks.flatMap fun k => inp.filter (fun x => decide (key x = k))) := by
  have hst : ∀ k', (ks.flatMap fun k => inp.filter (fun x => decide (key x = k))).filter
      (fun x => decide (key x = k')) = inp.filter (fun x => decide (key x = k')) := by
    intro k'
    by_cases hk : k' ∈ ks
    · clear hcov
      induction ks with
      | nil => simp at hk
      | cons a ks ih =>
        obtain ⟨h1, h2⟩ := List.pairwise_cons.mp hks
        rw [List.flatMap_cons, List.filter_append]
        by_cases ha : k' = a
        · subst ha
          have : (ks.flatMap fun k => inp.filter (fun x => decide (key x = k))).filter
              (fun x => decide (key x = k')) = [] := by
            rw [List.filter_eq_nil_iff]
            intro x hx
            obtain ⟨k, hk', hx⟩ := List.mem_flatMap.mp hx
            have hxk : key x = k := by simpa using (List.mem_filter.mp hx).2
            have := h1 k hk'
            simp only [decide_eq_true_eq]; omega
          rw [this, List.append_nil, List.filter_filter]
          congr 1; funext x; simp
        · have hk2 : k' ∈ ks := by simpa [ha] using hk
          rw [ih h2 hk2]
          have : (inp.filter (fun x => decide (key x = a))).filter (fun x => decide (key x = k')) = [] := by
            rw [List.filter_eq_nil_iff]
            intro x hx
            have hxk : key x = a := by simpa using (List.mem_filter.mp hx).2
            simp only [decide_eq_true_eq]; omega
          rw [this, List.nil_append]
    · have h1 : inp.filter (fun x => decide (key x = k')) = [] := by
        rw [List.filter_eq_nil_iff]
        intro x hx
        simp only [decide_eq_true_eq]
        rintro rfl; exact hk (hcov x hx)
      rw [h1, List.filter_eq_nil_iff]
      intro x hx
      obtain ⟨k, hk', hx⟩ := List.mem_flatMap.mp hx
      have hxk : key x = k := by simpa using (List.mem_filter.mp hx).2
      simp only [decide_eq_true_eq]
      rintro rfl; exact hk (hxk ▸ hk')
  refine ⟨perm_of_stable hst, ?_, hst⟩
  rw [List.pairwise_flatMap]
  constructor
  · intro k _
    refine List.Pairwise.imp_of_mem (R := fun _ _ => True) ?_ (List.pairwise_of_forall (fun _ _ => trivial))
    intro x y hx hy _
    have h1 : key x = k := by simpa using (List.mem_filter.mp hx).2
    have h2 : key y = k := by simpa using (List.mem_filter.mp hy).2
    omega
  · exact hks.imp (fun {a b} hab x hx y hy => by
      have h1 : key x = a := by simpa using (List.mem_filter.mp hx).2
      have h2 : key y = b := by simpa using (List.mem_filter.mp hy).2
      omega)

end Verif.Spec
