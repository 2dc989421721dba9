import Verif.Lemmas.CoefficientPack
/-!
# Lemmas: coefficients of forms
-/
namespace Verif.Coefficients
open Verif.Spec.Coefficients
open Verif.Integration (Kind)

variable {T : Type}

theorem slots_apart {S e e' a n a' n' q : Nat} (h1 : a + n ≤ S) (h2 : a' + n' ≤ S) (h : a + n ≤ a' ∨ a' + n' ≤ a ∨ e ≠ e')
    (hq : S * e + a ≤ q) (hq' : q < S * e + a + n) : q < S * e' + a' ∨ S * e' + a' + n' ≤ q := by
  rcases Nat.lt_trichotomy e e' with he | he | he
  · have : S * (e + 1) ≤ S * e' := Nat.mul_le_mul (Nat.le_refl _) he
    rw [Nat.mul_succ] at this
    omega
  · subst he; omega
  · have : S * (e' + 1) ≤ S * e := Nat.mul_le_mul (Nat.le_refl _) he
    rw [Nat.mul_succ] at this
    omega

theorem column_ok (w j n : Nat) (l : List Int) (hj : j < w) (hl : l.length = w * n) :
    ∃ r, column w j l = some r ∧ r.length = n ∧ ∀ e < n, r[e]? = l[w * e + j]? := by
  have hn : l.length / w = n := by rw [hl, Nat.mul_div_cancel_left _ (by omega)]
  have hlt : ∀ e < n, w * e + j < l.length := by
    intro e he
    have : w * (e + 1) ≤ w * n := Nat.mul_le_mul (Nat.le_refl _) he
    rw [Nat.mul_succ] at this
    omega
  obtain ⟨r, h1, h2, h3⟩ := mapM_some_get (fun e => l[w * e + j]?) (List.range n) (by
    intro e he
    exact ⟨_, List.getElem?_eq_getElem (hlt e (List.mem_range.mp he))⟩)
  refine ⟨r, by rw [column, hn]; exact h1, by simpa using h2, ?_⟩
  intro e he
  exact h3 e e (List.getElem?_range he)

/-- Start of the values of a coefficient on side `s` in a row. -/
def start (us : List (Fn T)) (t : Kind) (c s : Nat) : Nat := sides t * before us c + s * ((us[c]?.map Fn.spaceDim).getD 0)

/-- Cells of row `e` and side `s`, from the mapped entities. -/
def cellOf (t : Kind) (out : List Int) (e s : Nat) : Option Int := out[cellPos t e s]?

theorem sides_pos (t : Kind) : 0 < sides t := by cases t <;> decide

theorem start_le (us : List (Fn T)) (t : Kind) {c s : Nat} {u : Fn T} (hu : us[c]? = some u) (hs : s < sides t) :
    start us t c s + u.spaceDim ≤ sides t * before us (c + 1) := by
  rw [start, hu, before_succ us c u hu, Option.map_some, Option.getD_some, Nat.mul_add]
  have : (s + 1) * u.spaceDim ≤ sides t * u.spaceDim := Nat.mul_le_mul hs (Nat.le_refl _)
  rw [Nat.succ_mul] at this
  omega

theorem start_ge (us : List (Fn T)) (t : Kind) (c s : Nat) : sides t * before us c ≤ start us t c s := Nat.le_add_right _ _

theorem start_le_all (us : List (Fn T)) (t : Kind) {c s : Nat} {u : Fn T} (hu : us[c]? = some u) (hs : s < sides t) :
    start us t c s + u.spaceDim ≤ sides t * before us us.length :=
  Nat.le_trans (start_le us t hu hs) (Nat.mul_le_mul (Nat.le_refl _) (before_mono us (by
    have := (List.getElem?_eq_some_iff.mp hu).1; omega)))

/-- Values of different coefficients, sides or rows are in different places. -/
theorem start_apart (us : List (Fn T)) (t : Kind) {c s e c' s' e' : Nat} {u u' : Fn T} (hu : us[c]? = some u) (hu' : us[c']? = some u')
    (hs : s < sides t) (hs' : s' < sides t) (h : c ≠ c' ∨ s ≠ s' ∨ e ≠ e') {q : Nat}
    (hq : sides t * before us us.length * e + start us t c s ≤ q) (hq' : q < sides t * before us us.length * e + start us t c s + u.spaceDim) :
    q < sides t * before us us.length * e' + start us t c' s' ∨ sides t * before us us.length * e' + start us t c' s' + u'.spaceDim ≤ q := by
  refine slots_apart (start_le_all us t hu hs) (start_le_all us t hu' hs') ?_ hq hq'
  rcases Nat.lt_trichotomy c c' with hc | hc | hc
  · left
    exact Nat.le_trans (start_le us t hu hs) (Nat.le_trans (Nat.mul_le_mul (Nat.le_refl _) (before_mono us hc)) (start_ge us t c' s'))
  · subst hc
    rw [hu] at hu'; cases hu'
    simp only [start, hu, Option.map_some, Option.getD_some]
    rcases Nat.lt_trichotomy s s' with h1 | h1 | h1
    · left
      have : (s + 1) * u.spaceDim ≤ s' * u.spaceDim := Nat.mul_le_mul h1 (Nat.le_refl _)
      rw [Nat.succ_mul] at this
      omega
    · right; right
      rcases h with h | h | h
      · exact absurd rfl h
      · exact absurd h1 h
      · exact h
    · right; left
      have : (s' + 1) * u.spaceDim ≤ s * u.spaceDim := Nat.mul_le_mul h1 (Nat.le_refl _)
      rw [Nat.succ_mul] at this
      omega
  · right; left
    exact Nat.le_trans (start_le us t hu' hs') (Nat.le_trans (Nat.mul_le_mul (Nat.le_refl _) (before_mono us hc)) (start_ge us t c s))

/-- One coefficient of an integral. -/
theorem packOne_ok (F : Form T) (cd : List ((Kind × Nat × Nat) × List Int)) (t : Kind) (i n k : Nat) (u : Fn T) (c : List T) (out : List Int)
    (hk : F.coefficients[k]? = some u) (hu : FnOk u) (hdim : t = .cell → F.mesh.dim ≤ u.mesh.dim)
    (hout : domainCoeff cd t i k = some out) (hlen : out.length = width t * n)
    (hr : ∀ e s (x : Int), s < sides t → out[cellPos t e s]? = some x → x < 0 ∨ x.toNat < u.dofs.length)
    (hc : n * (sides t * before F.coefficients F.coefficients.length) ≤ c.length) :
    ∃ c', packOne F cd (coefficientOffsets F.coefficients) t i (before F.coefficients F.coefficients.length) c k = some c' ∧ c'.length = c.length ∧
      (∀ e s j : Nat, s < sides t → out[cellPos t e s]? = some (j : Int) →
        GoodAt u c' (sides t * before F.coefficients F.coefficients.length * e + start F.coefficients t k s) j) ∧
      ∀ q, (∀ e s j : Nat, s < sides t → out[cellPos t e s]? = some (j : Int) →
        q < sides t * before F.coefficients F.coefficients.length * e + start F.coefficients t k s ∨
        sides t * before F.coefficients F.coefficients.length * e + start F.coefficients t k s + u.spaceDim ≤ q) → c'[q]? = c[q]? := by
  set us := F.coefficients with hus
  have hkl := (List.getElem?_eq_some_iff.mp hk).1
  have ho := offsets_get us k (by omega)
  have ho1 := offsets_get us (k + 1) (by omega)
  have hs0 : start us t k 0 = sides t * before us k := by simp [start]
  have hle := start_le_all us t hk (sides_pos t)
  by_cases ht : t = .cell
  · subst ht
    have hcp : ∀ e, cellPos .cell e 0 = e := fun e => by simp [cellPos, width]
    have h1 : ∀ s, s < sides .cell → s = 0 := fun s hs => by simp only [sides] at hs; omega
    simp only [width, Nat.one_mul] at hlen
    simp only [sides, Nat.one_mul] at hle hs0 hc ⊢
    obtain ⟨c', p1, p2, p3, p4⟩ := packEntity_ok u hu (before us us.length) (before us k) (by omega) out (by
      intro x hx
      obtain ⟨e, he⟩ := List.mem_iff_getElem?.mp hx
      exact hr e 0 x (sides_pos _) (by rw [hcp]; exact he)) c (by rw [hlen]; exact hc)
    refine ⟨c', ?_, p2, ?_, ?_⟩
    · rw [packOne, ← hus, hk]
      simp only [Option.bind_eq_bind, Option.bind_some, ho, hout]
      rw [if_neg (by have := hdim rfl; omega)]
      exact p1
    · intro e s j hs hj
      have : s = 0 := by omega
      subst this
      rw [hcp] at hj
      rw [hs0]; exact p3 e j hj
    · intro q hq
      refine p4 q fun e j hj => ?_
      have := hq e 0 j (by omega) (by rw [hcp]; exact hj)
      rw [hs0] at this; exact this
  · by_cases hti : t = .interiorFacet
    · subst hti
      have hcp : ∀ e s, cellPos .interiorFacet e s = 4 * e + 2 * s := fun e s => by simp [cellPos, width]
      simp only [width] at hlen
      have hle1 := start_le_all us .interiorFacet hk (show 1 < sides .interiorFacet by decide)
      have hs1 : start us .interiorFacet k 1 = before us k + before us (k + 1) := by
        rw [start, hk, before_succ us k u hk]
        simp only [sides, Option.map_some, Option.getD_some]; ring
      simp only [sides] at hle hle1 hs0 hc hr ⊢
      obtain ⟨r0, q1, q2, q3⟩ := column_ok 4 0 n out (by omega) hlen
      obtain ⟨r1, q4, q5, q6⟩ := column_ok 4 2 n out (by omega) hlen
      have hr0 : ∀ x ∈ r0, x < 0 ∨ x.toNat < u.dofs.length := by
        intro x hx
        obtain ⟨e, he⟩ := List.mem_iff_getElem?.mp hx
        have hen : e < n := by rw [← q2]; exact (List.getElem?_eq_some_iff.mp he).1
        rw [q3 e hen] at he
        exact hr e 0 x (by omega) (by rw [hcp]; exact he)
      have hr1 : ∀ x ∈ r1, x < 0 ∨ x.toNat < u.dofs.length := by
        intro x hx
        obtain ⟨e, he⟩ := List.mem_iff_getElem?.mp hx
        have hen : e < n := by rw [← q5]; exact (List.getElem?_eq_some_iff.mp he).1
        rw [q6 e hen] at he
        exact hr e 1 x (by omega) (by rw [hcp]; exact he)
      obtain ⟨c1, p1, p2, p3, p4⟩ := packEntity_ok u hu (2 * before us us.length) (2 * before us k) (by omega) r0 hr0 c (by rw [q2]; exact hc)
      obtain ⟨c2, p5, p6, p7, p8⟩ := packEntity_ok u hu (2 * before us us.length) (before us k + before us (k + 1)) (by omega) r1 hr1 c1
        (by rw [q5, p2]; exact hc)
      have hbs := before_succ us k u hk
      have get0 : ∀ e (j : Nat), out[cellPos .interiorFacet e 0]? = some (j : Int) ↔ r0[e]? = some (j : Int) := by
        intro e j
        rw [hcp]
        rcases Nat.lt_or_ge e n with h | h
        · rw [q3 e h]
        · rw [List.getElem?_eq_none (by omega), List.getElem?_eq_none (by omega)]
      have get1 : ∀ e (j : Nat), out[cellPos .interiorFacet e 1]? = some (j : Int) ↔ r1[e]? = some (j : Int) := by
        intro e j
        rw [hcp]
        rcases Nat.lt_or_ge e n with h | h
        · rw [q6 e h]
        · rw [List.getElem?_eq_none (by omega), List.getElem?_eq_none (by omega)]
      refine ⟨c2, ?_, by omega, ?_, ?_⟩
      · rw [packOne, ← hus, hk]
        simp only [Option.bind_eq_bind, Option.bind_some, ho, ho1, hout, q1, q4, p1, p5]
      · intro e s j hs hj
        have : s = 0 ∨ s = 1 := by omega
        rcases this with rfl | rfl
        · rw [hs0]
          refine (p3 e j ((get0 e j).mp hj)).congr fun q hq hq' => ?_
          refine p8 q fun e' j' _ => ?_
          exact slots_apart (S := 2 * before us us.length) (by omega) (by omega) (Or.inl (by omega)) hq hq'
        · rw [hs1]
          exact p7 e j ((get1 e j).mp hj)
      · intro q hq
        rw [p8 q, p4 q]
        · intro e j hj
          have := hq e 0 j (by omega) ((get0 e j).mpr hj)
          rw [hs0] at this; exact this
        · intro e j hj
          have := hq e 1 j (by omega) ((get1 e j).mpr hj)
          rw [hs1] at this; exact this
    · have hw : width t = 2 := by cases t <;> first | rfl | exact absurd rfl ht | exact absurd rfl hti
      have hsd : sides t = 1 := by cases t <;> first | rfl | exact absurd rfl hti
      have hcp : ∀ e, cellPos t e 0 = 2 * e := fun e => by simp [cellPos, hw]
      rw [hw] at hlen
      rw [hsd, Nat.one_mul] at hle hs0 hc
      rw [hsd] at hr ⊢
      simp only [Nat.one_mul]
      obtain ⟨r0, q1, q2, q3⟩ := column_ok 2 0 n out (by omega) hlen
      have hr0 : ∀ x ∈ r0, x < 0 ∨ x.toNat < u.dofs.length := by
        intro x hx
        obtain ⟨e, he⟩ := List.mem_iff_getElem?.mp hx
        have hen : e < n := by rw [← q2]; exact (List.getElem?_eq_some_iff.mp he).1
        rw [q3 e hen] at he
        exact hr e 0 x (by omega) (by rw [hcp]; exact he)
      have get0 : ∀ e (j : Nat), out[cellPos t e 0]? = some (j : Int) ↔ r0[e]? = some (j : Int) := by
        intro e j
        rw [hcp]
        rcases Nat.lt_or_ge e n with h | h
        · rw [q3 e h]; rfl
        · rw [List.getElem?_eq_none (by omega), List.getElem?_eq_none (by omega)]
      obtain ⟨c1, p1, p2, p3, p4⟩ := packEntity_ok u hu (before us us.length) (before us k) (by omega) r0 hr0 c (by rw [q2]; exact hc)
      refine ⟨c1, ?_, p2, ?_, ?_⟩
      · rw [packOne, ← hus, hk]
        cases t <;> first
          | exact absurd rfl ht
          | exact absurd rfl hti
          | simp only [Option.bind_eq_bind, Option.bind_some, ho, hout, q1, p1]
      · intro e s j hs hj
        have : s = 0 := by omega
        subst this
        rw [hs0]; exact p3 e j ((get0 e j).mp hj)
      · intro q hq
        refine p4 q fun e j hj => ?_
        have := hq e 0 j (by omega) ((get0 e j).mpr hj)
        rw [hs0] at this; exact this

end Verif.Coefficients
