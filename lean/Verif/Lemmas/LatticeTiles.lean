import Verif.Lemmas.LatticeMesh
import Mathlib.Algebra.Order.Field.Basic
/-!
# Meshes made of equal cubes: they fill the box
-/
namespace Verif.Lattice
open Verif.Spec.RefCell Verif.Spec.Mixed Verif.Spec.Box
open Verif.Connectivity (CellType)

variable {K : Type} [Field K] [LinearOrder K] [IsStrictOrderedRing K]

/-- Position of a point. -/
def pos (lo h : K × K × K) (p : Off) : K × K × K :=
  (lo.1 + h.1 * ((p.1 : K) / 2), lo.2.1 + h.2.1 * ((p.2.1 : K) / 2), lo.2.2 + h.2.2 * ((p.2.2 : K) / 2))

/-- The map to a cell in the unit cube. -/
def umap (t : CellType) (l : List Off) (y : K × K × K) : K × K × K :=
  (mapTo t (fun k => ((l.getD k (0, 0, 0)).1 : K) / 2) y, mapTo t (fun k => ((l.getD k (0, 0, 0)).2.1 : K) / 2) y,
    mapTo t (fun k => ((l.getD k (0, 0, 0)).2.2 : K) / 2) y)

def place (lo h : K × K × K) (i : Off) (u : K × K × K) : K × K × K :=
  (lo.1 + h.1 * ((i.1 : K) + u.1), lo.2.1 + h.2.1 * ((i.2.1 : K) + u.2.1), lo.2.2 + h.2.2 * ((i.2.2 : K) + u.2.2))

def InUnit (t : CellType) (u : K × K × K) : Prop := ∀ a < 3, if a < dim t then 0 ≤ axis a u ∧ axis a u ≤ 1 else axis a u = 0

/-- A pattern divides the unit cube. -/
structure UnitTiles (K : Type) [Field K] [LinearOrder K] (t : CellType) (P : List (List Off)) : Prop where
  nodup : ∀ l ∈ P, l.Nodup
  inside : ∀ l ∈ P, ∀ y : K × K × K, Inside t y → InUnit t (umap t l y)
  inner : ∀ l ∈ P, ∀ y : K × K × K, Inner t y → ∀ a < dim t, 0 < axis a (umap t l y) ∧ axis a (umap t l y) < 1
  cover : ∀ u : K × K × K, InUnit t u → ∃ l ∈ P, ∃ y, Inside t y ∧ umap t l y = u
  apart : P.Pairwise fun l l' => ∀ y y' : K × K × K, umap t l y = umap t l' y' → ¬ (Inner t y ∧ Inside t y') ∧ ¬ (Inside t y ∧ Inner t y')
  proper : ∀ l ∈ P, ∀ y y' : K × K × K, Inside t y → Inside t y' → umap t l y = umap t l y' → y = y'

omit [LinearOrder K] [IsStrictOrderedRing K] in
theorem mapTo_congr (t : CellType) (p p' : Nat → K) (y : K × K × K) (h : ∀ k < nverts t, p k = p' k) : mapTo t p y = mapTo t p' y := by
  cases t <;> simp only [mapTo, nverts] at h ⊢ <;> simp [h]

omit [LinearOrder K] [IsStrictOrderedRing K] in
theorem mapTo_affine (t : CellType) (ht : t ≠ .point) (p : Nat → K) (y : K × K × K) (a b : K) :
    mapTo t (fun k => a + b * p k) y = a + b * mapTo t p y := by
  cases t <;> simp only [mapTo] <;> first | exact absurd rfl ht | ring

theorem pick (n : Nat) (hn : 0 < n) (s : K) (h0 : 0 ≤ s) (h1 : s ≤ n) : ∃ i < n, (i : K) ≤ s ∧ s ≤ (i : K) + 1 := by
  induction n with
  | zero => omega
  | succ n ih =>
    by_cases hs : (n : K) ≤ s
    · exact ⟨n, by omega, hs, by push_cast at h1; exact h1⟩
    · push Not at hs
      rcases Nat.eq_zero_or_pos n with rfl | hp
      · push_cast at hs; exact absurd hs (not_lt.mpr h0)
      · obtain ⟨i, hi, h⟩ := ih hp hs.le
        exact ⟨i, by omega, h⟩

/-- Cubes are different if a common point is inside one. -/
theorem same_cube (i i' : Nat) (u u' : K) (h : (i : K) + u = i' + u') (h0 : 0 < u) (h1 : u < 1) (h0' : 0 ≤ u') (h1' : u' ≤ 1) : i = i' := by
  have a : (i : K) < i' + 1 := by linarith
  have b : (i' : K) < i + 1 := by linarith
  have a : i < i' + 1 := by exact_mod_cast a
  have b : i' < i + 1 := by exact_mod_cast b
  omega

variable {t : CellType} {n : Off} {Ps : List (List (List Off))} {pat : Off → List (List Off)} {cubes pts : List Off} {num : Off → Off → Nat}
  {lo h : K × K × K}

theorem get_pos (hg : Good n Ps pat cubes pts num) {i : Off} (hi : i ∈ cubes) {l : List Off} (hl : l ∈ pat i) {o : Off} (ho : o ∈ l) :
    (pts.map (pos lo h)).getD (num i o) 0 = pos lo h (at2 i o) := by
  rw [List.getD_eq_getElem?_getD, List.getElem?_map, hg.nums i hi l hl o ho]
  rfl

theorem mapCell_eq (hg : Good n Ps pat cubes pts num) (hc : checkSides t Ps = true) (ht : t ≠ .point) {i : Off} (hi : i ∈ cubes) {l : List Off}
    (hl : l ∈ pat i) (y : K × K × K) : mapCell t (pts.map (pos lo h)) (l.map (num i)) y = place lo h i (umap t l y) := by
  have hlen := (check_len hc (hg.pats i hi) hl).1
  have hX : ∀ k < nverts t, (pts.map (pos lo h)).getD ((l.map (num i)).getD k 0) 0 = pos lo h (at2 i (l.getD k (0, 0, 0))) := by
    intro k hk
    rw [← hlen] at hk
    rw [List.getD_eq_getElem?_getD (l := l.map (num i)), List.getElem?_map, List.getElem?_eq_getElem hk, Option.map_some, Option.getD_some,
      List.getD_eq_getElem?_getD (l := l), List.getElem?_eq_getElem hk, Option.getD_some]
    exact get_pos hg hi hl (List.getElem_mem hk)
  unfold mapCell place umap
  refine Prod.ext ?_ (Prod.ext ?_ ?_)
  · show mapTo t _ y = lo.1 + h.1 * ((i.1 : K) + mapTo t _ y)
    rw [mul_add, ← add_assoc, ← mapTo_affine t ht]
    refine mapTo_congr _ _ _ _ fun k hk => ?_
    rw [hX k hk]; simp only [pos, at2]; push_cast; ring
  · show mapTo t _ y = lo.2.1 + h.2.1 * ((i.2.1 : K) + mapTo t _ y)
    rw [mul_add, ← add_assoc, ← mapTo_affine t ht]
    refine mapTo_congr _ _ _ _ fun k hk => ?_
    rw [hX k hk]; simp only [pos, at2]; push_cast; ring
  · show mapTo t _ y = lo.2.2 + h.2.2 * ((i.2.2 : K) + mapTo t _ y)
    rw [mul_add, ← add_assoc, ← mapTo_affine t ht]
    refine mapTo_congr _ _ _ _ fun k hk => ?_
    rw [hX k hk]; simp only [pos, at2]; push_cast; ring

/-- The far corner of the box. -/
def far (t : CellType) (n : Off) (lo h : K × K × K) : K × K × K :=
  (lo.1 + h.1 * (if 0 < dim t then (n.1 : K) else 0), lo.2.1 + h.2.1 * (if 1 < dim t then (n.2.1 : K) else 0),
    lo.2.2 + h.2.2 * (if 2 < dim t then (n.2.2 : K) else 0))

/-- The steps are positive. -/
def Pos (h : K × K × K) : Prop := 0 < h.1 ∧ 0 < h.2.1 ∧ 0 < h.2.2

/-- There is at least one cube, and only one layer in the directions that are not there. -/
def Layers (t : CellType) (n : Off) : Prop := ∀ a < 3, 0 < axis a n ∧ (dim t ≤ a → axis a n = 1)

omit [LinearOrder K] [IsStrictOrderedRing K] in
theorem place_inj [LinearOrder K] [IsStrictOrderedRing K] (hh : Pos h) {i i' : Off} {u u' : K × K × K} (he : place lo h i u = place lo h i' u') :
    ∀ a < 3, ((axis a i : Nat) : K) + axis a u = ((axis a i' : Nat) : K) + axis a u' := by
  obtain ⟨h1, h2, h3⟩ := hh
  simp only [place, Prod.mk.injEq, add_right_inj, mul_eq_mul_left_iff, h1.ne', h2.ne', h3.ne', or_false] at he
  intro a ha
  interval_cases a
  · exact he.1
  · exact he.2.1
  · exact he.2.2

theorem place_cong (hh : Pos h) {i : Off} {u u' : K × K × K} (he : place lo h i u = place lo h i u') : u = u' := by
  have := place_inj hh he
  exact Prod.ext (by simpa [axis] using this 0 (by omega)) (Prod.ext (by simpa [axis] using this 1 (by omega)) (by simpa [axis] using this 2 (by omega)))

theorem coord_in (w : Prop) [Decidable w] (n i : Nat) (lo h u : K) (hh : 0 < h) (hi : i < n) (hn : ¬ w → n = 1)
    (hu : if w then 0 ≤ u ∧ u ≤ 1 else u = 0) : lo ≤ lo + h * ((i : K) + u) ∧ lo + h * ((i : K) + u) ≤ lo + h * (if w then (n : K) else 0) := by
  by_cases hw : w
  · rw [if_pos hw] at hu ⊢
    have hi' : (i : K) + 1 ≤ n := by exact_mod_cast hi
    have : (0 : K) ≤ i := Nat.cast_nonneg i
    refine ⟨?_, ?_⟩
    · nlinarith [mul_nonneg hh.le (add_nonneg this hu.1)]
    · have := mul_le_mul_of_nonneg_left (show (i : K) + u ≤ n by linarith [hu.2]) hh.le
      linarith
  · rw [if_neg hw] at hu ⊢
    have : i = 0 := by have := hn hw; omega
    subst this hu
    simp

theorem coord_pick (w : Prop) [Decidable w] (n : Nat) (lo h q : K) (hh : 0 < h) (h0 : 0 < n) (hn : ¬ w → n = 1) (h1 : lo ≤ q)
    (h2 : q ≤ lo + h * (if w then (n : K) else 0)) : ∃ i < n, ∃ u : K, (if w then 0 ≤ u ∧ u ≤ 1 else u = 0) ∧ lo + h * ((i : K) + u) = q := by
  by_cases hw : w
  · rw [if_pos hw] at h2
    obtain ⟨i, hi, ha, hb⟩ := pick n h0 ((q - lo) / h) (div_nonneg (by linarith) hh.le) (by rw [div_le_iff₀ hh]; linarith)
    refine ⟨i, hi, (q - lo) / h - i, ?_, ?_⟩
    · rw [if_pos hw]; constructor <;> linarith
    · field_simp; ring
  · rw [if_neg hw] at h2
    refine ⟨0, h0, 0, ?_, ?_⟩
    · rw [if_neg hw]
    · simp at h2 ⊢; linarith

theorem place_in (hh : Pos h) (hn : Layers t n) {i : Off} (hi : i.1 < n.1 ∧ i.2.1 < n.2.1 ∧ i.2.2 < n.2.2) {u : K × K × K} (hu : InUnit t u) :
    InBox lo (far t n lo h) (place lo h i u) := by
  refine ⟨?_, ?_, ?_⟩
  · exact coord_in (0 < dim t) n.1 i.1 lo.1 h.1 u.1 hh.1 hi.1 (fun x => (hn 0 (by omega)).2 (by omega)) (hu 0 (by omega))
  · exact coord_in (1 < dim t) n.2.1 i.2.1 lo.2.1 h.2.1 u.2.1 hh.2.1 hi.2.1 (fun x => (hn 1 (by omega)).2 (by omega)) (hu 1 (by omega))
  · exact coord_in (2 < dim t) n.2.2 i.2.2 lo.2.2 h.2.2 u.2.2 hh.2.2 hi.2.2 (fun x => (hn 2 (by omega)).2 (by omega)) (hu 2 (by omega))

theorem place_cover (hh : Pos h) (hn : Layers t n) {q : K × K × K} (hq : InBox lo (far t n lo h) q) :
    ∃ i : Off, (i.1 < n.1 ∧ i.2.1 < n.2.1 ∧ i.2.2 < n.2.2) ∧ ∃ u, InUnit t u ∧ place lo h i u = q := by
  obtain ⟨q1, q2, q3⟩ := hq
  obtain ⟨i1, b1, u1, e1, f1⟩ := coord_pick (0 < dim t) n.1 lo.1 h.1 q.1 hh.1 (hn 0 (by omega)).1 (fun x => (hn 0 (by omega)).2 (by omega)) q1.1 q1.2
  obtain ⟨i2, b2, u2, e2, f2⟩ := coord_pick (1 < dim t) n.2.1 lo.2.1 h.2.1 q.2.1 hh.2.1 (hn 1 (by omega)).1 (fun x => (hn 1 (by omega)).2 (by omega)) q2.1 q2.2
  obtain ⟨i3, b3, u3, e3, f3⟩ := coord_pick (2 < dim t) n.2.2 lo.2.2 h.2.2 q.2.2 hh.2.2 (hn 2 (by omega)).1 (fun x => (hn 2 (by omega)).2 (by omega)) q3.1 q3.2
  refine ⟨(i1, i2, i3), ⟨b1, b2, b3⟩, (u1, u2, u3), fun a ha => ?_, Prod.ext f1 (Prod.ext f2 f3)⟩
  interval_cases a
  · exact e1
  · exact e2
  · exact e3

omit [IsStrictOrderedRing K] in
/-- Cells of different cubes have no common inner points. -/
theorem cubes_apart [IsStrictOrderedRing K] (hh : Pos h) (hn : Layers t n) {P P' : List (List Off)} (hP : UnitTiles K t P) (hP' : UnitTiles K t P') {i i' : Off}
    (hi : i.1 < n.1 ∧ i.2.1 < n.2.1 ∧ i.2.2 < n.2.2) (hi' : i'.1 < n.1 ∧ i'.2.1 < n.2.1 ∧ i'.2.2 < n.2.2) {l l' : List Off} (hl : l ∈ P) (hl' : l' ∈ P')
    {y y' : K × K × K} (he : place lo h i (umap t l y) = place lo h i' (umap t l' y')) (hy : Inner t y) (hy' : Inside t y') : i = i' := by
  have hall : ∀ a < 3, axis a i = axis a i' := by
    intro a ha
    by_cases hd : a < dim t
    · have h1 := hP.inner l hl y hy a hd
      have h2 := hP'.inside l' hl' y' hy' a ha
      rw [if_pos hd] at h2
      exact same_cube _ _ _ _ (place_inj hh he a ha) h1.1 h1.2 h2.1 h2.2
    · have h1 := (hn a ha).2 (by omega)
      have hb : axis a i < axis a n ∧ axis a i' < axis a n := by
        interval_cases a
        · exact ⟨hi.1, hi'.1⟩
        · exact ⟨hi.2.1, hi'.2.1⟩
        · exact ⟨hi.2.2, hi'.2.2⟩
      omega
  exact Prod.ext (hall 0 (by omega)) (Prod.ext (hall 1 (by omega)) (hall 2 (by omega)))

omit [LinearOrder K] [IsStrictOrderedRing K] in
theorem axis_pos (p : Off) (a : Nat) (ha : a < 3) : axis a (pos lo h p) = axis a lo + axis a h * (((axis a p : Nat) : K) / 2) := by
  interval_cases a <;> rfl

omit [LinearOrder K] [IsStrictOrderedRing K] in
theorem axis_far (a : Nat) (ha : a < 3) : axis a (far t n lo h) = axis a lo + axis a h * (if a < dim t then ((axis a n : Nat) : K) else 0) := by
  interval_cases a <;> rfl

theorem axis_at2 (i o : Off) (a : Nat) (ha : a < 3) : axis a (at2 i o) = 2 * axis a i + axis a o := by
  interval_cases a <;> rfl

omit [IsStrictOrderedRing K] in
theorem axis_h (hh : Pos h) (a : Nat) (ha : a < 3) : 0 < axis a h := by
  interval_cases a
  · exact hh.1
  · exact hh.2.1
  · exact hh.2.2

theorem mem_faces (a v : Nat) : (a, v) ∈ faces t ↔ a < dim t ∧ (v = 0 ∨ v = 2) := by
  simp only [faces, List.mem_flatMap, List.mem_range, List.mem_cons, List.not_mem_nil, or_false, Prod.mk.injEq]
  constructor
  · rintro ⟨b, hb, ⟨rfl, rfl⟩ | ⟨rfl, rfl⟩⟩ <;> simp [hb]
  · rintro ⟨h, rfl | rfl⟩
    · exact ⟨a, h, Or.inl ⟨rfl, rfl⟩⟩
    · exact ⟨a, h, Or.inr ⟨rfl, rfl⟩⟩

/-- Sides in the boundary of the box. -/
theorem onBoundary_iff (hh : Pos h) (hg : Good n Ps pat cubes pts num) (hc : checkSides t Ps = true) {i : Off} (hi : i ∈ cubes) {l : List Off}
    (hl : l ∈ pat i) {f : List Nat} (hf : f ∈ facets t) :
    OnBoundary t lo (far t n lo h) (pts.map (pos lo h)) ((side l f).map (num i)).toFinset ↔
      ∃ av ∈ faces t, flat (side l f) av.1 av.2 = true ∧ (axis av.1 i + av.2 = 0 ∨ axis av.1 i + av.2 = axis av.1 n + 1) := by
  obtain ⟨hlen, hoff, hfac⟩ := check_len hc (hg.pats i hi) hl
  have hsub := side_sub l f (hfac f hf).2
  have hm := (hg.mem i).mp hi
  have hd3 : dim t ≤ 3 := by cases t <;> decide
  have hb : ∀ a < 3, axis a i < axis a n := by
    intro a ha
    interval_cases a
    · exact hm.1
    · exact hm.2.1
    · exact hm.2.2
  have ho2 : ∀ o ∈ side l f, ∀ a < 3, axis a o ≤ 2 := by
    intro o ho a ha
    have := hoff o (hsub o ho)
    interval_cases a
    · exact this.1
    · exact this.2.1
    · exact this.2.2
  have hlow : ∀ o ∈ side l f, ∀ a < dim t, axis a ((pts.map (pos lo h)).getD (num i o) 0) = axis a lo ↔ 2 * axis a i + axis a o = 0 := by
    intro o ho a ha
    rw [get_pos hg hi hl (hsub o ho), axis_pos _ _ (show a < 3 by omega), axis_at2 _ _ _ (show a < 3 by omega)]
    have := (axis_h hh a (by omega)).ne'
    constructor
    · intro hx
      have : ((2 * axis a i + axis a o : Nat) : K) = 0 := by
        have hx' : axis a h * (((2 * axis a i + axis a o : Nat) : K) / 2) = 0 := by linarith
        rcases mul_eq_zero.mp hx' with h | h
        · exact absurd h this
        · linarith
      exact_mod_cast this
    · intro hx; rw [hx]; simp
  have hhigh : ∀ o ∈ side l f, ∀ a < dim t, axis a ((pts.map (pos lo h)).getD (num i o) 0) = axis a (far t n lo h) ↔
      2 * axis a i + axis a o = 2 * axis a n := by
    intro o ho a ha
    rw [get_pos hg hi hl (hsub o ho), axis_pos _ _ (show a < 3 by omega), axis_at2 _ _ _ (show a < 3 by omega), axis_far _ (show a < 3 by omega), if_pos ha, add_right_inj,
      mul_right_inj' (axis_h hh a (by omega)).ne', div_eq_iff two_ne_zero]
    constructor
    · intro hx
      have : ((2 * axis a i + axis a o : Nat) : K) = ((axis a n * 2 : Nat) : K) := by rw [hx]; push_cast; rfl
      have := Nat.cast_injective this
      omega
    · intro hx; rw [hx]; push_cast; ring
  unfold OnBoundary
  constructor
  · rintro ⟨a, ha, hx | hx⟩
    · refine ⟨(a, 0), (mem_faces a 0).mpr ⟨ha, Or.inl rfl⟩, ?_, Or.inl ?_⟩
      · simp only [flat, List.all_eq_true, beq_iff_eq]
        intro o ho
        have := (hlow o ho a ha).mp (hx _ (by simp only [List.mem_toFinset, List.mem_map]; exact ⟨o, ho, rfl⟩))
        omega
      · obtain ⟨k, r, hk⟩ := List.exists_cons_of_ne_nil (hfac f hf).1
        have ho : l.getD k (0, 0, 0) ∈ side l f := List.mem_map.mpr ⟨k, by rw [hk]; exact List.mem_cons_self, rfl⟩
        have := (hlow _ ho a ha).mp (hx _ (by simp only [List.mem_toFinset, List.mem_map]; exact ⟨_, ho, rfl⟩))
        simp only; omega
    · have hall : ∀ o ∈ side l f, axis a o = 2 ∧ axis a i + 1 = axis a n := by
        intro o ho
        have h1 := (hhigh o ho a ha).mp (hx _ (by simp only [List.mem_toFinset, List.mem_map]; exact ⟨o, ho, rfl⟩))
        have h2 := ho2 o ho a (by omega)
        have h3 := hb a (by omega)
        omega
      refine ⟨(a, 2), (mem_faces a 2).mpr ⟨ha, Or.inr rfl⟩, ?_, Or.inr ?_⟩
      · simp only [flat, List.all_eq_true, beq_iff_eq]
        exact fun o ho => (hall o ho).1
      · obtain ⟨k, r, hk⟩ := List.exists_cons_of_ne_nil (hfac f hf).1
        have ho : l.getD k (0, 0, 0) ∈ side l f := List.mem_map.mpr ⟨k, by rw [hk]; exact List.mem_cons_self, rfl⟩
        have := (hall _ ho).2
        simp only; omega
  · rintro ⟨⟨a, v⟩, hav, hfl, hx⟩
    obtain ⟨ha, hv⟩ := (mem_faces a v).mp hav
    simp only [flat, List.all_eq_true, beq_iff_eq] at hfl hx
    have h3 := hb a (by omega)
    refine ⟨a, ha, ?_⟩
    rcases hx with hx | hx
    · left
      intro w hw
      simp only [List.mem_toFinset, List.mem_map] at hw
      obtain ⟨o, ho, rfl⟩ := hw
      have := hfl o ho
      exact (hlow o ho a ha).mpr (by omega)
    · right
      intro w hw
      simp only [List.mem_toFinset, List.mem_map] at hw
      obtain ⟨o, ho, rfl⟩ := hw
      have := hfl o ho
      exact (hhigh o ho a ha).mpr (by omega)

theorem pos_inj (hh : Pos h) : Function.Injective (pos lo h) := by
  intro p p' he
  have : ∀ a < 3, axis a p = axis a p' := by
    intro a ha
    have h1 := congrArg (axis a) he
    rw [axis_pos _ _ ha, axis_pos _ _ ha, add_right_inj, mul_right_inj' (axis_h hh a ha).ne', div_left_inj' two_ne_zero] at h1
    exact_mod_cast h1
  exact Prod.ext (this 0 (by omega)) (Prod.ext (this 1 (by omega)) (this 2 (by omega)))

/-- **Meshes made of cubes.** -/
theorem isMesh (hh : Pos h) (hn : Layers t n) (ht : t ≠ .point) (hg : Good n Ps pat cubes pts num) (hc : checkSides t Ps = true)
    (hu : ∀ P ∈ Ps, UnitTiles K t P) (hused : ∀ p ∈ pts, ∃ i ∈ cubes, ∃ l ∈ pat i, ∃ o ∈ l, at2 i o = p) :
    IsMesh t lo (far t n lo h) (pts.map (pos lo h)) (cells pat cubes num) := by
  have hmem : ∀ V ∈ cells pat cubes num, ∃ i ∈ cubes, ∃ l ∈ pat i, V = l.map (num i) := by
    intro V hV
    obtain ⟨i, hi, hV⟩ := List.mem_flatMap.mp hV
    obtain ⟨l, hl, rfl⟩ := List.mem_map.mp hV
    exact ⟨i, hi, l, hl, rfl⟩
  have hmk : ∀ i ∈ cubes, ∀ l ∈ pat i, l.map (num i) ∈ cells pat cubes num := fun i hi l hl =>
    List.mem_flatMap.mpr ⟨i, hi, List.mem_map.mpr ⟨l, hl, rfl⟩⟩
  have hsides : ∀ s ∈ (cells pat cubes num).flatMap (fun V => facetSets (t, V)), ∃ i ∈ cubes, ∃ l ∈ pat i, ∃ f ∈ facets t,
      s = ((side l f).map (num i)).toFinset := by
    intro s hs
    obtain ⟨V, hV, hs⟩ := List.mem_flatMap.mp hs
    obtain ⟨i, hi, l, hl, rfl⟩ := hmem V hV
    obtain ⟨f, hf, rfl⟩ := List.mem_map.mp hs
    exact ⟨i, hi, l, hl, f, hf, part_side _ l f i rfl ((check_len hc (hg.pats i hi) hl).2.2 f hf).2⟩
  refine ⟨?_, ?_, ?_, ?_, ?_, ?_, ?_, ?_, ?_⟩
  · intro V hV
    obtain ⟨i, hi, l, hl, rfl⟩ := hmem V hV
    refine ⟨by rw [List.length_map]; exact (check_len hc (hg.pats i hi) hl).1, ?_, ?_⟩
    · refine List.Nodup.map_on (fun a ha b hb he => ?_) ((hu _ (hg.pats i hi)).nodup l hl)
      have := (num_inj hg hi hi hl hl ha hb).mp he
      simp only [at2, Prod.mk.injEq, Nat.add_left_cancel_iff] at this
      exact Prod.ext this.1 (Prod.ext this.2.1 this.2.2)
    · intro v hv
      obtain ⟨o, ho, rfl⟩ := List.mem_map.mp hv
      rw [List.length_map]
      exact (List.getElem?_eq_some_iff.mp (hg.nums i hi l hl o ho)).1
  · intro V hV y hy
    obtain ⟨i, hi, l, hl, rfl⟩ := hmem V hV
    rw [mapCell_eq hg hc ht hi hl]
    exact place_in hh hn ((hg.mem i).mp hi) ((hu _ (hg.pats i hi)).inside l hl y hy)
  · intro q hq
    obtain ⟨i, hi, u, hu', rfl⟩ := place_cover hh hn hq
    have hi := (hg.mem i).mpr hi
    obtain ⟨l, hl, y, hy, rfl⟩ := (hu _ (hg.pats i hi)).cover u hu'
    exact ⟨_, hmk i hi l hl, y, hy, mapCell_eq hg hc ht hi hl y⟩
  · unfold cells
    rw [List.pairwise_flatMap]
    constructor
    · intro i hi
      rw [List.pairwise_map]
      refine ((hu _ (hg.pats i hi)).apart).imp_of_mem fun {l l'} hl hl' hap y y' he => ?_
      rw [mapCell_eq hg hc ht hi hl, mapCell_eq hg hc ht hi hl'] at he
      exact hap y y' (place_cong hh he)
    · refine hg.nodup.imp_of_mem fun {i i'} hi hi' hne V hV V' hV' y y' he => ?_
      obtain ⟨l, hl, rfl⟩ := List.mem_map.mp hV
      obtain ⟨l', hl', rfl⟩ := List.mem_map.mp hV'
      rw [mapCell_eq hg hc ht hi hl, mapCell_eq hg hc ht hi' hl'] at he
      constructor
      · rintro ⟨a, b⟩
        exact hne (cubes_apart hh hn (hu _ (hg.pats i hi)) (hu _ (hg.pats i' hi')) ((hg.mem i).mp hi) ((hg.mem i').mp hi') hl hl' he a b)
      · rintro ⟨a, b⟩
        exact hne (cubes_apart hh hn (hu _ (hg.pats i' hi')) (hu _ (hg.pats i hi)) ((hg.mem i').mp hi') ((hg.mem i).mp hi) hl' hl he.symm b a).symm
  · intro V hV y y' hy hy' he
    obtain ⟨i, hi, l, hl, rfl⟩ := hmem V hV
    rw [mapCell_eq hg hc ht hi hl, mapCell_eq hg hc ht hi hl] at he
    exact (hu _ (hg.pats i hi)).proper l hl y y' hy hy' (place_cong hh he)
  · intro s hs hbd
    obtain ⟨i, hi, l, hl, f, hf, rfl⟩ := hsides s hs
    obtain ⟨av, hav, hfl, hx⟩ := (onBoundary_iff hh hg hc hi hl hf).mp hbd
    rcases count_side hg hc hi hl hf with ⟨h1, _⟩ | ⟨aw, haw, _, h2, h3⟩
    · rw [h1 av hav] at hfl; cases hfl
    · have := h2 av hav hfl
      subst this
      rw [h3, if_pos hx]
  · intro s hs hbd
    obtain ⟨i, hi, l, hl, f, hf, rfl⟩ := hsides s hs
    rcases count_side hg hc hi hl hf with ⟨_, h1⟩ | ⟨aw, haw, h1, h2, h3⟩
    · exact h1
    · rw [h3, if_neg]
      intro hx
      exact hbd ((onBoundary_iff hh hg hc hi hl hf).mpr ⟨aw, haw, h1, hx⟩)
  · exact hg.ptsNodup.map (pos_inj hh)
  · intro v hv
    rw [List.length_map] at hv
    obtain ⟨i, hi, l, hl, o, ho, he⟩ := hused _ (List.getElem_mem hv)
    refine ⟨_, hmk i hi l hl, List.mem_map.mpr ⟨o, ho, ?_⟩⟩
    have h1 := hg.nums i hi l hl o ho
    rw [he] at h1
    exact ((List.getElem?_inj hv hg.ptsNodup).mp (by rw [h1, List.getElem?_eq_getElem hv])).symm

end Verif.Lattice
