import Verif.Spec.BoxMesh
import Verif.Prelude
import Mathlib.Tactic.FieldSimp
/-!
# Meshes made of equal cubes

Cube `i` has the corners `2 * i + o` with `o` in `{0, 2}³`; other values of `o` are points inside. Each cube is divided by one of
finitely many patterns.
-/
namespace Verif.Lattice
open Verif.Spec.RefCell Verif.Spec.Mixed Verif.Spec.Box
open Verif.Connectivity (CellType)

abbrev Off := Nat × Nat × Nat

/-- A point of cube `i`. -/
def at2 (i o : Off) : Off := (2 * i.1 + o.1, 2 * i.2.1 + o.2.1, 2 * i.2.2 + o.2.2)

/-- The points of a side. -/
def side (l : List Off) (f : List Nat) : List Off := f.map fun k => l.getD k (0, 0, 0)

/-- Points of the cube at `e - 1` from another one. -/
def eqAt (e a b : Off) : Bool := (2 * e.1 + a.1 == 2 + b.1) && (2 * e.2.1 + a.2.1 == 2 + b.2.1) && (2 * e.2.2 + a.2.2 == 2 + b.2.2)

def sameAt (e : Off) (s s0 : List Off) : Bool := (s.all fun a => s0.any fun b => eqAt e a b) && s0.all fun b => s.any fun a => eqAt e a b

/-- Number of sides of the pattern in the cube at `e - 1` that are the side `s0`. -/
def cnt (t : CellType) (P : List (List Off)) (e : Off) (s0 : List Off) : Nat :=
  (P.flatMap fun l => (facets t).map (side l)).countP fun s => sameAt e s s0

def shifts : List Off := [0, 1, 2].flatMap fun a => [0, 1, 2].flatMap fun b => [0, 1, 2].map fun c => (a, b, c)

/-- All points have coordinate `v` in direction `a`. -/
def flat (s : List Off) (a v : Nat) : Bool := s.all fun o => axis a o == v

/-- The neighbouring cube. -/
def nb (a v : Nat) : Off := (if a = 0 then v else 1, if a = 1 then v else 1, if a = 2 then v else 1)

def faces (t : CellType) : List (Nat × Nat) := (List.range (dim t)).flatMap fun a => [(a, 0), (a, 2)]

/-- A side in the cube: two cells of the cube have it, and none of others. -/
def sideIn (t : CellType) (Ps : List (List (List Off))) (P0 : List (List Off)) (s0 : List Off) : Bool :=
  (cnt t P0 (1, 1, 1) s0 == 2) && ((faces t).all fun av => !flat s0 av.1 av.2) &&
    Ps.all fun P => shifts.all fun e => e == (1, 1, 1) || cnt t P e s0 == 0

/-- A side in one side of the cube. -/
def sideOn (t : CellType) (Ps : List (List (List Off))) (P0 : List (List Off)) (s0 : List Off) : Bool :=
  (cnt t P0 (1, 1, 1) s0 == 1) && (faces t).any fun av => flat s0 av.1 av.2 && ((faces t).all fun aw => !flat s0 aw.1 aw.2 || aw == av) &&
    Ps.all fun P => shifts.all fun e => e == (1, 1, 1) || cnt t P e s0 == (if e == nb av.1 av.2 then 1 else 0)

/-- Everything about sides that can be checked for the patterns. -/
def checkSides (t : CellType) (Ps : List (List (List Off))) : Bool :=
  ((facets t).all fun f => f ≠ [] && f.all fun k => k < nverts t) &&
  Ps.all fun P => (P.all fun l => l.length == nverts t && l.all fun o => o.1 ≤ 2 && o.2.1 ≤ 2 && o.2.2 ≤ 2) &&
    P.all fun l => (facets t).all fun f => sideIn t Ps P (side l f) || sideOn t Ps P (side l f)

variable (t : CellType) (n : Off) (Ps : List (List (List Off))) (pat : Off → List (List Off)) (cubes : List Off) (pts : List Off)
  (num : Off → Off → Nat)

/-- The cells. -/
def cells : List (List Nat) := cubes.flatMap fun i => (pat i).map fun l => l.map (num i)

/-- How cubes, points and numbers belong together. -/
structure Good : Prop where
  nodup : cubes.Nodup
  mem : ∀ i, i ∈ cubes ↔ i.1 < n.1 ∧ i.2.1 < n.2.1 ∧ i.2.2 < n.2.2
  pats : ∀ i ∈ cubes, pat i ∈ Ps
  ptsNodup : pts.Nodup
  nums : ∀ i ∈ cubes, ∀ l ∈ pat i, ∀ o ∈ l, pts[num i o]? = some (at2 i o)

variable {t n Ps pat cubes pts num} (hg : Good n Ps pat cubes pts num)

include hg in
theorem num_inj {i i0 : Off} (hi : i ∈ cubes) (hi0 : i0 ∈ cubes) {l l0 : List Off} (hl : l ∈ pat i) (hl0 : l0 ∈ pat i0) {a b : Off} (ha : a ∈ l)
    (hb : b ∈ l0) : num i a = num i0 b ↔ at2 i a = at2 i0 b := by
  have h1 := hg.nums i hi l hl a ha
  have h2 := hg.nums i0 hi0 l0 hl0 b hb
  constructor
  · intro h
    rw [h, h2] at h1
    exact (Option.some.inj h1).symm
  · intro h
    rw [h] at h1
    exact List.getElem?_inj (List.getElem?_eq_some_iff.mp h1).1 hg.ptsNodup |>.mp (h1.trans h2.symm)

/-- The same points. -/
def Same (i : Off) (s : List Off) (i0 : Off) (s0 : List Off) : Prop :=
  (∀ a ∈ s, ∃ b ∈ s0, at2 i a = at2 i0 b) ∧ ∀ b ∈ s0, ∃ a ∈ s, at2 i a = at2 i0 b

theorem eqAt_iff (i i0 e a b : Off) (h1 : i.1 + 1 = i0.1 + e.1) (h2 : i.2.1 + 1 = i0.2.1 + e.2.1) (h3 : i.2.2 + 1 = i0.2.2 + e.2.2) :
    eqAt e a b = true ↔ at2 i a = at2 i0 b := by
  simp only [eqAt, at2, Bool.and_eq_true, beq_iff_eq, Prod.mk.injEq]
  constructor
  · rintro ⟨⟨a1, a2⟩, a3⟩; refine ⟨?_, ?_, ?_⟩ <;> omega
  · rintro ⟨a1, a2, a3⟩; refine ⟨⟨?_, ?_⟩, ?_⟩ <;> omega

theorem sameAt_iff (i i0 e : Off) (s s0 : List Off) (h1 : i.1 + 1 = i0.1 + e.1) (h2 : i.2.1 + 1 = i0.2.1 + e.2.1)
    (h3 : i.2.2 + 1 = i0.2.2 + e.2.2) : sameAt e s s0 = true ↔ Same i s i0 s0 := by
  simp only [sameAt, Bool.and_eq_true, List.all_eq_true, List.any_eq_true, eqAt_iff i i0 e _ _ h1 h2 h3, Same]

/-- Vertex sets of sides are equal if the points are. -/
theorem part_side (V : List Nat) (l : List Off) (f : List Nat) (i : Off) (hV : V = l.map (num i)) (hf : ∀ k ∈ f, k < l.length) :
    part V f = ((side l f).map (num i)).toFinset := by
  subst hV
  ext v
  simp only [part, Finset.mem_image, List.mem_toFinset, side, List.map_map, List.mem_map, Function.comp_apply]
  constructor
  · rintro ⟨k, hk, rfl⟩
    have := hf k hk
    exact ⟨k, hk, by simp [List.getD_eq_getElem?_getD, List.getElem?_eq_getElem this]⟩
  · rintro ⟨k, hk, rfl⟩
    have := hf k hk
    exact ⟨k, hk, by simp [List.getD_eq_getElem?_getD, List.getElem?_eq_getElem this]⟩

theorem side_sub (l : List Off) (f : List Nat) (hf : ∀ k ∈ f, k < l.length) : ∀ o ∈ side l f, o ∈ l := by
  intro o ho
  obtain ⟨k, hk, rfl⟩ := List.mem_map.mp ho
  have := hf k hk
  rw [List.getD_eq_getElem?_getD, List.getElem?_eq_getElem this, Option.getD_some]
  exact List.getElem_mem _

include hg in
theorem set_iff {i i0 : Off} (hi : i ∈ cubes) (hi0 : i0 ∈ cubes) {l l0 : List Off} (hl : l ∈ pat i) (hl0 : l0 ∈ pat i0) (s s0 : List Off)
    (hs : ∀ o ∈ s, o ∈ l) (hs0 : ∀ o ∈ s0, o ∈ l0) : (s.map (num i)).toFinset = (s0.map (num i0)).toFinset ↔ Same i s i0 s0 := by
  have hinj := fun a (ha : a ∈ s) b (hb : b ∈ s0) => num_inj hg hi hi0 hl hl0 (hs a ha) (hs0 b hb)
  constructor
  · intro h
    constructor
    · intro a ha
      have : num i a ∈ (s0.map (num i0)).toFinset := by rw [← h]; simp only [List.mem_toFinset, List.mem_map]; exact ⟨a, ha, rfl⟩
      simp only [List.mem_toFinset, List.mem_map] at this
      obtain ⟨b, hb, he⟩ := this
      exact ⟨b, hb, (hinj a ha b hb).mp he.symm⟩
    · intro b hb
      have : num i0 b ∈ (s.map (num i)).toFinset := by rw [h]; simp only [List.mem_toFinset, List.mem_map]; exact ⟨b, hb, rfl⟩
      simp only [List.mem_toFinset, List.mem_map] at this
      obtain ⟨a, ha, he⟩ := this
      exact ⟨a, ha, (hinj a ha b hb).mp he⟩
  · rintro ⟨h1, h2⟩
    ext v
    simp only [List.mem_toFinset, List.mem_map]
    constructor
    · rintro ⟨a, ha, rfl⟩
      obtain ⟨b, hb, he⟩ := h1 a ha
      exact ⟨b, hb, ((hinj a ha b hb).mpr he).symm⟩
    · rintro ⟨b, hb, rfl⟩
      obtain ⟨a, ha, he⟩ := h2 b hb
      exact ⟨a, ha, (hinj a ha b hb).mpr he⟩

/-- What the check says about a pattern. -/
theorem check_len (hc : checkSides t Ps = true) {P : List (List Off)} (hP : P ∈ Ps) {l : List Off} (hl : l ∈ P) :
    l.length = nverts t ∧ (∀ o ∈ l, o.1 ≤ 2 ∧ o.2.1 ≤ 2 ∧ o.2.2 ≤ 2) ∧ ∀ f ∈ facets t, f ≠ [] ∧ ∀ k ∈ f, k < l.length := by
  simp only [checkSides, Bool.and_eq_true, List.all_eq_true, decide_eq_true_eq, beq_iff_eq] at hc
  have := (hc.2 P hP).1 l hl
  refine ⟨this.1, fun o ho => ?_, fun f hf => ⟨by simpa using (hc.1 f hf).1, fun k hk => ?_⟩⟩
  · have := this.2 o ho
    exact ⟨this.1.1, this.1.2, this.2⟩
  · rw [this.1]; exact (hc.1 f hf).2 k hk

theorem check_side (hc : checkSides t Ps = true) {P : List (List Off)} (hP : P ∈ Ps) {l : List Off} (hl : l ∈ P) {f : List Nat} (hf : f ∈ facets t) :
    sideIn t Ps P (side l f) = true ∨ sideOn t Ps P (side l f) = true := by
  simp only [checkSides, Bool.and_eq_true, List.all_eq_true] at hc
  have := (hc.2 P hP).2 l hl f hf
  simpa [Bool.or_eq_true] using this

/-- Sides of a cube. -/
def cubeSides (t : CellType) (pat : Off → List (List Off)) (num : Off → Off → Nat) (i : Off) : List (Finset Nat) :=
  ((pat i).map fun l => l.map (num i)).flatMap fun V => facetSets (t, V)

theorem flat_sides : (cells pat cubes num).flatMap (fun V => facetSets (t, V)) = cubes.flatMap (cubeSides t pat num) := by
  unfold cells
  rw [List.flatMap_assoc]
  rfl

theorem mem_shifts (e : Off) (h1 : e.1 ≤ 2) (h2 : e.2.1 ≤ 2) (h3 : e.2.2 ≤ 2) : e ∈ shifts := by
  obtain ⟨a, b, c⟩ := e
  have h1 : a ≤ 2 := h1
  have h2 : b ≤ 2 := h2
  have h3 : c ≤ 2 := h3
  simp only [shifts, List.mem_flatMap, List.mem_map]
  exact ⟨a, by interval_cases a <;> simp, b, by interval_cases b <;> simp, c, by interval_cases c <;> simp, rfl⟩

include hg in
/-- How often a side occurs in another cube. -/
theorem count_cube (hc : checkSides t Ps = true) {i i0 : Off} (hi : i ∈ cubes) (hi0 : i0 ∈ cubes) {l0 : List Off} (hl0 : l0 ∈ pat i0)
    {f0 : List Nat} (hf0 : f0 ∈ facets t) :
    (∀ e : Off, i.1 + 1 = i0.1 + e.1 → i.2.1 + 1 = i0.2.1 + e.2.1 → i.2.2 + 1 = i0.2.2 + e.2.2 →
      (cubeSides t pat num i).count (((side l0 f0).map (num i0)).toFinset) = cnt t (pat i) e (side l0 f0)) ∧
    ((¬ ∃ e ∈ shifts, i.1 + 1 = i0.1 + e.1 ∧ i.2.1 + 1 = i0.2.1 + e.2.1 ∧ i.2.2 + 1 = i0.2.2 + e.2.2) →
      (cubeSides t pat num i).count (((side l0 f0).map (num i0)).toFinset) = 0) := by
  have hP := hg.pats i hi
  have hP0 := hg.pats i0 hi0
  obtain ⟨hlen0, hoff0, hfac0⟩ := check_len hc hP0 hl0
  have hform : cubeSides t pat num i = ((pat i).flatMap fun l => (facets t).map (side l)).map fun s => (s.map (num i)).toFinset := by
    unfold cubeSides facetSets
    rw [List.map_flatMap, List.flatMap_map]
    refine List.flatMap_congr fun l hl => ?_
    rw [List.map_map]
    refine List.map_congr_left fun f hf => ?_
    exact part_side _ l f i rfl ((check_len hc hP hl).2.2 f hf).2
  have hmem : ∀ s ∈ (pat i).flatMap fun l => (facets t).map (side l), (s.map (num i)).toFinset = ((side l0 f0).map (num i0)).toFinset ↔
      Same i s i0 (side l0 f0) := by
    intro s hs
    obtain ⟨l, hl, hs⟩ := List.mem_flatMap.mp hs
    obtain ⟨f, hf, rfl⟩ := List.mem_map.mp hs
    exact set_iff hg hi hi0 hl hl0 _ _ (side_sub l f ((check_len hc hP hl).2.2 f hf).2) (side_sub l0 f0 (hfac0 f0 hf0).2)
  constructor
  · intro e h1 h2 h3
    rw [hform, List.count_eq_countP, List.countP_map, cnt]
    refine List.countP_congr fun s hs => ?_
    rw [sameAt_iff i i0 e s _ h1 h2 h3]
    simp only [Function.comp_apply, beq_iff_eq]
    exact hmem s hs
  · intro hne
    rw [hform, List.count_eq_zero]
    intro hx
    obtain ⟨s, hs, he⟩ := List.mem_map.mp hx
    have hsame := (hmem s hs).mp he
    obtain ⟨l, hl, hs'⟩ := List.mem_flatMap.mp hs
    obtain ⟨f, hf, rfl⟩ := List.mem_map.mp hs'
    have hl' := check_len hc hP hl
    obtain ⟨k, r, hk⟩ := List.exists_cons_of_ne_nil (hl'.2.2 f hf).1
    obtain ⟨b, hb, heq⟩ := hsame.1 (l.getD k (0, 0, 0)) (List.mem_map.mpr ⟨k, by rw [hk]; exact List.mem_cons_self, rfl⟩)
    have ha := hl'.2.1 _ (side_sub l f (hl'.2.2 f hf).2 _ (List.mem_map.mpr ⟨k, by rw [hk]; exact List.mem_cons_self, rfl⟩))
    have hb' := hoff0 b (side_sub l0 f0 (hfac0 f0 hf0).2 b hb)
    generalize l.getD k (0, 0, 0) = a at ha heq
    simp only [at2, Prod.mk.injEq] at heq
    refine hne ⟨(i.1 + 1 - i0.1, i.2.1 + 1 - i0.2.1, i.2.2 + 1 - i0.2.2), mem_shifts _ ?_ ?_ ?_, ?_, ?_, ?_⟩ <;> simp only <;> omega

theorem sum_one {α : Type} [DecidableEq α] (l : List α) (h : l.Nodup) (a : α) (k : Nat) (c : α → Nat) (hc : ∀ x ∈ l, c x = if x = a then k else 0) :
    (l.map c).sum = if a ∈ l then k else 0 := by
  induction l with
  | nil => rfl
  | cons b l ih =>
    obtain ⟨hb, hl⟩ := List.nodup_cons.mp h
    rw [List.map_cons, List.sum_cons, ih hl fun x hx => hc x (List.mem_cons_of_mem _ hx), hc b List.mem_cons_self]
    by_cases hba : b = a
    · subst hba
      simp [hb]
    · have : a ∈ b :: l ↔ a ∈ l := by simp [Ne.symm hba]
      rw [if_neg hba, zero_add]
      simp only [this]

theorem sum_two {α : Type} [DecidableEq α] (l : List α) (h : l.Nodup) (a b : α) (hab : a ≠ b) (k k' : Nat) (c : α → Nat)
    (hc : ∀ x ∈ l, c x = if x = a then k else if x = b then k' else 0) :
    (l.map c).sum = (if a ∈ l then k else 0) + if b ∈ l then k' else 0 := by
  have h1 := sum_one l h a k (fun x => if x = a then k else 0) (fun _ _ => rfl)
  have h2 := sum_one l h b k' (fun x => if x = b then k' else 0) (fun _ _ => rfl)
  rw [← h1, ← h2]
  clear h1 h2 h
  induction l with
  | nil => rfl
  | cons x l ih =>
    simp only [List.map_cons, List.sum_cons]
    rw [ih fun y hy => hc y (List.mem_cons_of_mem _ hy), hc x List.mem_cons_self]
    by_cases hx : x = a
    · subst hx
      simp [hab]; omega
    · simp [hx]; omega

include hg in
theorem count_sum (s : Finset Nat) : ((cells pat cubes num).flatMap fun V => facetSets (t, V)).count s =
    (cubes.map fun i => (cubeSides t pat num i).count s).sum := by
  rw [flat_sides, List.count_flatMap]
  rfl

include hg in
/-- Sides of a cube: how often they occur in the whole mesh. -/
theorem count_side (hc : checkSides t Ps = true) {i0 : Off} (hi0 : i0 ∈ cubes) {l0 : List Off} (hl0 : l0 ∈ pat i0) {f0 : List Nat} (hf0 : f0 ∈ facets t) :
    ((∀ av ∈ faces t, flat (side l0 f0) av.1 av.2 = false) ∧
      ((cells pat cubes num).flatMap fun V => facetSets (t, V)).count (((side l0 f0).map (num i0)).toFinset) = 2) ∨
    (∃ av ∈ faces t, flat (side l0 f0) av.1 av.2 = true ∧ (∀ aw ∈ faces t, flat (side l0 f0) aw.1 aw.2 = true → aw = av) ∧
      ((cells pat cubes num).flatMap fun V => facetSets (t, V)).count (((side l0 f0).map (num i0)).toFinset) =
        1 + if (axis av.1 i0 + av.2 = 0 ∨ axis av.1 i0 + av.2 = axis av.1 n + 1) then 0 else 1) := by
  rw [count_sum hg]
  have hself := (count_cube hg hc hi0 hi0 hl0 hf0).1 (1, 1, 1) rfl rfl rfl
  rcases check_side hc (hg.pats i0 hi0) hl0 hf0 with h | h
  · left
    simp only [sideIn, Bool.and_eq_true, beq_iff_eq, List.all_eq_true, Bool.not_eq_true', Bool.or_eq_true] at h
    obtain ⟨⟨h1, h2⟩, h3⟩ := h
    refine ⟨h2, ?_⟩
    rw [sum_one cubes hg.nodup i0 2 _ fun i hi => ?_, if_pos hi0]
    by_cases hii : i = i0
    · subst hii
      rw [if_pos rfl, hself, h1]
    · rw [if_neg hii]
      obtain ⟨c1, c2⟩ := count_cube hg hc hi hi0 hl0 hf0
      by_cases he : ∃ e ∈ shifts, i.1 + 1 = i0.1 + e.1 ∧ i.2.1 + 1 = i0.2.1 + e.2.1 ∧ i.2.2 + 1 = i0.2.2 + e.2.2
      · obtain ⟨e, hs, e1, e2, e3⟩ := he
        rw [c1 e e1 e2 e3]
        rcases h3 _ (hg.pats i hi) e hs with h | h
        · subst h
          exact absurd (Prod.ext (by simpa using e1) (Prod.ext (by simpa using e2) (by simpa using e3))) hii
        · exact h
      · exact c2 he
  · right
    simp only [sideOn, Bool.and_eq_true, beq_iff_eq, List.all_eq_true, List.any_eq_true, Bool.not_eq_true', Bool.or_eq_true] at h
    obtain ⟨h1, av, hav, ⟨h2, h3⟩, h4⟩ := h
    refine ⟨av, hav, h2, fun aw haw hfl => ?_, ?_⟩
    · rcases h3 aw haw with h | h
      · rw [h] at hfl; cases hfl
      · exact h
    -- the neighbour
    have hval : ∀ i ∈ cubes, i ≠ i0 → (cubeSides t pat num i).count (((side l0 f0).map (num i0)).toFinset) =
        if (i.1 + 1, i.2.1 + 1, i.2.2 + 1) = (i0.1 + (nb av.1 av.2).1, i0.2.1 + (nb av.1 av.2).2.1, i0.2.2 + (nb av.1 av.2).2.2) then 1 else 0 := by
      intro i hi hii
      obtain ⟨c1, c2⟩ := count_cube hg hc hi hi0 hl0 hf0
      by_cases he : ∃ e ∈ shifts, i.1 + 1 = i0.1 + e.1 ∧ i.2.1 + 1 = i0.2.1 + e.2.1 ∧ i.2.2 + 1 = i0.2.2 + e.2.2
      · obtain ⟨e, hs, e1, e2, e3⟩ := he
        rw [c1 e e1 e2 e3]
        rcases h4 _ (hg.pats i hi) e hs with h | h
        · subst h
          exact absurd (Prod.ext (by simpa using e1) (Prod.ext (by simpa using e2) (by simpa using e3))) hii
        · rw [h]
          congr 1
          rw [e1, e2, e3, eq_iff_iff]
          simp only [Prod.mk.injEq, Nat.add_left_cancel_iff]
          constructor
          · rintro rfl; exact ⟨rfl, rfl, rfl⟩
          · rintro ⟨a1, a2, a3⟩; exact Prod.ext a1 (Prod.ext a2 a3)
      · rw [c2 he, if_neg]
        intro hx
        simp only [Prod.mk.injEq] at hx
        refine he ⟨nb av.1 av.2, ?_, hx⟩
        have hv : av.2 ≤ 2 := by
          simp only [faces, List.mem_flatMap, List.mem_range] at hav
          obtain ⟨a, _, hav⟩ := hav
          rcases List.mem_cons.mp hav with rfl | hav
          · simp
          · rw [List.mem_singleton] at hav; subst hav; simp
        refine mem_shifts _ ?_ ?_ ?_ <;> simp only [nb] <;> split <;> omega
    have hdim : av.1 < 3 := by
      simp only [faces, List.mem_flatMap, List.mem_range] at hav
      obtain ⟨a, ha, hav⟩ := hav
      have : dim t ≤ 3 := by cases t <;> decide
      rcases List.mem_cons.mp hav with rfl | hav
      · show a < 3; omega
      · rw [List.mem_singleton] at hav; subst hav; show a < 3; omega
    have hv2 : av.2 = 0 ∨ av.2 = 2 := by
      simp only [faces, List.mem_flatMap, List.mem_range] at hav
      obtain ⟨a, ha, hav⟩ := hav
      rcases List.mem_cons.mp hav with rfl | hav
      · exact Or.inl rfl
      · rw [List.mem_singleton] at hav; subst hav; exact Or.inr rfl
    have hm0 := (hg.mem i0).mp hi0
    have h111 : (nb av.1 av.2) ≠ (1, 1, 1) := by
      obtain ⟨a, v⟩ := av
      have hdim : a < 3 := hdim
      have hv2 : v = 0 ∨ v = 2 := hv2
      rcases hv2 with rfl | rfl <;> interval_cases a <;> decide
    by_cases hex : axis av.1 i0 + av.2 = 0 ∨ axis av.1 i0 + av.2 = axis av.1 n + 1
    · rw [if_pos hex, sum_one cubes hg.nodup i0 1 _ fun i hi => ?_, if_pos hi0]
      by_cases hii : i = i0
      · subst hii; rw [if_pos rfl, hself, h1]
      · rw [if_neg hii, hval i hi hii, if_neg]
        intro hx
        simp only [Prod.mk.injEq, nb] at hx
        have hm := (hg.mem i).mp hi
        obtain ⟨a, v⟩ := av
        have hdim : a < 3 := hdim
        interval_cases a <;> simp [axis] at hex hx <;> omega
    · rw [if_neg hex]
      obtain ⟨i1, hi1, hq⟩ : ∃ i1 ∈ cubes, (i1.1 + 1, i1.2.1 + 1, i1.2.2 + 1) =
          (i0.1 + (nb av.1 av.2).1, i0.2.1 + (nb av.1 av.2).2.1, i0.2.2 + (nb av.1 av.2).2.2) := by
        refine ⟨(i0.1 + (nb av.1 av.2).1 - 1, i0.2.1 + (nb av.1 av.2).2.1 - 1, i0.2.2 + (nb av.1 av.2).2.2 - 1), (hg.mem _).mpr ?_, ?_⟩
        · obtain ⟨a, v⟩ := av
          have hdim : a < 3 := hdim
          have hv2 : v = 0 ∨ v = 2 := hv2
          rcases hv2 with rfl | rfl <;> interval_cases a <;> simp [axis, nb] at hex ⊢ <;> omega
        · obtain ⟨a, v⟩ := av
          have hdim : a < 3 := hdim
          have hv2 : v = 0 ∨ v = 2 := hv2
          rcases hv2 with rfl | rfl <;> interval_cases a <;> simp [axis, nb] at hex ⊢ <;> omega
      have hne : i0 ≠ i1 := by
        rintro rfl
        simp only [Prod.mk.injEq, Nat.add_left_cancel_iff] at hq
        exact h111 (Prod.ext hq.1.symm (Prod.ext hq.2.1.symm hq.2.2.symm))
      rw [sum_two cubes hg.nodup i0 i1 hne 1 1 _ fun i hi => ?_, if_pos hi0, if_pos hi1]
      by_cases hii : i = i0
      · subst hii; rw [if_pos rfl, hself, h1]
      · rw [if_neg hii, hval i hi hii, ← hq]
        congr 1
        simp only [Prod.mk.injEq, Nat.add_right_cancel_iff, eq_iff_iff]
        constructor
        · rintro ⟨a1, a2, a3⟩; exact Prod.ext a1 (Prod.ext a2 a3)
        · rintro rfl; exact ⟨rfl, rfl, rfl⟩

end Verif.Lattice
