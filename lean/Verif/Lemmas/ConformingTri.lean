import Verif.Lemmas.Conforming
import Mathlib.Tactic.FieldSimp
/-! Triangles. -/
namespace Verif.Refine
open Verif.Spec.Conform Verif.Spec.Subdiv

/-- New edges on edge `f`. -/
def triPatt (m : List Bool) (f : Nat) : List (List Nat) :=
  if m.getD f false then [[3 + f, (f + 1) % 3], [3 + f, (f + 2) % 3]] else [[(f + 1) % 3, (f + 2) % 3]]

def triCarrierAll (s : List Nat) : Bool := (List.range 3).all fun v => s.any fun i => (triEnds i).contains v

def triOkCell (m : List Bool) (t : List Nat) : Bool :=
  t.length == 3 && t.Nodup && t.all fun i => decide (i < 3) || (decide (i < 6) && m.getD (i - 3) false)

def triGood (m : List Bool) (le : Nat) (u : Bool) : Bool :=
  let T := triCells m le u
  decide (T.length ≤ 4) && T.all (triOkCell m) &&
  ((List.range 3).all fun f => (triPatt m f).all fun s => T.countP (sub s) == 1) &&
  (T.all fun t => t.all fun p =>
    let s := t.erase p
    ((List.range 3).any fun f => (triPatt m f).any fun s' => sub s s' && sub s' s) || (triCarrierAll s && T.countP (sub s) == 2))

theorem tri_all_good : ((List.range 3).all fun le => (boolLists 3).all fun m => [true, false].all fun u =>
    !(!m.any id || m.getD le false) || triGood m le u) = true := by decide +kernel

theorem triGood_of (m : List Bool) (le : Nat) (u : Bool) (hm : m.length = 3) (hle : le < 3)
    (hc : m.any id = true → m.getD le false = true) : triGood m le u = true := by
  have h1 := List.all_eq_true.mp tri_all_good le (List.mem_range.mpr hle)
  have h2 := List.all_eq_true.mp h1 m (hm ▸ mem_boolLists m)
  have h3 := List.all_eq_true.mp h2 u (by cases u <;> simp)
  have h4 : (!m.any id || m.getD le false) = true := by
    cases h : m.any id with
    | false => rfl
    | true => rw [hc h]; rfl
  rw [h4] at h3
  simpa using h3

/-- What `triGood` says. -/
structure GoodTri (m : List Bool) (le : Nat) (u : Bool) : Prop where
  len : (triCells m le u).length ≤ 4
  cells : ∀ t ∈ triCells m le u, t.length = 3 ∧ t.Nodup ∧ ∀ i ∈ t, i < 3 ∨ (i < 6 ∧ m.getD (i - 3) false = true)
  one : ∀ f < 3, ∀ s ∈ triPatt m f, (triCells m le u).countP (sub s) = 1
  facet : ∀ t ∈ triCells m le u, ∀ p ∈ t, (∃ f < 3, ∃ s ∈ triPatt m f, t.erase p ⊆ s ∧ s ⊆ t.erase p) ∨
    ((∀ w < 3, ∃ i ∈ t.erase p, w ∈ triEnds i) ∧ (triCells m le u).countP (sub (t.erase p)) = 2)

theorem goodTri (m : List Bool) (le : Nat) (u : Bool) (h : triGood m le u = true) : GoodTri m le u := by
  unfold triGood at h
  simp only [Bool.and_eq_true] at h
  obtain ⟨⟨⟨h2, h3⟩, h4⟩, h5⟩ := h
  refine ⟨of_decide_eq_true h2, ?_, ?_, ?_⟩
  · intro t ht
    have := List.all_eq_true.mp h3 t ht
    unfold triOkCell at this
    simp only [Bool.and_eq_true, beq_iff_eq, decide_eq_true_eq, List.all_eq_true, Bool.or_eq_true] at this
    exact ⟨this.1.1, this.1.2, this.2⟩
  · intro f hf s hs
    have := List.all_eq_true.mp (List.all_eq_true.mp h4 f (List.mem_range.mpr hf)) s hs
    simpa using this
  · intro t ht p hp
    have := List.all_eq_true.mp (List.all_eq_true.mp h5 t ht) p hp
    simp only [Bool.or_eq_true, Bool.and_eq_true, List.any_eq_true, List.mem_range, beq_iff_eq] at this
    rcases this with ⟨f, hf, s, hs, h6, h7⟩ | ⟨h6, h7⟩
    · exact Or.inl ⟨f, hf, s, hs, (sub_iff _ _).mp h6, (sub_iff _ _).mp h7⟩
    · right
      refine ⟨?_, h7⟩
      intro w hw
      unfold triCarrierAll at h6
      have := List.all_eq_true.mp h6 w (List.mem_range.mpr hw)
      obtain ⟨i, hi, hc⟩ := List.any_eq_true.mp this
      exact ⟨i, hi, List.contains_iff_mem.mp hc⟩

section Tri
variable {V : Type} [DecidableEq V]

theorem triEnds_lt (i : Nat) : ∀ j ∈ triEnds i, j < 3 := by
  by_cases h : i < 6
  · interval_cases i <;> decide
  · have : triEnds i = [] := by
      unfold triEnds
      rw [List.getD_eq_getElem?_getD, List.getElem?_eq_none (by simpa using h)]; rfl
    rw [this]; simp

theorem image_inj3 {v : Nat → V} (hv : Inj3 v) (s t : Finset Nat) (hs : ∀ i ∈ s, i < 3) (ht : ∀ i ∈ t, i < 3)
    (h : s.image v = t.image v) : s = t := by
  have key : ∀ (s t : Finset Nat), (∀ i ∈ s, i < 3) → (∀ i ∈ t, i < 3) → s.image v = t.image v → s ⊆ t := by
    intro s t hs ht h i hi
    have : v i ∈ t.image v := by rw [← h]; exact Finset.mem_image_of_mem _ hi
    obtain ⟨j, hj, hji⟩ := Finset.mem_image.mp this
    rw [← hv j (ht j hj) i (hs i hi) hji]; exact hj
  exact Finset.Subset.antisymm (key s t hs ht h) (key t s ht hs h.symm)

theorem triEnds_inj : ∀ i < 6, ∀ j < 6, (triEnds i).toFinset = (triEnds j).toFinset → i = j := by decide

theorem triPt_inj {v : Nat → V} (hv : Inj3 v) (i j : Nat) (hi : i < 6) (hj : j < 6) (h : triPt v i = triPt v j) : i = j :=
  triEnds_inj i hi j hj (image_inj3 hv _ _ (by simpa using triEnds_lt i) (by simpa using triEnds_lt j) h)

theorem tri_sub_iff {v : Nat → V} (hv : Inj3 v) (s t : List Nat) (hs : ∀ i ∈ s, i < 6) (ht : ∀ i ∈ t, i < 6) :
    s.toFinset.image (triPt v) ⊆ t.toFinset.image (triPt v) ↔ sub s t = true := by
  rw [sub_iff]
  constructor
  · intro h i hi
    have := h (Finset.mem_image_of_mem _ (List.mem_toFinset.mpr hi))
    obtain ⟨j, hj, hji⟩ := Finset.mem_image.mp this
    rw [← triPt_inj hv j i (ht j (List.mem_toFinset.mp hj)) (hs i hi) hji]
    exact List.mem_toFinset.mp hj
  · intro h
    apply Finset.image_subset_image
    intro i hi
    exact List.mem_toFinset.mpr (h (List.mem_toFinset.mp hi))

theorem triPt_vertex (v : Nat → V) (i : Nat) (hi : i < 3) : triPt v i = {v i} := by
  unfold triPt; interval_cases i <;> simp [triEnds]

theorem triFacet_eq (v : Nat → V) (f : Nat) (hf : f < 3) : triFacet v f = {v ((f + 1) % 3), v ((f + 2) % 3)} := by
  unfold triFacet triPt; interval_cases f <;> simp [triEnds, Finset.pair_comm]

theorem triMarks_get (R : Rule V) (v : Nat → V) (e : Nat) (he : e < 3) : (triMarks R v).getD e false = R.mark (triFacet v e) := by
  unfold triMarks
  rw [List.getD_eq_getElem?_getD, List.getElem?_map, List.getElem?_range he]; rfl

theorem edgePart_iff (R : Rule V) (v : Nat → V) (f : Nat) (hf : f < 3) (S : Finset (Finset V)) :
    EdgePart R (triFacet v f) S ↔ ∃ s ∈ triPatt (triMarks R v) f, S = s.toFinset.image (triPt v) := by
  unfold EdgePart triPatt
  rw [triMarks_get R v f hf]
  have e1 := triPt_vertex v ((f + 1) % 3) (by omega)
  have e2 := triPt_vertex v ((f + 2) % 3) (by omega)
  have e3 := triFacet_eq v f hf
  cases hm : R.mark (triFacet v f) with
  | false =>
    simp [e1, e2, e3]
  | true =>
    simp [e1, e2, e3, ← show triFacet v f = triPt v (3 + f) from rfl]

theorem tri_subset_facet {v : Nat → V} (hv : Inj3 v) (F : Finset V) (hF : F ⊆ triVerts v) (hc : F.card = 2) : ∃ f < 3, F = triFacet v f := by
  obtain ⟨x, y, hxy, rfl⟩ := Finset.card_eq_two.mp hc
  have hx := hF (by simp : x ∈ ({x, y} : Finset V))
  have hy := hF (by simp : y ∈ ({x, y} : Finset V))
  obtain ⟨i, hi, rfl⟩ := Finset.mem_image.mp hx
  obtain ⟨j, hj, rfl⟩ := Finset.mem_image.mp hy
  simp only [List.mem_toFinset, List.mem_range] at hi hj
  have hij : i ≠ j := fun h => hxy (by rw [h])
  refine ⟨3 - i - j, by omega, ?_⟩
  rw [triFacet_eq v _ (by omega)]
  interval_cases i <;> interval_cases j <;> first | omega | simp [Finset.pair_comm]

theorem tri_carrier_image (v : Nat → V) (s : List Nat) (x : V) :
    x ∈ carrier (s.toFinset.image (triPt v)) ↔ ∃ i ∈ s, ∃ j ∈ triEnds i, v j = x := by
  unfold carrier
  simp only [Finset.mem_biUnion, Finset.mem_image, List.mem_toFinset, id]
  constructor
  · rintro ⟨_, ⟨i, hi, rfl⟩, hx⟩
    unfold triPt at hx
    obtain ⟨j, hj, rfl⟩ := Finset.mem_image.mp hx
    exact ⟨i, hi, j, List.mem_toFinset.mp hj, rfl⟩
  · rintro ⟨i, hi, j, hj, rfl⟩
    exact ⟨_, ⟨i, hi, rfl⟩, Finset.mem_image_of_mem _ (List.mem_toFinset.mpr hj)⟩

theorem triPatt_lt (m : List Bool) (f : Nat) (hf : f < 3) : ∀ s ∈ triPatt m f, ∀ i ∈ s, i < 6 := by
  intro s hs i hi
  unfold triPatt at hs
  split at hs
  · simp only [List.mem_cons, List.not_mem_nil, or_false] at hs
    rcases hs with rfl | rfl <;> simp only [List.mem_cons, List.not_mem_nil, or_false] at hi <;> omega
  · simp only [List.mem_singleton] at hs
    subst hs
    simp only [List.mem_cons, List.not_mem_nil, or_false] at hi
    omega

theorem edgePart_carrier (R : Rule V) (F : Finset V) (S : Finset (Finset V)) (h : EdgePart R F S) : carrier S = F := by
  rcases h with ⟨_, rfl⟩ | ⟨_, x, hx, rfl⟩
  · ext y; simp [carrier]
  · ext y
    simp only [carrier, Finset.mem_biUnion, Finset.mem_insert, Finset.mem_singleton, id, exists_eq_or_imp, exists_eq_left]
    constructor
    · rintro (h | rfl)
      · exact h
      · exact hx
    · intro h; exact Or.inl h

theorem tri_erase_image {v : Nat → V} (hv : Inj3 v) (t : List Nat) (hn : t.Nodup) (ht : ∀ i ∈ t, i < 6) (i : Nat) (hi : i ∈ t) :
    (t.toFinset.image (triPt v)).erase (triPt v i) = (t.erase i).toFinset.image (triPt v) := by
  ext P
  simp only [Finset.mem_erase, Finset.mem_image, List.mem_toFinset]
  constructor
  · rintro ⟨hne, j, hj, rfl⟩
    exact ⟨j, (List.Nodup.mem_erase_iff hn).mpr ⟨fun h => hne (by rw [h]), hj⟩, rfl⟩
  · rintro ⟨j, hj, rfl⟩
    obtain ⟨h1, h2⟩ := (List.Nodup.mem_erase_iff hn).mp hj
    exact ⟨fun h => h1 (triPt_inj hv j i (ht j h2) (ht i hi) h), j, h2, rfl⟩

theorem triLong_get (R : Rule V) {v : Nat → V} (hv : Inj3 v) (hl : TriLong R v) :
    triLong R v < 3 ∧ triFacet v (triLong R v) = R.long (triVerts v) := by
  obtain ⟨f, hf, hfe⟩ := tri_subset_facet hv _ hl.1 hl.2
  unfold triLong
  cases h : (List.range 3).find? fun e => decide (triFacet v e = R.long (triVerts v)) with
  | none => exact absurd (decide_eq_true hfe.symm) (by simpa using List.find?_eq_none.mp h f (List.mem_range.mpr hf))
  | some e =>
    have h1 := List.find?_some h
    rw [decide_eq_true_eq] at h1
    exact ⟨List.mem_range.mp (List.mem_of_find?_eq_some h), h1⟩

theorem triFacet_sub {v : Nat → V} (hv : Inj3 v) (f : Nat) (hf : f < 3) : triFacet v f ⊆ triVerts v ∧ (triFacet v f).card = 2 := by
  rw [triFacet_eq v f hf]
  constructor
  · intro x hx
    simp only [Finset.mem_insert, Finset.mem_singleton] at hx
    unfold triVerts
    rcases hx with rfl | rfl <;>
      exact Finset.mem_image_of_mem _ (List.mem_toFinset.mpr (List.mem_range.mpr (by omega)))
  · rw [Finset.card_pair]
    intro h
    have := hv _ (by omega) _ (by omega) h
    omega

theorem tri_good (R : Rule V) {v : Nat → V} (hv : Inj3 v) (hl : TriLong R v) (hc : Closed R (triVerts v)) (u : Bool) :
    triGood (triMarks R v) (triLong R v) u = true := by
  obtain ⟨h1, h2⟩ := triLong_get R hv hl
  refine triGood_of _ _ _ (by simp [triMarks]) h1 ?_
  intro hany
  obtain ⟨b, hb, hbt⟩ := List.any_eq_true.mp hany
  unfold triMarks at hb
  obtain ⟨e, he, rfl⟩ := List.mem_map.mp hb
  have he := List.mem_range.mp he
  rw [triMarks_get R v _ h1, h2]
  exact hc _ (triFacet_sub hv e he).1 (triFacet_sub hv e he).2 hbt

theorem tri_local (R : Rule V) (u : (Nat → V) → Bool) (cells : List (Nat → V)) (hv : ∀ v ∈ cells, Inj3 v)
    (hl : ∀ v ∈ cells, TriLong R v) (hc : ∀ v ∈ cells, Closed R (triVerts v)) :
    LocalOK 2 cells triVerts (triKids R u) (EdgePart R) := by
  have hgood := fun v hm => goodTri _ _ _ (tri_good R (hv v hm) (hl v hm) (hc v hm) (u v))
  have hlt : ∀ v (hm : v ∈ cells), ∀ t ∈ triCells (triMarks R v) (triLong R v) (u v), ∀ i ∈ t, i < 6 := by
    intro v hm t ht i hi
    rcases ((hgood v hm).cells t ht).2.2 i hi with h | h
    · omega
    · exact h.1
  have hcount : ∀ v (hm : v ∈ cells), ∀ s : List Nat, (∀ i ∈ s, i < 6) →
      (triKids R u v).countP (fun K => decide (s.toFinset.image (triPt v) ⊆ K)) =
        (triCells (triMarks R v) (triLong R v) (u v)).countP (sub s) := by
    intro v hm s hs
    unfold triKids
    rw [List.countP_map]
    refine List.countP_congr fun t ht => ?_
    simp only [Function.comp, decide_eq_true_eq]
    exact tri_sub_iff (hv v hm) s t hs (hlt v hm t ht)
  refine ⟨?_, ?_, ?_, ?_, ?_⟩
  · intro v hm
    unfold triVerts
    rw [Finset.card_image_of_injOn]
    · rfl
    · intro i hi j hj h
      simp only [Finset.mem_coe, List.mem_toFinset, List.mem_range] at hi hj
      exact hv v hm i hi j hj h
  · intro v hm F hF hFc S hS
    obtain ⟨f, hf, rfl⟩ := tri_subset_facet (hv v hm) F hF hFc
    obtain ⟨s, hs, rfl⟩ := (edgePart_iff R v f hf S).mp hS
    rw [hcount v hm s (triPatt_lt _ f hf s hs)]
    exact (hgood v hm).one f hf s hs
  · intro v hm F hF hFc S hS
    exact edgePart_carrier R F S hS
  · intro v hm K hK
    unfold triKids at hK
    obtain ⟨t, ht, rfl⟩ := List.mem_map.mp hK
    intro x hx
    obtain ⟨i, hi, j, hj, rfl⟩ := (tri_carrier_image v t x).mp hx
    unfold triVerts
    exact Finset.mem_image_of_mem _ (List.mem_toFinset.mpr (List.mem_range.mpr (triEnds_lt i j hj)))
  · intro v hm K hK p hp
    unfold triKids at hK
    obtain ⟨t, ht, rfl⟩ := List.mem_map.mp hK
    obtain ⟨i, hi, rfl⟩ := Finset.mem_image.mp hp
    have hi := List.mem_toFinset.mp hi
    obtain ⟨_, hn, _⟩ := (hgood v hm).cells t ht
    have her : ∀ j ∈ t.erase i, j < 6 := fun j hj => hlt v hm t ht j (List.mem_of_mem_erase hj)
    rw [tri_erase_image (hv v hm) t hn (hlt v hm t ht) i hi]
    rcases (hgood v hm).facet t ht i hi with ⟨f, hf, s, hs, h1, h2⟩ | ⟨h1, h2⟩
    · left
      refine ⟨triFacet v f, (triFacet_sub (hv v hm) f hf).1, (triFacet_sub (hv v hm) f hf).2, ?_⟩
      refine (edgePart_iff R v f hf _).mpr ⟨s, hs, ?_⟩
      congr 1
      ext j
      simp only [List.mem_toFinset]
      exact ⟨fun h => h1 h, fun h => h2 h⟩
    · right
      refine ⟨?_, ?_⟩
      · ext x
        rw [tri_carrier_image]
        unfold triVerts
        simp only [Finset.mem_image, List.mem_toFinset, List.mem_range]
        constructor
        · rintro ⟨i, _, j, hj, rfl⟩
          exact ⟨j, triEnds_lt i j hj, rfl⟩
        · rintro ⟨w, hw, rfl⟩
          obtain ⟨i, hi, hwi⟩ := h1 w hw
          exact ⟨i, hi, w, hwi, rfl⟩
      · rw [hcount v hm _ her]; exact h2

end Tri

section Tile
variable {K : Type} [Field K] [LinearOrder K] [IsStrictOrderedRing K]

/-- Cut the longest edge first, then other marked edges. -/
def triPick (m : List Bool) (le : Nat) (t : List Nat) : Option Nat :=
  (le :: List.range 3).find? fun e =>
    m.getD e false && (triEnds (e + 3)).all t.contains && !t.contains (e + 3) && decide (e < 3)

/-- Cells by repeated bisection. -/
def triBis (m : List Bool) (le : Nat) : Nat → List Nat → List (List Nat)
  | 0, t => [t]
  | n + 1, t => match triPick m le t with
    | none => [t]
    | some e => triBis m le n (t.map fun x => if x = (triEnds (e + 3)).getD 0 0 then e + 3 else x) ++
        triBis m le n (t.map fun x => if x = (triEnds (e + 3)).getD 1 0 then e + 3 else x)

theorem triEdge_facts (e : Nat) (he : e < 3) : (triEnds (e + 3)).getD 0 0 ≠ (triEnds (e + 3)).getD 1 0 ∧
    triEnds ((triEnds (e + 3)).getD 0 0) = [(triEnds (e + 3)).getD 0 0] ∧ triEnds ((triEnds (e + 3)).getD 1 0) = [(triEnds (e + 3)).getD 1 0] ∧
    triEnds (e + 3) = [(triEnds (e + 3)).getD 0 0, (triEnds (e + 3)).getD 1 0] := by
  interval_cases e <;> decide

theorem triBis_Bis (m : List Bool) (le : Nat) (n : Nat) (t : List Nat) :
    Bis triEnds t.toFinset ((triBis m le n t).map List.toFinset) := by
  induction n generalizing t with
  | zero => exact Bis.leaf _
  | succ n ih =>
    unfold triBis
    cases hp : triPick m le t with
    | none => exact Bis.leaf _
    | some e =>
      unfold triPick at hp
      have h0 := List.find?_some hp
      simp only [Bool.and_eq_true, List.all_eq_true, List.contains_iff_mem, Bool.not_eq_true', ← Bool.not_eq_true, decide_eq_true_eq] at h0
      obtain ⟨⟨⟨_, hin⟩, hm⟩, he⟩ := h0
      obtain ⟨h1, h2, h3, h4⟩ := triEdge_facts e he
      have ha := hin _ (by rw [h4]; simp : (triEnds (e + 3)).getD 0 0 ∈ triEnds (e + 3))
      have hb := hin _ (by rw [h4]; simp : (triEnds (e + 3)).getD 1 0 ∈ triEnds (e + 3))
      simp only [List.map_append]
      refine Bis.node _ ((triEnds (e + 3)).getD 0 0) ((triEnds (e + 3)).getD 1 0) (e + 3) _ _ (List.mem_toFinset.mpr ha)
        (List.mem_toFinset.mpr hb) h1 (fun h => hm (List.mem_toFinset.mp h)) h2 h3 h4 ?_ ?_
      · rw [← map_toFinset t _ _ ha]; exact ih _
      · rw [← map_toFinset t _ _ hb]; exact ih _

theorem tri_all_bis : ((List.range 3).all fun le => (boolLists 3).all fun m =>
    !m.getD le false || ((getTriangles m le false).map srt).isPerm ((triBis m le 3 [0, 1, 2]).map srt)) = true := by decide +kernel

theorem tri_tiles_bis (m : List Bool) (le : Nat) (hm : m.length = 3) (hle : le < 3) (hc : m.getD le false = true) :
    Tiles K triEnds {0, 1, 2} ((getTriangles m le false).map List.toFinset) := by
  have h1 := List.all_eq_true.mp tri_all_bis le (List.mem_range.mpr hle)
  have h2 := List.all_eq_true.mp h1 m (hm ▸ mem_boolLists m)
  rw [hc, Bool.not_true, Bool.false_or] at h2
  have hp := (List.isPerm_iff.mp h2).map List.toFinset
  rw [List.map_map, List.map_map] at hp
  have hmap : ∀ l : List (List Nat), l.map (List.toFinset ∘ srt) = l.map List.toFinset :=
    fun l => List.map_congr_left fun t _ => srt_toFinset t
  rw [hmap, hmap] at hp
  exact Tiles.perm (bis_tiles (K := K) triEnds _ _ (triBis_Bis m le 3 [0, 1, 2]) (indep_vertices _ _ (by decide))).1 hp.symm

theorem comb3 (ends : Nat → List Nat) (a b c : Nat) (hab : a ≠ b) (hac : a ≠ c) (hbc : b ≠ c) (mu : Nat → K) (j : Nat) :
    comb ends {a, b, c} mu j = mu a * coord K ends a j + (mu b * coord K ends b j + mu c * coord K ends c j) := by
  unfold comb
  rw [Finset.sum_insert (by simp [hab, hac]), Finset.sum_pair hbc]

/-- Corner `p` of a triangle cut in four. -/
theorem corner_facts (p q r mq mr : Nat) (hpq : p ≠ q) (hpr : p ≠ r) (hqr : q ≠ r) (h1 : p ≠ mq) (h2 : p ≠ mr) (h3 : mq ≠ mr)
    (ep : triEnds p = [p]) (eq : ∀ j, coord K triEnds mq j = if j = p ∨ j = q then 1 / 2 else 0)
    (er : ∀ j, coord K triEnds mr j = if j = p ∨ j = r then 1 / 2 else 0) :
    (∀ lam : Nat → K, InCell triEnds {p, mq, mr} lam ↔
      (0 ≤ lam q ∧ 0 ≤ lam r ∧ lam q + lam r ≤ lam p ∧ ∀ j, j ≠ p → j ≠ q → j ≠ r → lam j = 0)) ∧
    (∀ lam : Nat → K, Interior triEnds {p, mq, mr} lam → 0 < lam q ∧ 0 < lam r ∧ lam q + lam r < lam p) ∧
    Indep K triEnds {p, mq, mr} := by
  have ep' : ∀ j, coord K triEnds p j = if j = p then 1 else 0 := by
    intro j; unfold coord; rw [ep]; simp
  have hc := fun (mu : Nat → K) j => comb3 triEnds p mq mr h1 h2 h3 mu j
  have cp : ∀ mu : Nat → K, comb triEnds {p, mq, mr} mu p = mu p + (mu mq / 2 + mu mr / 2) := by
    intro mu; rw [hc, ep', eq, er]; simp; ring
  have cq : ∀ mu : Nat → K, comb triEnds {p, mq, mr} mu q = mu mq / 2 := by
    intro mu; rw [hc, ep', eq, er]; simp [hpq.symm, hqr]; ring
  have cr : ∀ mu : Nat → K, comb triEnds {p, mq, mr} mu r = mu mr / 2 := by
    intro mu; rw [hc, ep', eq, er]; simp [hpr.symm, hqr.symm]; ring
  have c0 : ∀ (mu : Nat → K) j, j ≠ p → j ≠ q → j ≠ r → comb triEnds {p, mq, mr} mu j = 0 := by
    intro mu j a b c; rw [hc, ep', eq, er]; simp [a, b, c]
  refine ⟨?_, ?_, ?_⟩
  · intro lam
    constructor
    · rintro ⟨mu, h0, h⟩
      have a1 := h0 p (by simp)
      have a2 := h0 mq (by simp)
      have a3 := h0 mr (by simp)
      refine ⟨?_, ?_, ?_, fun j x y z => by rw [h, c0 mu j x y z]⟩
      · rw [h, cq]; linarith
      · rw [h, cr]; linarith
      · rw [h, h, h, cp, cq, cr]; linarith
    · rintro ⟨a1, a2, a3, a4⟩
      refine ⟨fun c => if c = p then lam p - lam q - lam r else if c = mq then 2 * lam q else 2 * lam r, ?_, ?_⟩
      · intro c _
        beta_reduce
        split
        · linarith
        · split <;> linarith
      · intro j
        by_cases j1 : j = p
        · subst j1; rw [cp]; simp [h1.symm, h2.symm, h3.symm]
        · by_cases j2 : j = q
          · subst j2; rw [cq]; simp [h1.symm]
          · by_cases j3 : j = r
            · subst j3; rw [cr]; simp [h2.symm, h3.symm]
            · rw [c0 _ j j1 j2 j3, a4 j j1 j2 j3]
  · rintro lam ⟨mu, h0, h⟩
    have a1 := h0 p (by simp)
    have a2 := h0 mq (by simp)
    have a3 := h0 mr (by simp)
    refine ⟨?_, ?_, ?_⟩
    · rw [h, cq]; linarith
    · rw [h, cr]; linarith
    · rw [h, h, h, cp, cq, cr]; linarith
  · intro mu nu h c hcm
    have e1 := h p
    have e2 := h q
    have e3 := h r
    rw [cp, cp] at e1
    rw [cq, cq] at e2
    rw [cr, cr] at e3
    simp only [Finset.mem_insert, Finset.mem_singleton] at hcm
    rcases hcm with rfl | rfl | rfl <;> linarith

omit [LinearOrder K] [IsStrictOrderedRing K] in
theorem coord_tri (i : Nat) (a b : Nat) (h : triEnds i = [a, b]) (j : Nat) : coord K triEnds i j = if j = a ∨ j = b then 1 / 2 else 0 := by
  unfold coord; rw [h]; simp

theorem parent_facts (lam : Nat → K) : InCell triEnds {0, 1, 2} lam ↔ (0 ≤ lam 0 ∧ 0 ≤ lam 1 ∧ 0 ≤ lam 2 ∧ ∀ j, 2 < j → lam j = 0) := by
  have hc := fun (mu : Nat → K) j => comb3 triEnds 0 1 2 (by omega) (by omega) (by omega) mu j
  have e : ∀ i < 3, ∀ j, coord K triEnds i j = if j = i then 1 else 0 := by
    intro i hi j; unfold coord
    interval_cases i <;> simp [triEnds]
  constructor
  · rintro ⟨mu, h0, h⟩
    refine ⟨?_, ?_, ?_, ?_⟩
    · rw [h, hc, e 0 (by omega), e 1 (by omega), e 2 (by omega)]; simpa using h0 0 (by simp)
    · rw [h, hc, e 0 (by omega), e 1 (by omega), e 2 (by omega)]; simpa using h0 1 (by simp)
    · rw [h, hc, e 0 (by omega), e 1 (by omega), e 2 (by omega)]; simpa using h0 2 (by simp)
    · intro j hj
      rw [h, hc, e 0 (by omega), e 1 (by omega), e 2 (by omega)]
      simp [show j ≠ 0 by omega, show j ≠ 1 by omega, show j ≠ 2 by omega]
  · rintro ⟨h0, h1, h2, h3⟩
    refine ⟨lam, ?_, ?_⟩
    · intro c hcm
      simp only [Finset.mem_insert, Finset.mem_singleton] at hcm
      rcases hcm with rfl | rfl | rfl <;> assumption
    · intro j
      rw [hc, e 0 (by omega), e 1 (by omega), e 2 (by omega)]
      by_cases j0 : j = 0
      · subst j0; simp
      · by_cases j1 : j = 1
        · subst j1; simp
        · by_cases j2 : j = 2
          · subst j2; simp
          · simp [j0, j1, j2, h3 j (by omega)]

/-- The middle of a triangle cut in four. -/
theorem middle_facts :
    (∀ lam : Nat → K, InCell triEnds {3, 4, 5} lam ↔
      (lam 0 ≤ lam 1 + lam 2 ∧ lam 1 ≤ lam 0 + lam 2 ∧ lam 2 ≤ lam 0 + lam 1 ∧ ∀ j, 2 < j → lam j = 0)) ∧
    (∀ lam : Nat → K, Interior triEnds {3, 4, 5} lam → lam 0 < lam 1 + lam 2 ∧ lam 1 < lam 0 + lam 2 ∧ lam 2 < lam 0 + lam 1) ∧
    Indep K triEnds {3, 4, 5} := by
  have hc := fun (mu : Nat → K) j => comb3 triEnds 3 4 5 (by omega) (by omega) (by omega) mu j
  have e3 := fun j => coord_tri (K := K) 3 1 2 rfl j
  have e4 := fun j => coord_tri (K := K) 4 0 2 rfl j
  have e5 := fun j => coord_tri (K := K) 5 0 1 rfl j
  have c0 : ∀ mu : Nat → K, comb triEnds {3, 4, 5} mu 0 = (mu 4 + mu 5) / 2 := by
    intro mu; rw [hc, e3, e4, e5]; simp; ring
  have c1 : ∀ mu : Nat → K, comb triEnds {3, 4, 5} mu 1 = (mu 3 + mu 5) / 2 := by
    intro mu; rw [hc, e3, e4, e5]; simp; ring
  have c2 : ∀ mu : Nat → K, comb triEnds {3, 4, 5} mu 2 = (mu 3 + mu 4) / 2 := by
    intro mu; rw [hc, e3, e4, e5]; simp; ring
  have cj : ∀ (mu : Nat → K) j, 2 < j → comb triEnds {3, 4, 5} mu j = 0 := by
    intro mu j hj
    rw [hc, e3, e4, e5]
    simp [show j ≠ 0 by omega, show j ≠ 1 by omega, show j ≠ 2 by omega]
  refine ⟨?_, ?_, ?_⟩
  · intro lam
    constructor
    · rintro ⟨mu, h0, h⟩
      have a3 := h0 3 (by simp)
      have a4 := h0 4 (by simp)
      have a5 := h0 5 (by simp)
      refine ⟨?_, ?_, ?_, fun j hj => by rw [h, cj mu j hj]⟩ <;> rw [h, h, h, c0, c1, c2] <;> linarith
    · rintro ⟨a0, a1, a2, a3⟩
      refine ⟨fun c => if c = 3 then lam 1 + lam 2 - lam 0 else if c = 4 then lam 0 + lam 2 - lam 1 else lam 0 + lam 1 - lam 2, ?_, ?_⟩
      · intro c _
        beta_reduce
        split
        · linarith
        · split <;> linarith
      · intro j
        by_cases j0 : j = 0
        · subst j0; rw [c0]; simp; ring
        · by_cases j1 : j = 1
          · subst j1; rw [c1]; simp; ring
          · by_cases j2 : j = 2
            · subst j2; rw [c2]; simp; ring
            · rw [cj _ j (by omega), a3 j (by omega)]
  · rintro lam ⟨mu, h0, h⟩
    have a3 := h0 3 (by simp)
    have a4 := h0 4 (by simp)
    have a5 := h0 5 (by simp)
    refine ⟨?_, ?_, ?_⟩ <;> rw [h, h, h, c0, c1, c2] <;> linarith
  · intro mu nu h c hcm
    have a0 := h 0
    have a1 := h 1
    have a2 := h 2
    rw [c0, c0] at a0
    rw [c1, c1] at a1
    rw [c2, c2] at a2
    simp only [Finset.mem_insert, Finset.mem_singleton] at hcm
    rcases hcm with rfl | rfl | rfl <;> linarith

theorem red_tiles : Tiles K triEnds {0, 1, 2} [{2, 3, 4}, {0, 4, 5}, {1, 3, 5}, {3, 4, 5}] := by
  obtain ⟨A1, A2, A3⟩ := corner_facts (K := K) 2 1 0 3 4 (by omega) (by omega) (by omega) (by omega) (by omega) (by omega) rfl
    (fun j => by rw [coord_tri 3 1 2 rfl]; simp [or_comm]) (fun j => by rw [coord_tri 4 0 2 rfl]; simp [or_comm])
  obtain ⟨B1, B2, B3⟩ := corner_facts (K := K) 0 2 1 4 5 (by omega) (by omega) (by omega) (by omega) (by omega) (by omega) rfl
    (fun j => by rw [coord_tri 4 0 2 rfl]) (fun j => by rw [coord_tri 5 0 1 rfl])
  obtain ⟨C1, C2, C3⟩ := corner_facts (K := K) 1 2 0 3 5 (by omega) (by omega) (by omega) (by omega) (by omega) (by omega) rfl
    (fun j => by rw [coord_tri 3 1 2 rfl]) (fun j => by rw [coord_tri 5 0 1 rfl]; simp [or_comm])
  obtain ⟨D1, D2, D3⟩ := middle_facts (K := K)
  refine ⟨?_, ?_, ?_, ?_⟩
  · intro t ht lam h
    rw [parent_facts]
    simp only [List.mem_cons, List.not_mem_nil, or_false] at ht
    rcases ht with rfl | rfl | rfl | rfl
    · obtain ⟨a, b, c, d⟩ := (A1 lam).mp h
      exact ⟨b, a, by linarith, fun j hj => d j (by omega) (by omega) (by omega)⟩
    · obtain ⟨a, b, c, d⟩ := (B1 lam).mp h
      exact ⟨by linarith, b, a, fun j hj => d j (by omega) (by omega) (by omega)⟩
    · obtain ⟨a, b, c, d⟩ := (C1 lam).mp h
      exact ⟨b, by linarith, a, fun j hj => d j (by omega) (by omega) (by omega)⟩
    · obtain ⟨a, b, c, d⟩ := (D1 lam).mp h
      exact ⟨by linarith, by linarith, by linarith, d⟩
  · intro lam h
    obtain ⟨h0, h1, h2, h3⟩ := (parent_facts lam).mp h
    by_cases hA : lam 1 + lam 0 ≤ lam 2
    · exact ⟨{2, 3, 4}, by simp, (A1 lam).mpr ⟨h1, h0, hA, fun j a b c => h3 j (by omega)⟩⟩
    · by_cases hB : lam 2 + lam 1 ≤ lam 0
      · exact ⟨{0, 4, 5}, by simp, (B1 lam).mpr ⟨h2, h1, hB, fun j a b c => h3 j (by omega)⟩⟩
      · by_cases hC : lam 2 + lam 0 ≤ lam 1
        · exact ⟨{1, 3, 5}, by simp, (C1 lam).mpr ⟨h2, h0, hC, fun j a b c => h3 j (by omega)⟩⟩
        · exact ⟨{3, 4, 5}, by simp, (D1 lam).mpr ⟨by linarith, by linarith, by linarith, h3⟩⟩
  · simp only [List.pairwise_cons, List.mem_cons, List.not_mem_nil, or_false, forall_eq_or_imp, forall_eq, false_imp_iff,
      implies_true, List.Pairwise.nil, and_true]
    refine ⟨⟨?_, ?_, ?_⟩, ⟨?_, ?_⟩, ?_⟩
    all_goals
      intro lam
      constructor <;> rintro ⟨x, y⟩
    · obtain ⟨a, b, c⟩ := A2 lam x; obtain ⟨d, e, f, _⟩ := (B1 lam).mp y; linarith
    · obtain ⟨a, b, c, _⟩ := (A1 lam).mp x; obtain ⟨d, e, f⟩ := B2 lam y; linarith
    · obtain ⟨a, b, c⟩ := A2 lam x; obtain ⟨d, e, f, _⟩ := (C1 lam).mp y; linarith
    · obtain ⟨a, b, c, _⟩ := (A1 lam).mp x; obtain ⟨d, e, f⟩ := C2 lam y; linarith
    · obtain ⟨a, b, c⟩ := A2 lam x; obtain ⟨d, e, f, _⟩ := (D1 lam).mp y; linarith
    · obtain ⟨a, b, c, _⟩ := (A1 lam).mp x; obtain ⟨d, e, f⟩ := D2 lam y; linarith
    · obtain ⟨a, b, c⟩ := B2 lam x; obtain ⟨d, e, f, _⟩ := (C1 lam).mp y; linarith
    · obtain ⟨a, b, c, _⟩ := (B1 lam).mp x; obtain ⟨d, e, f⟩ := C2 lam y; linarith
    · obtain ⟨a, b, c⟩ := B2 lam x; obtain ⟨d, e, f, _⟩ := (D1 lam).mp y; linarith
    · obtain ⟨a, b, c, _⟩ := (B1 lam).mp x; obtain ⟨d, e, f⟩ := D2 lam y; linarith
    · obtain ⟨a, b, c⟩ := C2 lam x; obtain ⟨d, e, f, _⟩ := (D1 lam).mp y; linarith
    · obtain ⟨a, b, c, _⟩ := (C1 lam).mp x; obtain ⟨d, e, f⟩ := D2 lam y; linarith
  · intro t ht
    simp only [List.mem_cons, List.not_mem_nil, or_false] at ht
    rcases ht with rfl | rfl | rfl | rfl
    · exact ⟨A3, rfl⟩
    · exact ⟨B3, rfl⟩
    · exact ⟨C3, rfl⟩
    · exact ⟨D3, rfl⟩

theorem tri_all_red : ((List.range 3).all fun le => (boolLists 3).all fun m =>
    !(m.getD ((le + 1) % 3) false && m.getD ((le + 2) % 3) false) ||
    ((getTriangles m le true).map srt).isPerm [[2, 3, 4], [0, 4, 5], [1, 3, 5], [3, 4, 5]]) = true := by decide +kernel

theorem tri_uniform_same : ∀ m ∈ boolLists 3, ∀ le < 3, (m.getD ((le + 1) % 3) false && m.getD ((le + 2) % 3) false) = false →
    getTriangles m le true = getTriangles m le false := by decide +kernel

theorem tri_tiles (m : List Bool) (le : Nat) (u : Bool) (hm : m.length = 3) (hle : le < 3) (hc : m.getD le false = true) :
    Tiles K triEnds {0, 1, 2} ((getTriangles m le u).map List.toFinset) := by
  cases u with
  | false => exact tri_tiles_bis m le hm hle hc
  | true =>
    cases hb : (m.getD ((le + 1) % 3) false && m.getD ((le + 2) % 3) false) with
    | false =>
      rw [tri_uniform_same m (hm ▸ mem_boolLists m) le hle hb]
      exact tri_tiles_bis m le hm hle hc
    | true =>
      have h1 := List.all_eq_true.mp tri_all_red le (List.mem_range.mpr hle)
      have h2 := List.all_eq_true.mp h1 m (hm ▸ mem_boolLists m)
      rw [hb, Bool.not_true, Bool.false_or] at h2
      have hp := (List.isPerm_iff.mp h2).map List.toFinset
      rw [List.map_map] at hp
      have hmap : ∀ l : List (List Nat), l.map (List.toFinset ∘ srt) = l.map List.toFinset :=
        fun l => List.map_congr_left fun t _ => srt_toFinset t
      rw [hmap] at hp
      exact Tiles.perm red_tiles hp.symm

end Tile

end Verif.Refine
