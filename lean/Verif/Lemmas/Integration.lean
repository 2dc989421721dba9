import Verif.Model.IntegrationDomains
import Verif.Spec.Integration
import Verif.Lemmas.StdAlg
import Verif.Props.C47_System
import Verif.Props.C57_Intervals
/-! # Facts on integration domains -/
namespace Verif.Integration
open Verif.Std Verif.World Verif.Spec Verif.Spec.Integration Verif.Props

theorem setDiffAux_eq (n : Nat) : ∀ l m : List Nat, l.length + m.length ≤ n → l.Pairwise (· < ·) → m.Pairwise (· < ·) →
    setDiffAux n l m = l.filter fun x => decide (x ∉ m) := by
  induction n with
  | zero =>
    intro l m h _ _
    have : l = [] := List.length_eq_zero_iff.mp (by omega)
    subst this; rfl
  | succ n ih =>
    intro l m h hl hm
    cases l with
    | nil => rfl
    | cons a l =>
      cases m with
      | nil =>
        simp [setDiffAux]
      | cons b m =>
        simp only [setDiffAux, List.head?_cons, List.tail_cons]
        have hl' := List.pairwise_cons.mp hl
        have hm' := List.pairwise_cons.mp hm
        simp only [List.length_cons] at h
        split
        · next hab =>
          rw [ih l (b :: m) (by simp only [List.length_cons]; omega) hl'.2 hm, List.filter_cons_of_pos]
          simp only [List.mem_cons, not_or, decide_eq_true_eq]
          exact ⟨by omega, fun hx => by have := hm'.1 a hx; omega⟩
        · split
          · next hab hba =>
            rw [ih (a :: l) m (by simp only [List.length_cons]; omega) hl hm'.2]
            refine List.filter_congr fun x hx => ?_
            have : x ≠ b := by
              rcases List.mem_cons.mp hx with rfl | hx
              · omega
              · have := hl'.1 x hx; omega
            simp [this]
          · next hab hba =>
            have he : a = b := by omega
            subst he
            rw [ih l m (by omega) hl'.2 hm'.2, List.filter_cons_of_neg (by simp)]
            refine List.filter_congr fun x hx => ?_
            have := hl'.1 x hx
            have : x ≠ a := by omega
            simp [this]

theorem setDifference_eq (l m : List Nat) (hl : l.Pairwise (· < ·)) (hm : m.Pairwise (· < ·)) :
    setDifference l m = l.filter fun x => decide (x ∉ m) := setDiffAux_eq _ l m (le_refl _) hl hm

theorem pairwise_range (n : Nat) : (List.range n).Pairwise (· < ·) := List.pairwise_lt_range

/-- Sorted lists with the same elements are equal. -/
theorem sorted_ext {l m : List Nat} (hl : l.Pairwise (· < ·)) (hm : m.Pairwise (· < ·)) (h : ∀ x, x ∈ l ↔ x ∈ m) : l = m := by
  have hp : l.Perm m := (List.perm_ext_iff_of_nodup (nodup_of_strict hl) (nodup_of_strict hm)).mpr h
  exact hp.eq_of_pairwise (fun a b _ _ h1 h2 => absurd h1 (by omega)) hl hm

/-- The owned prefix of a sorted list. -/
theorem take_owned (l : List Nat) (n : Nat) (hl : l.Pairwise (· < ·)) :
    l.take (lowerBound (fun e => decide (e < n)) l) = (List.range n).filter fun e => decide (e ∈ l) := by
  have hpart : Partitioned (fun e => decide (e < n)) l :=
    partitioned_of_sorted (fun x : Nat => x) l (hl.imp fun h => le_of_lt h) n
  obtain ⟨h1, h2, h3⟩ := lowerBound_spec (fun e => decide (e < n)) l hpart
  refine sorted_ext (hl.sublist (List.take_sublist _ _)) ((pairwise_range n).sublist List.filter_sublist) fun x => ?_
  rw [List.mem_filter, List.mem_range, decide_eq_true_eq, List.mem_take_iff_getElem]
  constructor
  · rintro ⟨i, hi, rfl⟩
    have hi' : i < lowerBound (fun e => decide (e < n)) l := by omega
    have hil : i < l.length := by omega
    exact ⟨by simpa using h2 i hil hi', List.getElem_mem _⟩
  · rintro ⟨hx, hm⟩
    obtain ⟨i, hi, rfl⟩ := List.mem_iff_getElem.mp hm
    refine ⟨i, ?_, rfl⟩
    by_contra hc
    have := h3 i hi (by omega)
    simp only [decide_eq_false_iff_not] at this
    exact this hx

theorem flat_filter (E : World) (P : Nat) (p : Nat → Bool) :
    ((List.range P).flatMap fun r => ((List.range (E.size r)).filter fun e => p (E.r0 r + e)).map (E.r0 r + ·)) =
      (List.range (E.r0 P)).filter p := by
  unfold World.r0
  rw [C57_aux_range, List.filter_flatMap]
  congr 1
  funext r
  rw [List.filter_map]
  rfl

variable {m : Mesh}

theorem global_ex (w : World) (r i : Nat) (h : i < w.size r + (w.ghosts r).length) : ∃ g, globalOf w r i = some g := by
  unfold globalOf
  split
  · exact ⟨_, rfl⟩
  · exact ⟨_, List.getElem?_eq_getElem (by omega)⟩

theorem own_global (w : World) (r i : Nat) (h : i < w.size r) : globalOf w r i = some (w.r0 r + i) := by
  unfold globalOf; rw [if_pos h]

theorem mem_cellsAt (f g : Nat) : g ∈ cellsAt m f ↔ g < m.C.r0 m.C.P ∧ f ∈ m.G g := by
  simp [cellsAt]

theorem cellsAt_nodup (f : Nat) : (cellsAt m f).Nodup := List.nodup_range.filter _

variable (h : Ok m)
include h

/-- Links of a local entity are the local cells at it. -/
theorem link_iff (r e f : Nat) (cs : List Nat) (hr : r < m.C.P) (hf : globalOf m.E r e = some f) (hcs : (m.e2c r)[e]? = some cs) (c : Nat) :
    c ∈ cs ↔ ∃ g, globalOf m.C r c = some g ∧ g ∈ cellsAt m f := by
  rw [((h.e2c r hr e cs hcs).2 c)]
  constructor
  · rintro ⟨row, h1, h2⟩
    obtain ⟨g, hg⟩ := global_ex m.C r c (by rw [← h.lenC r hr]; exact (List.getElem?_eq_some_iff.mp h1).1)
    refine ⟨g, hg, (mem_cellsAt f g).mpr ⟨globalOf_lt_total m.C h.cells r hr c g hg, ?_⟩⟩
    have := h.c2e r hr c g row hg h1
    have hm : some f ∈ (m.G g).map some := by rw [← this]; exact List.mem_map.mpr ⟨e, h2, hf⟩
    obtain ⟨a, ha, hb⟩ := List.mem_map.mp hm
    cases hb; exact ha
  · rintro ⟨g, hg, hm⟩
    have hc : c < (m.c2e r).length := by rw [h.lenC r hr]; exact SubMap.globalOf_lt m.C r c g hg
    refine ⟨_, List.getElem?_eq_getElem hc, ?_⟩
    have := h.c2e r hr c g _ hg (List.getElem?_eq_getElem hc)
    have hm' : some f ∈ ((m.c2e r)[c]).map (globalOf m.E r) := by
      rw [this]; exact List.mem_map.mpr ⟨f, ((mem_cellsAt f g).mp hm).2, rfl⟩
    obtain ⟨e', h1, h2⟩ := List.mem_map.mp hm'
    rwa [SubMap.globalOf_inj m.E h.ents r (by rw [h.ranks]; exact hr) e e' f hf h2]

/-- There are at most as many links as cells. -/
theorem link_le (r e f : Nat) (cs : List Nat) (hr : r < m.C.P) (hf : globalOf m.E r e = some f) (hcs : (m.e2c r)[e]? = some cs) :
    cs.length ≤ (cellsAt m f).length := by
  have hn := (h.e2c r hr e cs hcs).1
  have hsub : ∀ x ∈ cs.map fun c => (globalOf m.C r c).getD 0, x ∈ cellsAt m f := by
    intro x hx
    obtain ⟨c, hc, rfl⟩ := List.mem_map.mp hx
    obtain ⟨g, hg, hm⟩ := (link_iff h r e f cs hr hf hcs c).mp hc
    rw [hg]; exact hm
  have hnd : (cs.map fun c => (globalOf m.C r c).getD 0).Nodup := by
    refine List.Nodup.map_on (fun a ha b hb hab => ?_) hn
    obtain ⟨g, hg, _⟩ := (link_iff h r e f cs hr hf hcs a).mp ha
    obtain ⟨g', hg', _⟩ := (link_iff h r e f cs hr hf hcs b).mp hb
    rw [hg, hg'] at hab
    have : g = g' := hab
    subst this
    exact SubMap.globalOf_inj m.C h.cells r hr a b g hg hg'
  have := (List.subperm_of_subset hnd hsub).length_le
  simpa using this

/-- If all cells at the entity are on this process there are equally many. -/
theorem link_eq (r e f : Nat) (cs : List Nat) (hr : r < m.C.P) (hf : globalOf m.E r e = some f) (hcs : (m.e2c r)[e]? = some cs)
    (hall : ∀ g ∈ cellsAt m f, ∃ c, globalOf m.C r c = some g) : cs.length = (cellsAt m f).length := by
  refine le_antisymm (link_le h r e f cs hr hf hcs) ?_
  have hsub : ∀ x ∈ cellsAt m f, x ∈ cs.map fun c => (globalOf m.C r c).getD 0 := by
    intro x hx
    obtain ⟨c, hc⟩ := hall x hx
    exact List.mem_map.mpr ⟨c, (link_iff h r e f cs hr hf hcs c).mpr ⟨x, hc, hx⟩, by rw [hc]; rfl⟩
  have := (List.subperm_of_subset (cellsAt_nodup f) hsub).length_le
  simpa using this

theorem e2c_get (r e : Nat) (hr : r < m.C.P) (he : e < m.E.size r) : (m.e2c r)[e]? = some ((m.e2c r).getD e []) := by
  have : e < (m.e2c r).length := by rw [h.lenE r hr]; omega
  rw [List.getD_eq_getElem?_getD, List.getElem?_eq_getElem this]
  rfl

/-- An owned entity has an owned cell. -/
theorem own_cell (r e : Nat) (hr : r < m.C.P) (he : e < m.E.size r) :
    ∃ c ∈ (m.e2c r).getD e [], c < m.C.size r ∧ m.C.r0 r + c ∈ cellsAt m (m.E.r0 r + e) := by
  obtain ⟨c, hc, row, h1, h2⟩ := h.own r hr e he
  have hm := ((h.e2c r hr e _ (e2c_get h r e hr he)).2 c).mpr ⟨row, h1, h2⟩
  refine ⟨c, hm, hc, ?_⟩
  obtain ⟨g, hg, hmem⟩ := (link_iff h r e _ _ hr (own_global m.E r e he) (e2c_get h r e hr he) c).mp hm
  rw [own_global m.C r c hc] at hg
  cases hg; exact hmem

/-- An owned entity that is not an interprocess entity has all its cells here. -/
theorem all_local (r e : Nat) (hr : r < m.C.P) (he : e < m.E.size r) (hi : e ∉ m.inter r) :
    ∀ g ∈ cellsAt m (m.E.r0 r + e), ∃ c, globalOf m.C r c = some g := by
  intro g hg
  obtain ⟨q, hq, h1, h2⟩ := exists_owner m.C g ((mem_cellsAt _ g).mp hg).1
  by_cases hqr : q = r
  · subst hqr
    refine ⟨g - m.C.r0 q, ?_⟩
    rw [own_global m.C q _ (by omega)]
    congr 1; omega
  · obtain ⟨c, _, hc, hcm⟩ := own_cell h r e hr he
    exact absurd ((h.inter r hr e _ (own_global m.E r e he)).mpr ⟨⟨_, hcm, by omega, by omega⟩, q, hq, hqr, g, hg, h1, h2⟩) hi

/-- An interprocess entity has two cells. -/
theorem inter_two (r e f : Nat) (hr : r < m.C.P) (hf : globalOf m.E r e = some f) (hi : e ∈ m.inter r) : 2 ≤ (cellsAt m f).length := by
  obtain ⟨⟨g, hg, a1, a2⟩, q, _, hqr, g', hg', b1, b2⟩ := (h.inter r hr e f hf).mp hi
  have hne : g ≠ g' := by
    rintro rfl
    exact hqr (range_unique m.C ⟨b1, b2⟩ ⟨a1, a2⟩)
  have := (List.subperm_of_subset (l₁ := [g, g']) (by simp [hne]) (by
    intro x hx
    rcases List.mem_cons.mp hx with rfl | hx
    · exact hg
    · rw [List.mem_singleton] at hx; subst hx; exact hg') : ([g, g']).Subperm (cellsAt m f)).length_le
  simpa using this

/-- Exterior facets are the facets with one cell. -/
theorem exterior_iff (r e : Nat) (hr : r < m.C.P) (he : e < m.E.size r) :
    (((m.e2c r).getD e []).length = 1 ∧ e ∉ m.inter r) ↔ (cellsAt m (m.E.r0 r + e)).length = 1 := by
  have hf := own_global m.E r e he
  have hcs := e2c_get h r e hr he
  constructor
  · rintro ⟨h1, h2⟩
    rw [← link_eq h r e _ _ hr hf hcs (all_local h r e hr he h2)]
    exact h1
  · intro h1
    have hi : e ∉ m.inter r := fun hi => by have := inter_two h r e _ hr hf hi; omega
    exact ⟨by rw [link_eq h r e _ _ hr hf hcs (all_local h r e hr he hi)]; exact h1, hi⟩

theorem exteriorFacets_eq (r : Nat) (hr : r < m.C.P) : exteriorFacets (m.E.size r) (some (m.e2c r)) (m.inter r) =
    .ok ((List.range (m.E.size r)).filter fun e => decide ((cellsAt m (m.E.r0 r + e)).length = 1)) := by
  unfold exteriorFacets
  simp only
  congr 1
  rw [setDifference_eq _ _ ((pairwise_range _).sublist List.filter_sublist) (h.sorted r hr), List.filter_filter]
  refine List.filter_congr fun e he => ?_
  have := exterior_iff h r e hr (List.mem_range.mp he)
  rw [Bool.eq_iff_iff, Bool.and_eq_true, decide_eq_true_eq, decide_eq_true_eq, decide_eq_true_eq]
  rw [← this]
  exact and_comm

theorem link_row (r e f c : Nat) (cs : List Nat) (hr : r < m.C.P) (hf : globalOf m.E r e = some f) (hcs : (m.e2c r)[e]? = some cs) (hc : c ∈ cs) :
    ∃ g, globalOf m.C r c = some g ∧ (m.G g)[((m.c2e r).getD c []).idxOf e]? = some f := by
  obtain ⟨row, h1, h2⟩ := ((h.e2c r hr e cs hcs).2 c).mp hc
  obtain ⟨g, hg⟩ := global_ex m.C r c (by rw [← h.lenC r hr]; exact (List.getElem?_eq_some_iff.mp h1).1)
  refine ⟨g, hg, ?_⟩
  have he := h.c2e r hr c g row hg h1
  rw [List.getD_eq_getElem?_getD, h1, Option.getD_some]
  have hlt : row.idxOf e < row.length := List.idxOf_lt_length_iff.mpr h2
  have := congrArg (fun l => l[row.idxOf e]?) he
  simp only [List.getElem?_map, List.getElem?_eq_getElem hlt, List.getElem_idxOf, Option.map_some, hf] at this
  obtain ⟨a, ha, hb⟩ := Option.map_eq_some_iff.mp this.symm
  cases hb; exact ha

theorem firstPair_spec (r e : Nat) (hr : r < m.C.P) (he : e < m.E.size r) :
    OneSided m r (m.E.r0 r + e) (firstPair (m.c2e r) e ((m.e2c r).getD e [])) := by
  obtain ⟨c, hc, _⟩ := own_cell h r e hr he
  obtain ⟨a, l, hl⟩ : ∃ a l, (m.e2c r).getD e [] = a :: l := by
    cases hx : (m.e2c r).getD e [] with
    | nil => rw [hx] at hc; cases hc
    | cons a l => exact ⟨a, l, rfl⟩
  obtain ⟨g, hg, h1⟩ := link_row h r e _ a _ hr (own_global m.E r e he) (e2c_get h r e hr he) (by rw [hl]; exact List.mem_cons_self)
  refine ⟨a, _, g, ?_, hg, h1⟩
  unfold firstPair
  rw [hl]; rfl

theorem bothPairs_spec (r e : Nat) (hr : r < m.C.P) (he : e < m.E.size r) (h2 : ((m.e2c r).getD e []).length = 2) :
    TwoSided m r (m.E.r0 r + e) (bothPairs (m.c2e r) e ((m.e2c r).getD e [])) := by
  obtain ⟨a, b, hl⟩ := List.length_eq_two.mp h2
  have hcs := e2c_get h r e hr he
  have hf := own_global m.E r e he
  obtain ⟨g, hg, h3⟩ := link_row h r e _ a _ hr hf hcs (by rw [hl]; simp)
  obtain ⟨g', hg', h4⟩ := link_row h r e _ b _ hr hf hcs (by rw [hl]; simp)
  have hnd := (h.e2c r hr e _ hcs).1
  rw [hl] at hnd
  refine ⟨a, _, b, _, g, g', ?_, hg, hg', ?_, h3, h4⟩
  · unfold bothPairs
    rw [hl]; rfl
  · rintro rfl
    have := SubMap.globalOf_inj m.C h.cells r hr a b g hg hg'
    subst this
    simp at hnd

omit h in
/-- The loop over facets. -/
theorem interiorRows_spec (e2c c2e : List (List Nat)) (inter fs : List Nat) :
    (interiorRows e2c c2e inter fs = .error .interprocess ↔ ∃ f ∈ fs, (e2c.getD f []).length ≠ 2 ∧ f ∈ inter) ∧
    (¬ (∃ f ∈ fs, (e2c.getD f []).length ≠ 2 ∧ f ∈ inter) → interiorRows e2c c2e inter fs =
      .ok ((fs.filter fun f => (e2c.getD f []).length = 2).map fun f => bothPairs c2e f (e2c.getD f []))) := by
  have gen : ∀ (fs : List Nat) (acc : List (List Nat)),
      ((fs.foldlM (fun rows f => if (e2c.getD f []).length = 2 then (.ok (rows ++ [bothPairs c2e f (e2c.getD f [])]) : Except Err _)
        else if inter.contains f then .error .interprocess else .ok rows) acc) = .error .interprocess ↔
          ∃ f ∈ fs, (e2c.getD f []).length ≠ 2 ∧ f ∈ inter) ∧
      (¬ (∃ f ∈ fs, (e2c.getD f []).length ≠ 2 ∧ f ∈ inter) →
        (fs.foldlM (fun rows f => if (e2c.getD f []).length = 2 then (.ok (rows ++ [bothPairs c2e f (e2c.getD f [])]) : Except Err _)
        else if inter.contains f then .error .interprocess else .ok rows) acc) =
          .ok (acc ++ (fs.filter fun f => (e2c.getD f []).length = 2).map fun f => bothPairs c2e f (e2c.getD f []))) := by
    intro fs
    induction fs with
    | nil =>
      intro acc
      refine ⟨⟨fun h => by simp [pure, Except.pure] at h, fun ⟨f, hf, _⟩ => by cases hf⟩, fun _ => by simp [pure, Except.pure]⟩
    | cons f fs ih =>
      intro acc
      rw [List.foldlM_cons]
      by_cases h2 : (e2c.getD f []).length = 2
      · rw [if_pos h2]
        have := ih (acc ++ [bothPairs c2e f (e2c.getD f [])])
        have hex : (∃ f' ∈ f :: fs, (e2c.getD f' []).length ≠ 2 ∧ f' ∈ inter) ↔ ∃ f' ∈ fs, (e2c.getD f' []).length ≠ 2 ∧ f' ∈ inter := by
          constructor
          · rintro ⟨f', hf', h3, h4⟩
            rcases List.mem_cons.mp hf' with rfl | hf'
            · exact absurd h2 h3
            · exact ⟨f', hf', h3, h4⟩
          · rintro ⟨f', hf', h3⟩
            exact ⟨f', List.mem_cons_of_mem _ hf', h3⟩
        rw [hex]
        refine ⟨this.1, fun hn => ?_⟩
        refine (this.2 hn).trans ?_
        rw [List.filter_cons_of_pos (by simpa using h2)]
        simp
      · rw [if_neg h2]
        by_cases hi : f ∈ inter
        · rw [if_pos (by simpa using hi)]
          refine ⟨⟨fun _ => ⟨f, List.mem_cons_self, h2, hi⟩, fun _ => rfl⟩, fun hn => absurd ⟨f, List.mem_cons_self, h2, hi⟩ hn⟩
        · rw [if_neg (by simpa using hi)]
          have hex : (∃ f' ∈ f :: fs, (e2c.getD f' []).length ≠ 2 ∧ f' ∈ inter) ↔ ∃ f' ∈ fs, (e2c.getD f' []).length ≠ 2 ∧ f' ∈ inter := by
            constructor
            · rintro ⟨f', hf', h3, h4⟩
              rcases List.mem_cons.mp hf' with rfl | hf'
              · exact absurd h4 hi
              · exact ⟨f', hf', h3, h4⟩
            · rintro ⟨f', hf', h3⟩
              exact ⟨f', List.mem_cons_of_mem _ hf', h3⟩
          rw [hex, List.filter_cons_of_neg (by simpa using h2)]
          exact ih acc
  have := gen fs []
  simpa [interiorRows] using this

/-- Interior facets: either the second cell is missing, or it is found. -/
theorem interior_iff (hm : ∀ f, (cellsAt m f).length ≤ 2) (r e : Nat) (hr : r < m.C.P) (he : e < m.E.size r) :
    (((m.e2c r).getD e []).length ≠ 2 ∧ e ∈ m.inter r ↔
      (cellsAt m (m.E.r0 r + e)).length = 2 ∧ ∃ g ∈ cellsAt m (m.E.r0 r + e), ∀ c, globalOf m.C r c ≠ some g) ∧
    (¬ (((m.e2c r).getD e []).length ≠ 2 ∧ e ∈ m.inter r) → (((m.e2c r).getD e []).length = 2 ↔ (cellsAt m (m.E.r0 r + e)).length = 2)) := by
  have hf := own_global m.E r e he
  have hcs := e2c_get h r e hr he
  have hle := link_le h r e _ _ hr hf hcs
  have hm' := hm (m.E.r0 r + e)
  refine ⟨⟨?_, ?_⟩, fun hn => ⟨fun h2 => by omega, fun h2 => ?_⟩⟩
  · rintro ⟨h1, h2⟩
    have h3 := inter_two h r e _ hr hf h2
    refine ⟨by omega, ?_⟩
    by_contra hc
    push Not at hc
    exact h1 (by rw [link_eq h r e _ _ hr hf hcs hc]; omega)
  · rintro ⟨h1, g, hg, h2⟩
    have hi : e ∈ m.inter r := by
      by_contra hi
      obtain ⟨c, hc⟩ := all_local h r e hr he hi g hg
      exact h2 c hc
    refine ⟨fun h3 => ?_, hi⟩
    -- two links are all cells
    have hnd := (h.e2c r hr e _ hcs).1
    have hsub : ∀ x ∈ g :: ((m.e2c r).getD e []).map fun c => (globalOf m.C r c).getD 0, x ∈ cellsAt m (m.E.r0 r + e) := by
      intro x hx
      rcases List.mem_cons.mp hx with rfl | hx
      · exact hg
      · obtain ⟨c, hc, rfl⟩ := List.mem_map.mp hx
        obtain ⟨g', hg', hmem⟩ := (link_iff h r e _ _ hr hf hcs c).mp hc
        rw [hg']; exact hmem
    have hnd' : (g :: ((m.e2c r).getD e []).map fun c => (globalOf m.C r c).getD 0).Nodup := by
      refine List.nodup_cons.mpr ⟨?_, List.Nodup.map_on (fun a ha b hb hab => ?_) hnd⟩
      · intro hx
        obtain ⟨c, hc, he'⟩ := List.mem_map.mp hx
        obtain ⟨g', hg', _⟩ := (link_iff h r e _ _ hr hf hcs c).mp hc
        rw [hg'] at he'
        have : g' = g := he'
        subst this
        exact h2 c hg'
      · obtain ⟨g1, hg1, _⟩ := (link_iff h r e _ _ hr hf hcs a).mp ha
        obtain ⟨g2, hg2, _⟩ := (link_iff h r e _ _ hr hf hcs b).mp hb
        rw [hg1, hg2] at hab
        have : g1 = g2 := hab
        subst this
        exact SubMap.globalOf_inj m.C h.cells r hr a b g1 hg1 hg2
    have := (List.subperm_of_subset hnd' hsub).length_le
    simp only [List.length_cons, List.length_map] at this
    omega
  · by_contra h3
    have hi : e ∉ m.inter r := fun hi => hn ⟨h3, hi⟩
    exact h3 (by rw [link_eq h r e _ _ hr hf hcs (all_local h r e hr he hi)]; exact h2)

omit h in
/-- The entity-to-cell connectivity is the transpose. -/
abbrev CheckLinks (a b : List (List Nat)) : Prop :=
  ∀ e < a.length, (a.getD e []).Nodup ∧ (∀ c ∈ a.getD e [], c < b.length) ∧ ∀ c < b.length, (c ∈ a.getD e [] ↔ e ∈ b.getD c [])

omit h in
abbrev CheckInter (m : Mesh) (r : Nat) : Prop :=
  ∀ e < m.E.size r + (m.E.ghosts r).length, (e ∈ m.inter r ↔
      (∃ g ∈ cellsAt m ((globalOf m.E r e).getD 0), m.C.r0 r ≤ g ∧ g < m.C.r0 r + m.C.size r) ∧
      ∃ q ∈ List.range m.C.P, q ≠ r ∧ ∃ g ∈ cellsAt m ((globalOf m.E r e).getD 0), m.C.r0 q ≤ g ∧ g < m.C.r0 q + m.C.size q)

omit h in
abbrev CheckRank (m : Mesh) (r : Nat) : Prop :=
    (m.c2e r).length = m.C.size r + (m.C.ghosts r).length ∧ (m.e2c r).length = m.E.size r + (m.E.ghosts r).length ∧
    (∀ c < (m.c2e r).length, ((m.c2e r).getD c []).map (globalOf m.E r) = (m.G ((globalOf m.C r c).getD 0)).map some) ∧
    CheckLinks (m.e2c r) (m.c2e r) ∧
    (∀ e < m.E.size r, ∃ c ∈ List.range (m.C.size r), e ∈ (m.c2e r).getD c []) ∧ (m.inter r).Pairwise (· < ·) ∧ CheckInter m r

instance (m : Mesh) (r : Nat) : Decidable (CheckInter m r) := inferInstance
instance (m : Mesh) (r : Nat) : Decidable (CheckRank m r) := inferInstance

omit h in
/-- Conditions that can be evaluated. -/
abbrev Check (m : Mesh) : Prop :=
  m.E.P = m.C.P ∧ (∀ g < m.C.r0 m.C.P, (m.G g).Nodup) ∧ ∀ r < m.C.P, CheckRank m r

instance (m : Mesh) : Decidable (Check m) := inferInstance

omit h in
theorem ok_of_check (m : Mesh) (hC : m.C.Valid) (hE : m.E.Valid) (hc : Check m) : Ok m := by
  obtain ⟨h1, h2, h3⟩ := hc
  refine ⟨hC, hE, h1, h2, fun r hr => (h3 r hr).1, fun r hr => (h3 r hr).2.1, ?_, ?_, ?_, fun r hr => (h3 r hr).2.2.2.2.2.1, ?_⟩
  · intro r hr c g row hg hrow
    obtain ⟨hlt, hrow⟩ := List.getElem?_eq_some_iff.mp hrow
    have := (h3 r hr).2.2.1 c hlt
    rw [List.getD_eq_getElem?_getD, List.getElem?_eq_getElem hlt, hg] at this
    rw [← hrow]; exact this
  · intro r hr e cs hcs
    obtain ⟨hlt, hcs'⟩ := List.getElem?_eq_some_iff.mp hcs
    obtain ⟨a1, a2, a3⟩ := (h3 r hr).2.2.2.1 e hlt
    rw [List.getD_eq_getElem?_getD, hcs, Option.getD_some] at a1 a2 a3
    refine ⟨a1, fun c => ⟨fun hc => ?_, ?_⟩⟩
    · have hc' := a2 c hc
      refine ⟨_, List.getElem?_eq_getElem hc', ?_⟩
      have := (a3 c hc').mp hc
      rwa [List.getD_eq_getElem?_getD, List.getElem?_eq_getElem hc', Option.getD_some] at this
    · rintro ⟨row, hrow, he⟩
      refine (a3 c (List.getElem?_eq_some_iff.mp hrow).1).mpr ?_
      rwa [List.getD_eq_getElem?_getD, hrow, Option.getD_some]
  · intro r hr e he
    obtain ⟨c, hc, hm⟩ := (h3 r hr).2.2.2.2.1 e he
    have hlt : c < (m.c2e r).length := by rw [(h3 r hr).1]; have := List.mem_range.mp hc; omega
    refine ⟨c, List.mem_range.mp hc, _, List.getElem?_eq_getElem hlt, ?_⟩
    rwa [List.getD_eq_getElem?_getD, List.getElem?_eq_getElem hlt, Option.getD_some] at hm
  · intro r hr e f hf
    have := (h3 r hr).2.2.2.2.2.2 e (SubMap.globalOf_lt m.E r e f hf)
    rw [hf] at this
    simpa using this

end Verif.Integration
