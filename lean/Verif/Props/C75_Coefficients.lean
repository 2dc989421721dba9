import Verif.Lemmas.CoefficientForm
/-!
# C75: kernels get the values of coefficients and constants that belong to their entities
-/
namespace Verif.Props
open Verif.Coefficients Verif.Spec.Coefficients
open Verif.Integration (Kind)

variable {T : Type}

/-! ## Entities in the meshes of coefficients -/

theorem cd_lookup_append {κ ε : Type} [BEq κ] [LawfulBEq κ] (cd : List (κ × ε)) (k k' : κ) (e : ε) (h : (cd.lookup k').isSome) :
    (cd ++ [(k, e)]).lookup k' = cd.lookup k' := by
  obtain ⟨x, hx⟩ := Option.isSome_iff_exists.mp h
  rw [List.lookup_append, hx]; rfl

/-- What `_cdata` holds on the way. -/
def CdOk (F : Form T) (cd : List ((Kind × Nat × Nat) × List Int)) : Prop :=
  ∀ t i c e, cd.lookup (t, i, c) = some e →
    ∃ d u, ((t, i), d) ∈ F.integrals ∧ F.coefficients[c]? = some u ∧ mapDomain F u.mesh t d.entities = some e

theorem cd_inner (F : Form T) (p : (Kind × Nat) × IData) (hp : p ∈ F.integrals) (l : List Nat)
    (hl : ∀ c ∈ l, ∃ u e, F.coefficients[c]? = some u ∧ mapDomain F u.mesh p.1.1 p.2.entities = some e) :
    ∀ cd, CdOk F cd → ∃ cd', l.foldlM (fun cd c => do
      let u ← F.coefficients[c]?
      let e ← mapDomain F u.mesh p.1.1 p.2.entities
      some (if (cd.lookup (p.1.1, p.1.2, c)).isSome then cd else cd ++ [((p.1.1, p.1.2, c), e)])) cd = some cd' ∧ CdOk F cd' ∧
      (∀ k, (cd.lookup k).isSome → (cd'.lookup k).isSome) ∧ ∀ c ∈ l, (cd'.lookup (p.1.1, p.1.2, c)).isSome := by
  induction l with
  | nil => intro cd h; exact ⟨cd, rfl, h, fun _ h => h, by simp⟩
  | cons c l ih =>
    intro cd h
    obtain ⟨u, e, hu, he⟩ := hl c (by simp)
    simp only [List.foldlM_cons, hu, he, Option.bind_eq_bind, Option.bind_some]
    by_cases hs : (cd.lookup (p.1.1, p.1.2, c)).isSome
    · rw [if_pos hs]
      obtain ⟨cd', h1, h2, h3, h4⟩ := ih (fun c hc => hl c (by simp [hc])) cd h
      refine ⟨cd', h1, h2, h3, ?_⟩
      intro c' hc'
      rcases List.mem_cons.mp hc' with rfl | hc'
      · exact h3 _ hs
      · exact h4 c' hc'
    · rw [if_neg hs]
      have hn : cd.lookup (p.1.1, p.1.2, c) = none := Option.not_isSome_iff_eq_none.mp hs
      have hok : CdOk F (cd ++ [((p.1.1, p.1.2, c), e)]) := by
        intro t i c' e' hl'
        rw [List.lookup_append] at hl'
        cases hc : cd.lookup (t, i, c') with
        | some x =>
          rw [hc, Option.some_or] at hl'
          cases hl'
          exact h t i c' _ hc
        | none =>
          rw [hc, Option.none_or] at hl'
          simp only [List.lookup_cons, List.lookup_nil] at hl'
          split at hl'
          · rename_i hb
            have hb := eq_of_beq hb
            simp only [Prod.mk.injEq] at hb
            obtain ⟨rfl, rfl, rfl⟩ := hb
            cases hl'
            exact ⟨p.2, u, hp, hu, he⟩
          · cases hl'
      obtain ⟨cd', h1, h2, h3, h4⟩ := ih (fun c hc => hl c (by simp [hc])) _ hok
      have hmono : ∀ k, (cd.lookup k).isSome → (cd'.lookup k).isSome := fun k hk =>
        h3 k (by rw [cd_lookup_append _ _ _ _ hk]; exact hk)
      refine ⟨cd', h1, h2, hmono, ?_⟩
      intro c' hc'
      rcases List.mem_cons.mp hc' with rfl | hc'
      · apply h3
        rw [List.lookup_append, hn]
        simp
      · exact h4 c' hc'

theorem cd_outer (F : Form T) (l : List ((Kind × Nat) × IData)) (hsub : ∀ p ∈ l, p ∈ F.integrals)
    (hl : ∀ p ∈ l, ∀ c ∈ p.2.coeffs, ∃ u e, F.coefficients[c]? = some u ∧ mapDomain F u.mesh p.1.1 p.2.entities = some e) :
    ∀ cd, CdOk F cd → ∃ cd', l.foldlM (fun cd p => p.2.coeffs.foldlM (fun cd c => do
      let u ← F.coefficients[c]?
      let e ← mapDomain F u.mesh p.1.1 p.2.entities
      some (if (cd.lookup (p.1.1, p.1.2, c)).isSome then cd else cd ++ [((p.1.1, p.1.2, c), e)])) cd) cd = some cd' ∧ CdOk F cd' ∧
      (∀ k, (cd.lookup k).isSome → (cd'.lookup k).isSome) ∧ ∀ p ∈ l, ∀ c ∈ p.2.coeffs, (cd'.lookup (p.1.1, p.1.2, c)).isSome := by
  induction l with
  | nil => intro cd h; exact ⟨cd, rfl, h, fun _ h => h, by simp⟩
  | cons p l ih =>
    intro cd h
    obtain ⟨c1, h1, h2, h3, h4⟩ := cd_inner F p (hsub p (by simp)) p.2.coeffs (hl p (by simp)) cd h
    obtain ⟨c2, g1, g2, g3, g4⟩ := ih (fun p hp => hsub p (by simp [hp])) (fun p hp => hl p (by simp [hp])) c1 h2
    refine ⟨c2, ?_, g2, fun k hk => g3 k (h3 k hk), ?_⟩
    · rw [List.foldlM_cons, h1]; exact g1
    · intro p' hp' c hc
      rcases List.mem_cons.mp hp' with rfl | hp'
      · exact g3 _ (h4 c hc)
      · exact g4 p' hp' c hc

theorem key_unique {F : Form T} (h : (F.integrals.map Prod.fst).Nodup) {k : Kind × Nat} {d d' : IData} (h1 : (k, d) ∈ F.integrals)
    (h2 : (k, d') ∈ F.integrals) : d = d' := by
  have := List.inj_on_of_nodup_map h h1 h2 rfl
  exact (Prod.mk.inj this).2

/-- The entities of all integrals are found in the meshes of their coefficients. -/
theorem cdata_ok (F : Form T) (h : FormOk F) : ∃ cd, cdata F = some cd ∧
    ∀ p ∈ F.integrals, ∀ c ∈ p.2.coeffs, ∃ u out, F.coefficients[c]? = some u ∧ domainCoeff cd p.1.1 p.1.2 c = some out ∧
      Mapped F u.mesh p.1.1 p.2.entities out := by
  obtain ⟨cd, h1, h2, _, h4⟩ := cd_outer F F.integrals (fun _ h => h) (by
    intro p hp c hc
    obtain ⟨u, hu, _, hd, _⟩ := h.active p hp c hc
    obtain ⟨out, ho, _⟩ := mapDomain_ok F u.mesh p.1.1 p.2.entities hd
    exact ⟨u, out, hu, ho⟩) [] (by intro t i c e he; simp at he)
  refine ⟨cd, h1, ?_⟩
  intro p hp c hc
  obtain ⟨e, he⟩ := Option.isSome_iff_exists.mp (h4 p hp c hc)
  obtain ⟨d, u, hd, hu, hm⟩ := h2 _ _ _ _ he
  obtain rfl : d = p.2 := key_unique h.keys hd hp
  obtain ⟨u', hu', _, hdo, _⟩ := h.active p hp c hc
  rw [hu] at hu'; cases hu'
  obtain ⟨out, ho, hmap⟩ := mapDomain_ok F u.mesh p.1.1 p.2.entities hdo
  rw [hm] at ho; cases ho
  exact ⟨u, e, hu, he, hmap⟩

/-! ## Packing -/

/-- A place of side `s` of row `e` has a cell in the entities. -/
theorem side_exists {t : Kind} {ents : List Int} {n : Nat} (hn : ents.length = width t * n) (hpos : ∀ x ∈ ents, 0 ≤ x) {e s : Nat}
    (hs : s < sides t) (hlt : cellPos t e s < ents.length) : ∃ cell lf, SideOf t ents e s cell lf := by
  have h1 := List.getElem?_eq_getElem hlt
  have hp1 := hpos _ (List.getElem_mem hlt)
  by_cases ht : t = .cell
  · exact ⟨ents[cellPos t e s].toNat, 0, hs, by rw [h1, Int.toNat_of_nonneg hp1], fun h => absurd ht h⟩
  · have hlt' : cellPos t e s + 1 < ents.length := by
      obtain ⟨m, hm⟩ := width_even ht n
      obtain ⟨i, hi⟩ := cellPos_even ht e s
      omega
    have h2 := List.getElem?_eq_getElem hlt'
    have hp2 := hpos _ (List.getElem_mem hlt')
    exact ⟨ents[cellPos t e s].toNat, ents[cellPos t e s + 1].toNat, hs, by rw [h1, Int.toNat_of_nonneg hp1],
      fun _ => by rw [h2, Int.toNat_of_nonneg hp2]⟩

theorem side_row {t : Kind} {ents : List Int} {n : Nat} (hn : ents.length = width t * n) {e s cell lf : Nat} (h : SideOf t ents e s cell lf) : e < n := by
  have hlt := (List.getElem?_eq_some_iff.mp h.2.1).1
  rw [hn, cellPos] at hlt
  by_contra hge
  have : width t * n ≤ width t * e := Nat.mul_le_mul (Nat.le_refl _) (by omega)
  omega

/-- All active coefficients of an integral. -/
theorem packAll_ok (F : Form T) (h : FormOk F) (cd : List ((Kind × Nat × Nat) × List Int))
    (hcd : ∀ p ∈ F.integrals, ∀ c ∈ p.2.coeffs, ∃ u out, F.coefficients[c]? = some u ∧ domainCoeff cd p.1.1 p.1.2 c = some out ∧
      Mapped F u.mesh p.1.1 p.2.entities out)
    (p : (Kind × Nat) × IData) (hp : p ∈ F.integrals) (act : List Nat) (hact : ∀ c ∈ act, c ∈ p.2.coeffs) :
    ∀ c0 : List T, c0.length = p.2.entities.length / width p.1.1 * (sides p.1.1 * before F.coefficients F.coefficients.length) →
    ∃ c', act.foldlM (packOne F cd (coefficientOffsets F.coefficients) p.1.1 p.1.2 (before F.coefficients F.coefficients.length)) c0 = some c' ∧
      c'.length = c0.length ∧
      Filled F p.1.1 ⟨p.2.entities, act⟩ (c0, before F.coefficients F.coefficients.length) (c', before F.coefficients F.coefficients.length) := by
  set us := F.coefficients with hus
  obtain ⟨⟨t, i⟩, d⟩ := p
  simp only at hact ⊢
  obtain ⟨n, hn⟩ := h.rows _ hp
  simp only at hn
  have hw : 0 < width t := by cases t <;> decide
  have hdiv : d.entities.length / width t = n := by rw [hn, Nat.mul_div_cancel_left _ hw]
  rw [hdiv]
  -- places of values are inside
  have hkc : ∀ (c : List T) e s (k c' : Nat), kernelCoeff t (c, before us us.length) e (place us t c' s k) =
      c[sides t * before us us.length * e + start us t c' s + k]? := by
    intro c e s k c'
    rw [kernelCoeff, place, start]
    congr 1
    by_cases hti : t = .interiorFacet
    · subst hti; simp only [if_true, sides]; ring
    · have : sides t = 1 := by cases t <;> first | rfl | exact absurd rfl hti
      rw [if_neg hti, this]; ring
  have hin : ∀ (c : List T), c.length = n * (sides t * before us us.length) → ∀ e s (k c' : Nat) (u : Fn T), e < n → s < sides t → us[c']? = some u →
      k < u.spaceDim → sides t * before us us.length * e + start us t c' s + k < c.length := by
    intro c hc e s k c' u he hs hu hk
    have h1 := start_le_all us t hu hs
    have : sides t * before us us.length * (e + 1) ≤ sides t * before us us.length * n := Nat.mul_le_mul (Nat.le_refl _) he
    rw [Nat.mul_succ] at this
    have hcm : n * (sides t * before us us.length) = sides t * before us us.length * n := Nat.mul_comm _ _
    omega
  have hrefl : ∀ (c : List T), c.length = n * (sides t * before us us.length) → ∀ e s cell lf, SideOf t d.entities e s cell lf → ∀ (c' : Nat) (u : Fn T),
      us[c']? = some u → ∀ k < u.spaceDim, ∃ y, kernelCoeff t (c, before us us.length) e (place us t c' s k) = some y := by
    intro c hc e s cell lf hsd c' u hu k hk
    rw [hkc]
    exact ⟨_, List.getElem?_eq_getElem (hin c hc e s k c' u (side_row hn hsd) hsd.1 hu hk)⟩
  induction act using List.reverseRecOn with
  | nil =>
    intro c0 hc0
    refine ⟨c0, rfl, rfl, ?_⟩
    intro e s cell lf hsd c u hu
    refine ⟨fun hc => by simp at hc, fun _ k hk => ?_⟩
    obtain ⟨y, hy⟩ := hrefl c0 hc0 e s cell lf hsd c u hu k hk
    exact ⟨y, hy, hy⟩
  | append_singleton act a ih =>
    intro c0 hc0
    obtain ⟨c1, h1, h2, h3⟩ := ih (fun c hc => hact c (by simp [hc])) c0 hc0
    have haa : a ∈ d.coeffs := hact a (by simp)
    obtain ⟨u, out, hu, hout, hm⟩ := hcd _ hp a haa
    obtain ⟨u', hu', hfn, hdo, hrange⟩ := h.active _ hp a haa
    rw [← hus] at hu'
    rw [hu] at hu'; cases hu'
    simp only at hdo hrange hm hout
    obtain ⟨hm1, hm2, hm3⟩ := hm
    have hpos := hdo.2.1
    -- cells that were found
    have hval : ∀ e s (x : Int), s < sides t → out[cellPos t e s]? = some x → ∃ cell lf, SideOf t d.entities e s cell lf ∧
        ((∃ j : Nat, x = j ∧ IsCell F.mesh u.mesh (u.mesh.id = F.mesh.id) F.maps F.c2e cell lf j) ∨
        (x = -1 ∧ ∀ j, ¬ IsCell F.mesh u.mesh (u.mesh.id = F.mesh.id) F.maps F.c2e cell lf j)) := by
      intro e s x hs hx
      obtain ⟨cell, lf, hsd⟩ := side_exists hn hpos hs (by rw [← hm1]; exact (List.getElem?_eq_some_iff.mp hx).1)
      refine ⟨cell, lf, hsd, ?_⟩
      obtain ⟨g1, g2⟩ := hm3 e s cell lf hs hsd.2.1 hsd.2.2
      by_cases hex : ∃ j, IsCell F.mesh u.mesh (u.mesh.id = F.mesh.id) F.maps F.c2e cell lf j
      · obtain ⟨j, hj⟩ := hex
        have := g1 j hj
        rw [hx] at this
        exact Or.inl ⟨j, Option.some.inj this, hj⟩
      · have hne : ∀ j, ¬ IsCell F.mesh u.mesh (u.mesh.id = F.mesh.id) F.maps F.c2e cell lf j := fun j hj => hex ⟨j, hj⟩
        have := g2 hne
        rw [hx] at this
        exact Or.inr ⟨Option.some.inj this, hne⟩
    obtain ⟨c2, p1, p2, p3, p4⟩ := packOne_ok F cd t i n a u c1 out hu hfn (by
        intro ht
        by_cases hid : u.mesh.id = F.mesh.id
        · rw [h.meshes u (List.mem_of_getElem? hu) hid]
        · rcases (hdo.2.2 hid).2.2.1 with g | g
          · omega
          · exact absurd ht g.1) hout (by rw [hm1, hn]) (by
        intro e s x hs hx
        obtain ⟨cell, lf, hsd, hh⟩ := hval e s x hs hx
        rcases hh with ⟨j, rfl, hj⟩ | ⟨rfl, _⟩
        · right; simpa using hrange e s cell lf j hsd hj
        · left; omega) (by rw [h2, hc0])
    rw [← hus] at p1 p3 p4
    have hc1 : c1.length = n * (sides t * before us us.length) := by rw [h2, hc0]
    have hc2 : c2.length = n * (sides t * before us us.length) := by rw [p2, hc1]
    -- other coefficients keep their values
    have hkeep : ∀ e s cell lf, SideOf t d.entities e s cell lf → ∀ (c : Nat) (v : Fn T), us[c]? = some v →
        (c ≠ a ∨ ∀ j, ¬ IsCell F.mesh u.mesh (u.mesh.id = F.mesh.id) F.maps F.c2e cell lf j) → ∀ k < v.spaceDim,
        kernelCoeff t (c2, before us us.length) e (place us t c s k) = kernelCoeff t (c1, before us us.length) e (place us t c s k) := by
      intro e s cell lf hsd c v hv hne k hk
      rw [hkc, hkc]
      refine p4 _ ?_
      intro e' s' j' hs' hj'
      refine start_apart us t (c := c) (s := s) (e := e) (c' := a) (s' := s') (e' := e') hv hu hsd.1 hs' ?_ (by omega) (by omega)
      by_contra hcon
      rw [not_or, not_or, not_not, not_not, not_not] at hcon
      obtain ⟨rfl, rfl, rfl⟩ := hcon
      rcases hne with hne | hne
      · exact hne rfl
      · obtain ⟨cell', lf', hsd', hh⟩ := hval e s _ hs' hj'
        have hcc : cell' = cell := by
          have := hsd'.2.1
          rw [hsd.2.1] at this
          have := Option.some.inj this
          omega
        subst hcc
        rw [(hm3 e s cell' lf hs' hsd.2.1 hsd.2.2).2 hne] at hj'
        have := Option.some.inj hj'
        omega
    refine ⟨c2, ?_, by omega, ?_⟩
    · rw [List.foldlM_append, h1]
      simp only [Option.bind_eq_bind, Option.bind_some, List.foldlM_cons, List.foldlM_nil, p1]
      rfl
    · intro e s cell lf hsd c v hv
      rw [← hus] at hv
      obtain ⟨q1, q2⟩ := h3 e s cell lf hsd c v hv
      rw [← hus] at q1 q2 ⊢
      constructor
      · intro hc j hj
        by_cases hca : c = a
        · subst hca
          rw [hu] at hv; cases hv
          obtain ⟨vals, r1, r2⟩ := p3 e s j hsd.1 ((hm3 e s cell lf hsd.1 hsd.2.1 hsd.2.2).1 j hj)
          refine ⟨vals, r1, fun k hk => ?_⟩
          rw [hkc]
          exact r2 k hk
        · obtain ⟨vals, r1, r2⟩ := q1 (by simpa [hca] using hc) j hj
          refine ⟨vals, r1, fun k hk => ?_⟩
          rw [hkeep e s cell lf hsd c v hv (Or.inl hca) k hk]
          exact r2 k hk
      · intro hc k hk
        by_cases hca : c = a
        · subst hca
          rw [hu] at hv; cases hv
          have hno : ∀ j, ¬ IsCell F.mesh u.mesh (u.mesh.id = F.mesh.id) F.maps F.c2e cell lf j := by
            rcases hc with hc | hc
            · simp at hc
            · exact hc
          rw [hkeep e s cell lf hsd c u hu (Or.inr hno) k hk]
          exact q2 (Or.inr hno) k hk
        · rw [hkeep e s cell lf hsd c v hv (Or.inl hca) k hk]
          refine q2 ?_ k hk
          rcases hc with hc | hc
          · left; simpa [hca] using hc
          · exact Or.inr hc

theorem keyed_mem {κ ε : Type} [BEq κ] [LawfulBEq κ] {l : List (κ × ε)} (h : (l.map Prod.fst).Nodup) {k : κ} {e : ε} (hm : (k, e) ∈ l) :
    l.lookup k = some e := by
  induction l with
  | nil => simp at hm
  | cons p l ih =>
    simp only [List.map_cons, List.nodup_cons] at h
    rcases List.mem_cons.mp hm with rfl | hm'
    · simp
    · have hne : (k == p.1) = false := by
        simp only [beq_eq_false_iff_ne]
        rintro rfl
        exact h.1 (List.mem_map.mpr ⟨_, hm', rfl⟩)
      rw [List.lookup_cons, hne]
      exact ih h.2 hm'

theorem active_ok (F : Form T) (h : FormOk F) {t : Kind} {i : Nat} {d : IData} (hd : ((t, i), d) ∈ F.integrals) :
    activeCoeffs F t i = some d.coeffs := by
  have hs : (F.integrals.find? fun p => p.1.1 == t && p.1.2 == i).isSome := by
    rw [List.find?_isSome]
    exact ⟨_, hd, by simp⟩
  obtain ⟨p, hp⟩ := Option.isSome_iff_exists.mp hs
  have h1 := List.find?_some hp
  simp only [Bool.and_eq_true, beq_iff_eq] at h1
  have h2 := List.mem_of_find?_eq_some hp
  obtain ⟨⟨t', i'⟩, d'⟩ := p
  obtain ⟨rfl, rfl⟩ := h1
  rw [activeCoeffs, hp, key_unique h.keys hd h2]
  rfl

theorem sides_width (t : Kind) (n : Nat) (ht : t ≠ .cell) : width t * n / 2 = n * sides t := by
  cases t <;> simp only [width, sides] <;> first | exact absurd rfl ht | omega

/-- C75: packing into storage with any values in it.  For every integral, kernels get the values of each active coefficient on the cell of its mesh
that is the entity of the kernel; places of other coefficients, and of entities that are not in the mesh of the coefficient, keep what they had. -/
theorem C75_pack (F : Form T) (h : FormOk F) (b : Packed T) (hb : ∀ p ∈ b, StorageOk F p) :
    ∃ cd b', cdata F = some cd ∧ packCoefficients F cd b = some b' ∧ b'.length = b.length ∧
      ∀ (m : Nat) key old, b[m]? = some (key, old) → ∃ new, b'[m]? = some (key, new) ∧ new.2 = old.2 ∧ new.1.length = old.1.length ∧
        ∀ d, (key, d) ∈ F.integrals → Filled F key.1 d old new := by
  obtain ⟨cd, hcd, hcd'⟩ := cdata_ok F h
  have hone : ∀ p ∈ b, ∃ p', (if F.coefficients.isEmpty then some p
      else do
        let act ← activeCoeffs F p.1.1 p.1.2
        let c ← act.foldlM (packOne F cd (coefficientOffsets F.coefficients) p.1.1 p.1.2 p.2.2) p.2.1
        some (p.1, (c, p.2.2))) = some p' ∧ p'.1 = p.1 ∧ p'.2.2 = p.2.2 ∧ p'.2.1.length = p.2.1.length ∧
        ∀ d, (p.1, d) ∈ F.integrals → Filled F p.1.1 d p.2 p'.2 := by
    intro p hp
    obtain ⟨d, hd, hcs, hlen⟩ := hb p hp
    by_cases hemp : F.coefficients.isEmpty
    · refine ⟨p, by rw [if_pos hemp], rfl, rfl, rfl, ?_⟩
      intro d' _ e s cell lf _ c u hu
      rw [List.isEmpty_iff.mp hemp] at hu
      simp at hu
    · obtain ⟨⟨t, i⟩, data, cs⟩ := p
      simp only at hd hcs hlen
      subst hcs
      obtain ⟨c', h1, h2, h3⟩ := packAll_ok F h cd hcd' ((t, i), d) hd d.coeffs (fun _ h => h) data hlen
      refine ⟨((t, i), (c', before F.coefficients F.coefficients.length)), ?_, rfl, rfl, h2, ?_⟩
      · rw [if_neg hemp]
        simp only [active_ok F h hd, Option.bind_eq_bind, Option.bind_some]
        simp only at h1
        rw [h1]; rfl
      · intro d' hd'
        obtain rfl := key_unique h.keys hd hd'
        exact h3
  obtain ⟨b', hb1, hb2, hb3⟩ := mapM_some_get _ b (fun p hp => by
    obtain ⟨p', h', _⟩ := hone p hp
    exact ⟨p', h'⟩)
  refine ⟨cd, b', hcd, hb1, hb2, ?_⟩
  intro m key old hm
  obtain ⟨p', h1, h2, h3, h4, h5⟩ := hone _ (List.mem_of_getElem? hm)
  have := hb3 m _ hm
  rw [h1] at this
  refine ⟨p'.2, ?_, h3, h4, h5⟩
  rw [this]
  exact congrArg some (Prod.ext h2 rfl)

/-- What `allocate_coefficient_storage` gives: for every integral storage of the right size, filled with zeros. -/
theorem allocate_ok [Zero T] (F : Form T) (h : FormOk F) (hne : F.coefficients ≠ []) : ∃ b, allocate F = some b ∧ (∀ p ∈ b, StorageOk F p ∧ ∀ y ∈ p.2.1, y = 0) ∧
    ∀ q ∈ F.integrals, ∃ old, (q.1, old) ∈ b := by
  have hcs := offsets_last F.coefficients
  have hemp : F.coefficients.isEmpty = false := by
    cases hc : F.coefficients with
    | nil => exact absurd hc hne
    | cons a l => rfl
  have hmem : ∀ k : Kind × Nat, k ∈ ((integralTypes F).flatMap fun t => (List.range (numIntegrals F t)).map fun i => (t, i)) ↔
      k ∈ F.integrals.map Prod.fst := by
    rintro ⟨t, i⟩
    simp only [List.mem_flatMap, List.mem_map, List.mem_range, Prod.mk.injEq]
    constructor
    · rintro ⟨t', ht', i', hi', rfl, rfl⟩
      have := (h.numbered t' i').mpr hi'
      simpa using this
    · rintro ⟨p, hp, hpk⟩
      refine ⟨t, ?_, i, ?_, rfl, rfl⟩
      · rw [integralTypes, List.mem_filter]
        refine ⟨by cases t <;> simp, ?_⟩
        rw [List.any_eq_true]
        exact ⟨p, hp, by rw [hpk]; simp⟩
      · exact (h.numbered t i).mp (List.mem_map.mpr ⟨p, hp, hpk⟩)
  have hone : ∀ k ∈ ((integralTypes F).flatMap fun t => (List.range (numIntegrals F t)).map fun i => (t, i)),
      ∃ p : (Kind × Nat) × (List T × Nat), ((allocateOne F k.1 k.2).map fun d => (k, d)) = some p ∧ p.1 = k ∧ StorageOk F p ∧ ∀ y ∈ p.2.1, y = 0 := by
    rintro ⟨t, i⟩ hk
    obtain ⟨⟨k', d⟩, hd, hkd⟩ := List.mem_map.mp ((hmem _).mp hk)
    simp only at hkd
    subst hkd
    have hdom : domain F t i = some d.entities := by rw [domain, keyed_mem h.keys hd]; rfl
    obtain ⟨n, hn⟩ := h.rows _ hd
    simp only at hn
    refine ⟨((t, i), (List.replicate ((if t = .cell then d.entities.length else d.entities.length / 2) * before F.coefficients F.coefficients.length) 0,
      before F.coefficients F.coefficients.length)), ?_, rfl, ⟨d, hd, rfl, ?_⟩, ?_⟩
    · rw [allocateOne, if_neg (by rw [hemp]; decide)]
      simp only [hdom, Option.bind_eq_bind, Option.bind_some, hcs]
      rfl
    · have hw : 0 < width t := by cases t <;> decide
      simp only [List.length_replicate]
      rw [hn, Nat.mul_div_cancel_left _ hw]
      by_cases ht : t = .cell
      · subst ht; simp only [if_true, width, sides]; ring
      · rw [if_neg ht, sides_width t n ht]; ring
    · intro y hy
      exact (List.mem_replicate.mp hy).2
  obtain ⟨b, hb1, hb2, hb3⟩ := mapM_some_get _ _ (fun k hk => by
    obtain ⟨p, hp, _⟩ := hone k hk
    exact ⟨p, hp⟩)
  have hkeyof : ∀ p ∈ b, StorageOk F p ∧ ∀ y ∈ p.2.1, y = 0 := by
    intro p hp
    obtain ⟨m, hm⟩ := List.mem_iff_getElem?.mp hp
    have hml := (List.getElem?_eq_some_iff.mp hm).1
    rw [hb2] at hml
    have hk := List.getElem?_eq_getElem hml
    have := hb3 m _ hk
    obtain ⟨p', hp', _, hs⟩ := hone _ (List.getElem_mem hml)
    rw [hm, hp'] at this
    cases this
    exact hs
  refine ⟨b, hb1, hkeyof, ?_⟩
  intro q hq
  obtain ⟨m, hm⟩ := List.mem_iff_getElem?.mp ((hmem q.1).mpr (List.mem_map.mpr ⟨q, hq, rfl⟩))
  obtain ⟨p, hp, hpk, _⟩ := hone _ (List.mem_of_getElem? hm)
  have := hb3 m _ hm
  rw [hp] at this
  refine ⟨p.2, ?_⟩
  rw [← hpk]
  exact List.mem_of_getElem? this

/-- C75: coefficients of a form.  Storage is allocated for every integral and packed: on the cell that is the entity of the kernel, kernels
get the values of active coefficients, at the places for which they were compiled; all other values are zero. -/
theorem C75_coefficients [Zero T] (F : Form T) (h : FormOk F) (hne : F.coefficients ≠ []) :
    ∃ cd b b', cdata F = some cd ∧ allocate F = some b ∧ packCoefficients F cd b = some b' ∧
      ∀ t i d, ((t, i), d) ∈ F.integrals → ∃ new, ((t, i), new) ∈ b' ∧
        ∀ e s cell lf, SideOf t d.entities e s cell lf → ∀ (c : Nat) (u : Fn T), F.coefficients[c]? = some u →
          (c ∈ d.coeffs → ∀ j, IsCell F.mesh u.mesh (u.mesh.id = F.mesh.id) F.maps F.c2e cell lf j →
            ∃ vals, LocalValues u j vals ∧ ∀ k < u.spaceDim, ∃ y : T,
              kernelCoeff t new e (place F.coefficients t c s k) = some y ∧ (u.transform j vals)[k]? = some y) ∧
          ((c ∉ d.coeffs ∨ ∀ j, ¬ IsCell F.mesh u.mesh (u.mesh.id = F.mesh.id) F.maps F.c2e cell lf j) →
            ∀ k < u.spaceDim, kernelCoeff t new e (place F.coefficients t c s k) = some 0) := by
  obtain ⟨b, hb, hb1, hb2⟩ := allocate_ok F h hne
  obtain ⟨cd, b', hcd, hp, hlen, hget⟩ := C75_pack F h b fun p hp => (hb1 p hp).1
  refine ⟨cd, b, b', hcd, hb, hp, ?_⟩
  intro t i d hd
  obtain ⟨old, hold⟩ := hb2 _ hd
  obtain ⟨m, hm⟩ := List.mem_iff_getElem?.mp hold
  obtain ⟨new, h1, _, _, h2⟩ := hget m _ _ hm
  refine ⟨new, List.mem_of_getElem? h1, ?_⟩
  intro e s cell lf hsd c u hu
  obtain ⟨g1, g2⟩ := h2 d hd e s cell lf hsd c u hu
  refine ⟨g1, ?_⟩
  intro hc k hk
  obtain ⟨y, hy1, hy2⟩ := g2 hc k hk
  have : y = 0 := (hb1 _ hold).2 y (by
    rw [kernelCoeff] at hy2
    exact List.mem_of_getElem? hy2)
  rw [hy1, this]

/-- C75: arguments of a form.  For every argument, `domain_arg` has the entities of each integral in the mesh of the argument, `-1` for
cells that are not in this mesh. -/
theorem C75_arguments (F : Form T) (hkeys : (F.integrals.map Prod.fst).Nodup)
    (h : ∀ m ∈ F.args, ∀ p ∈ F.integrals, DomainOk F m p.1.1 p.2.entities) :
    ∃ ed, edata F = some ed ∧ ∀ (r : Nat) m, F.args[r]? = some m → ∀ t i d, ((t, i), d) ∈ F.integrals →
      ∃ out, domainArg ed t r i = some out ∧ Mapped F m t d.entities out := by
  have hone : ∀ m ∈ F.args, ∃ l, (F.integrals.mapM fun p => (mapDomain F m p.1.1 p.2.entities).map fun e => (p.1, e)) = some l ∧
      ∀ t i d, ((t, i), d) ∈ F.integrals → ∃ out, l.lookup (t, i) = some out ∧ Mapped F m t d.entities out := by
    intro m hm
    obtain ⟨l, h1, h2, h3⟩ := mapM_some_get (fun p : (Kind × Nat) × IData => (mapDomain F m p.1.1 p.2.entities).map fun e => (p.1, e)) F.integrals (by
      intro p hp
      obtain ⟨out, ho, _⟩ := mapDomain_ok F m _ _ (h m hm p hp)
      exact ⟨(p.1, out), by rw [ho]; rfl⟩)
    have hkl : l.map Prod.fst = F.integrals.map Prod.fst := by
      refine List.ext_getElem? fun k => ?_
      rw [List.getElem?_map, List.getElem?_map]
      rcases Nat.lt_or_ge k F.integrals.length with hk | hk
      · have hg := List.getElem?_eq_getElem hk
        rw [h3 k _ hg, hg]
        obtain ⟨out, ho, _⟩ := mapDomain_ok F m _ _ (h m hm _ (List.getElem_mem hk))
        rw [ho]; rfl
      · rw [List.getElem?_eq_none hk, List.getElem?_eq_none (by omega)]
        rfl
    refine ⟨l, h1, ?_⟩
    intro t i d hd
    obtain ⟨out, ho, hmp⟩ := mapDomain_ok F m _ _ (h m hm _ hd)
    refine ⟨out, keyed_mem (by rw [hkl]; exact hkeys) ?_, hmp⟩
    obtain ⟨k, hk⟩ := List.mem_iff_getElem?.mp hd
    have := h3 k _ hk
    simp only at ho
    simp only [ho, Option.map_some] at this
    exact List.mem_of_getElem? this
  obtain ⟨ed, h1, h2, h3⟩ := mapM_some_get _ F.args (fun m hm => by
    obtain ⟨l, hl, _⟩ := hone m hm
    exact ⟨l, hl⟩)
  refine ⟨ed, h1, ?_⟩
  intro r m hm t i d hd
  obtain ⟨l, hl, hl'⟩ := hone m (List.mem_of_getElem? hm)
  obtain ⟨out, ho, hmp⟩ := hl' t i d hd
  refine ⟨out, ?_, hmp⟩
  rw [domainArg, h3 r m hm, hl]
  exact ho

/-! ## Expressions -/

theorem row_cell {ents : Ents} {e cell lf : Nat} (hr : RowOf ents e cell lf) : ents.cell[e]? = some (cell : Int) := by
  cases ents with
  | cells l => exact hr
  | pairs l =>
    simp only [RowOf] at hr
    simp only [Ents.cell, List.getElem?_map, hr]; rfl

/-- Cells of the mesh of a coefficient. -/
theorem extract_ok (mesh m0 : MeshId) (maps : List EMap) (c2e : Nat → List (List Nat)) (ents : Ents) (h : EntsOk mesh m0 maps c2e ents) :
    ∃ r, extractCells mesh m0 maps c2e ents = some r ∧ r.length = ents.cell.length ∧
      ∀ e cell lf, RowOf ents e cell lf →
        (∀ j, IsCell mesh m0 (m0.topo = mesh.topo) maps c2e cell lf j → r[e]? = some (j : Int)) ∧
        ((∀ j, ¬ IsCell mesh m0 (m0.topo = mesh.topo) maps c2e cell lf j) → r[e]? = some (-1)) := by
  obtain ⟨hrows, h⟩ := h
  have hcell := fun e cell lf hr => row_cell (ents := ents) (e := e) (cell := cell) (lf := lf) hr
  have hpos : ∀ x ∈ ents.cell, 0 ≤ x := by
    intro x hx
    obtain ⟨e, he⟩ := List.mem_iff_getElem?.mp hx
    obtain ⟨cell, lf, hr⟩ := hrows e (List.getElem?_eq_some_iff.mp he).1
    rw [hcell e cell lf hr] at he
    rw [← Option.some.inj he]
    exact Int.natCast_nonneg _
  by_cases hid : m0.topo = mesh.topo
  · refine ⟨ents.cell, by rw [extractCells, if_pos hid], rfl, ?_⟩
    intro e cell lf hr
    constructor
    · intro j hj
      rw [IsCell, if_pos hid] at hj
      rw [hj, hcell e cell lf hr]
    · intro hn
      refine absurd ?_ (hn cell)
      rw [IsCell, if_pos hid]
  · obtain ⟨hmaps, hd1, hd2⟩ := h hid
    obtain ⟨em, hem, hem', hdir⟩ := findMap_ok hmaps
    by_cases hd : m0.dim = mesh.dim
    · obtain ⟨r, hr, hlen, hget⟩ := apply_ok hmaps hem ents.cell hpos (hd1 hd)
      refine ⟨r, ?_, hlen, ?_⟩
      · rw [extractCells, if_neg hid, hem]
        cases ents with
        | cells l => simp only [Option.bind_eq_bind, Option.bind_some, if_pos hd]; exact hr
        | pairs l => simp only [Option.bind_eq_bind, Option.bind_some, if_pos hd]; exact hr
      · intro e cell lf hrow
        have := hget e cell (hcell e cell lf hrow)
        unfold IsCell
        simp only [if_neg hid, if_pos hd]
        exact this
    · obtain ⟨hlt, hno, l, rfl, hent⟩ := hd2 hd
      have hsub : em.sub = m0.topo := by
        rcases hdir with h | h
        · exact h.1
        · exact absurd ⟨h.2, h.1⟩ (hno em hem')
      obtain ⟨fs, hfs, hfl, hfg⟩ := mapM_some_get (entityAt (c2e (mesh.dim - m0.dim))) l (by
        intro p hp
        obtain ⟨cell, lf, rfl, es, f, h1, h2⟩ := hent p hp
        refine ⟨(f : Int), ?_⟩
        rw [entityAt, if_neg (by simp only; omega)]
        simp [h1, h2])
      have hfpos : ∀ x ∈ fs, 0 ≤ x := by
        intro x hx
        obtain ⟨k, hk⟩ := List.mem_iff_getElem?.mp hx
        have hkl : k < l.length := by rw [← hfl]; exact (List.getElem?_eq_some_iff.mp hk).1
        have h1 := hfg k _ (List.getElem?_eq_getElem hkl)
        rw [hk, entityAt] at h1
        split at h1
        · cases h1
        · obtain ⟨y, _, hy⟩ := Option.map_eq_some_iff.mp h1.symm
          rw [← hy]; exact Int.natCast_nonneg _
      obtain ⟨r, hr, hlen, hget⟩ := apply_ok hmaps hem fs hfpos
        (fun hc => by obtain ⟨em', he1, he2⟩ := hc; exact absurd he2 (hno em' he1))
      refine ⟨r, ?_, by rw [hlen, hfl]; simp [Ents.cell], ?_⟩
      · rw [extractCells, if_neg hid, hem]
        have hb : (em.sub == m0.topo) = true := by simpa using hsub
        rw [hb] at hr
        simp only [Option.bind_eq_bind, Option.bind_some, if_neg hd, hb]
        rw [if_neg (by simp only [Bool.true_eq_false, false_or]; omega), hfs]
        exact hr
      · intro e cell lf hrow
        simp only [RowOf] at hrow
        obtain ⟨cell', lf', heq, es, f, h1, h2⟩ := hent _ (List.mem_of_getElem? hrow)
        simp only [Prod.mk.injEq, Int.natCast_inj] at heq
        obtain ⟨rfl, rfl⟩ := heq
        have hfe := hfg e _ hrow
        have hea : entityAt (c2e (mesh.dim - m0.dim)) ((cell : Int), (lf : Int)) = some (f : Int) := by
          rw [entityAt, if_neg (by simp only; omega)]
          simp [h1, h2]
        rw [hea] at hfe
        obtain ⟨g1, g2⟩ := hget e f hfe
        have hic : ∀ j, IsCell mesh m0 (m0.topo = mesh.topo) maps c2e cell lf j ↔ Same maps mesh m0 f j := by
          intro j
          unfold IsCell
          rw [if_neg hid, if_neg hd]
          constructor
          · rintro ⟨es', f', e1, e2, e3⟩
            rw [h1] at e1; cases e1
            rw [h2] at e2; cases e2
            exact e3
          · intro e3
            exact ⟨es, f, h1, h2, e3⟩
        exact ⟨fun j hj => g1 j ((hic j).mp hj), fun hn => g2 fun j hj => hn j ((hic j).mpr hj)⟩

/-- C75: coefficients of an expression, which are evaluated for a list of cells, or of cells with local numbers of entities: as for forms. -/
theorem C75_expression (us : List (Fn T)) (mesh : MeshId) (ents : Ents) (maps : List EMap) (c2e : Nat → List (List Nat)) (c0 : List T)
    (hfn : ∀ u ∈ us, FnOk u ∧ EntsOk mesh u.mesh maps c2e ents ∧
      ∀ e cell lf j, RowOf ents e cell lf → IsCell mesh u.mesh (u.mesh.topo = mesh.topo) maps c2e cell lf j → j < u.dofs.length)
    (hc0 : ents.cell.length * before us us.length ≤ c0.length) :
    ∃ c', packExpression us mesh ents maps c2e c0 = some c' ∧ c'.length = c0.length ∧
      ∀ e cell lf, RowOf ents e cell lf → ∀ (c : Nat) (u : Fn T), us[c]? = some u →
        (∀ j, IsCell mesh u.mesh (u.mesh.topo = mesh.topo) maps c2e cell lf j →
          ∃ vals, LocalValues u j vals ∧ ∀ k < u.spaceDim, ∃ y : T,
            c'[before us us.length * e + (before us c + k)]? = some y ∧ (u.transform j vals)[k]? = some y) ∧
        ((∀ j, ¬ IsCell mesh u.mesh (u.mesh.topo = mesh.topo) maps c2e cell lf j) → ∀ k < u.spaceDim,
          c'[before us us.length * e + (before us c + k)]? = c0[before us us.length * e + (before us c + k)]?) := by
  have hlast := offsets_last us
  have hst : ∀ c, start us .cell c 0 = before us c := fun c => by simp [start, sides]
  have hstep : ∀ m ≤ us.length, ∃ c', (us.zipIdx.take m).foldlM (fun c (p : Fn T × Nat) => do
      let cells ← extractCells mesh p.1.mesh maps c2e ents
      packEntity p.1 c ((coefficientOffsets us).getLastD 0) cells ((coefficientOffsets us).getD p.2 0)) c0 = some c' ∧ c'.length = c0.length ∧
      ∀ e cell lf, RowOf ents e cell lf → ∀ (c : Nat) (u : Fn T), us[c]? = some u →
        (c < m → ∀ j, IsCell mesh u.mesh (u.mesh.topo = mesh.topo) maps c2e cell lf j → GoodAt u c' (before us us.length * e + before us c) j) ∧
        ((m ≤ c ∨ ∀ j, ¬ IsCell mesh u.mesh (u.mesh.topo = mesh.topo) maps c2e cell lf j) → ∀ k < u.spaceDim,
          c'[before us us.length * e + (before us c + k)]? = c0[before us us.length * e + (before us c + k)]?) := by
    intro m
    induction m with
    | zero =>
      intro _
      exact ⟨c0, by simp, rfl, fun e cell lf _ c u _ => ⟨fun h => absurd h (by omega), fun _ _ _ => rfl⟩⟩
    | succ m ih =>
      intro hm
      obtain ⟨c1, h1, h2, h3⟩ := ih (by omega)
      obtain ⟨u, hu⟩ : ∃ u, us[m]? = some u := ⟨us[m], List.getElem?_eq_getElem (by omega)⟩
      obtain ⟨f1, f2, f3⟩ := hfn u (List.mem_of_getElem? hu)
      obtain ⟨cells, g1, g2, g3⟩ := extract_ok mesh u.mesh maps c2e ents f2
      have hle := start_le_all us .cell hu (s := 0) (by decide)
      rw [hst] at hle
      simp only [sides, Nat.one_mul] at hle
      have hval : ∀ e (x : Int), cells[e]? = some x → ∃ cell lf, RowOf ents e cell lf ∧
          ((∃ j : Nat, x = j ∧ IsCell mesh u.mesh (u.mesh.topo = mesh.topo) maps c2e cell lf j) ∨
          (x = -1 ∧ ∀ j, ¬ IsCell mesh u.mesh (u.mesh.topo = mesh.topo) maps c2e cell lf j)) := by
        intro e x hx
        obtain ⟨cell, lf, hr⟩ := f2.1 e (by rw [← g2]; exact (List.getElem?_eq_some_iff.mp hx).1)
        refine ⟨cell, lf, hr, ?_⟩
        obtain ⟨q1, q2⟩ := g3 e cell lf hr
        by_cases hex : ∃ j, IsCell mesh u.mesh (u.mesh.topo = mesh.topo) maps c2e cell lf j
        · obtain ⟨j, hj⟩ := hex
          have := q1 j hj
          rw [hx] at this
          exact Or.inl ⟨j, Option.some.inj this, hj⟩
        · have hne : ∀ j, ¬ IsCell mesh u.mesh (u.mesh.topo = mesh.topo) maps c2e cell lf j := fun j hj => hex ⟨j, hj⟩
          have := q2 hne
          rw [hx] at this
          exact Or.inr ⟨Option.some.inj this, hne⟩
      obtain ⟨c2, p1, p2, p3, p4⟩ := packEntity_ok u f1 (before us us.length) (before us m) (by omega) cells (by
        intro x hx
        obtain ⟨e, he⟩ := List.mem_iff_getElem?.mp hx
        obtain ⟨cell, lf, hr, hh⟩ := hval e x he
        rcases hh with ⟨j, rfl, hj⟩ | ⟨rfl, _⟩
        · right; simpa using f3 e cell lf j hr hj
        · left; omega) c1 (by rw [g2, h2]; exact hc0)
      have hoff : (coefficientOffsets us).getD m 0 = before us m := by
        rw [List.getD_eq_getElem?_getD, offsets_get us m (by omega)]; rfl
      have hkeep : ∀ e cell lf, RowOf ents e cell lf → ∀ (c : Nat) (v : Fn T), us[c]? = some v →
          (c ≠ m ∨ ∀ j, ¬ IsCell mesh u.mesh (u.mesh.topo = mesh.topo) maps c2e cell lf j) → ∀ q, before us us.length * e + before us c ≤ q →
          q < before us us.length * e + before us c + v.spaceDim → c2[q]? = c1[q]? := by
        intro e cell lf hr c v hv hne q hq hq'
        refine p4 q ?_
        intro e' j' hj'
        have hap := start_apart us .cell (c := c) (s := 0) (e := e) (c' := m) (s' := 0) (e' := e') hv hu (by decide) (by decide) (q := q)
        rw [hst, hst] at hap
        simp only [sides, Nat.one_mul] at hap
        refine hap ?_ hq hq'
        by_contra hcon
        rw [not_or, not_or, not_not, not_not, not_not] at hcon
        obtain ⟨rfl, _, rfl⟩ := hcon
        rcases hne with hne | hne
        · exact hne rfl
        · rw [(g3 e cell lf hr).2 hne] at hj'
          have := Option.some.inj hj'
          omega
      refine ⟨c2, ?_, by omega, ?_⟩
      · have hz : us.zipIdx[m]? = some (u, m) := by rw [List.getElem?_zipIdx, hu]; simp
        have htake : us.zipIdx.take (m + 1) = us.zipIdx.take m ++ [(u, m)] := by
          rw [List.take_succ, hz]; rfl
        rw [htake, List.foldlM_append, h1]
        simp only [Option.bind_eq_bind, Option.bind_some, List.foldlM_cons, List.foldlM_nil, g1, hoff, hlast, p1]
        rfl
      · intro e cell lf hr c v hv
        obtain ⟨q1, q2⟩ := h3 e cell lf hr c v hv
        constructor
        · intro hc j hj
          by_cases hcm : c = m
          · subst hcm
            rw [hu] at hv; cases hv
            exact p3 e j ((g3 e cell lf hr).1 j hj)
          · exact (q1 (by omega) j hj).congr fun q hq hq' => hkeep e cell lf hr c v hv (Or.inl hcm) q hq hq'
        · intro hc k hk
          by_cases hcm : c = m
          · subst hcm
            rw [hu] at hv; cases hv
            have hno : ∀ j, ¬ IsCell mesh u.mesh (u.mesh.topo = mesh.topo) maps c2e cell lf j := by
              rcases hc with hc | hc
              · omega
              · exact hc
            rw [hkeep e cell lf hr c u hu (Or.inr hno) _ (by omega) (by omega)]
            exact q2 (Or.inr hno) k hk
          · rw [hkeep e cell lf hr c v hv (Or.inl hcm) _ (by omega) (by omega)]
            refine q2 ?_ k hk
            rcases hc with hc | hc
            · left; omega
            · exact Or.inr hc
  obtain ⟨c', h1, h2, h3⟩ := hstep us.length (Nat.le_refl _)
  refine ⟨c', ?_, h2, ?_⟩
  · rw [packExpression, if_neg (by rw [hlast]; omega), ← h1, List.take_of_length_le (by simp)]
  · intro e cell lf hr c u hu
    obtain ⟨q1, q2⟩ := h3 e cell lf hr c u hu
    refine ⟨fun j hj => ?_, fun hn => q2 (Or.inr hn)⟩
    obtain ⟨vals, r1, r2⟩ := q1 (List.getElem?_eq_some_iff.mp hu).1 j hj
    refine ⟨vals, r1, fun k hk => ?_⟩
    rw [← Nat.add_assoc]
    exact r2 k hk

/-! ## Constants -/

/-- C75: constants are packed one after another. -/
theorem C75_constants [Zero T] (cs : List (List T)) : packConstants cs = some cs.flatten := by
  have hsum : ∀ (l : List (List T)) n, l.foldl (fun n v => n + v.length) n = n + l.flatten.length := by
    intro l
    induction l with
    | nil => simp
    | cons v l ih => intro n; rw [List.foldl_cons, ih]; simp; omega
  have hgen : ∀ (l done : List (List T)) (rest : List T), rest.length = l.flatten.length →
      (l.foldlM (fun (s : List T × Nat) v =>
        if s.2 + v.length ≤ s.1.length then some (s.1.take s.2 ++ v ++ s.1.drop (s.2 + v.length), s.2 + v.length) else none)
        (done.flatten ++ rest, done.flatten.length)) = some ((done ++ l).flatten, (done ++ l).flatten.length) := by
    intro l
    induction l with
    | nil => intro done rest hr; simp at hr; subst hr; simp
    | cons v l ih =>
      intro done rest hr
      simp only [List.flatten_cons, List.length_append] at hr
      rw [List.foldlM_cons]
      simp only
      rw [if_pos (by rw [List.length_append]; omega)]
      have := ih (done ++ [v]) (rest.drop v.length) (by rw [List.length_drop]; omega)
      have h1 : (done.flatten ++ rest).take done.flatten.length ++ v ++ (done.flatten ++ rest).drop (done.flatten.length + v.length) =
          (done ++ [v]).flatten ++ rest.drop v.length := by
        simp [List.drop_append]
      have h2 : done.flatten.length + v.length = (done ++ [v]).flatten.length := by simp
      simp only [Option.bind_eq_bind, Option.bind_some]
      rw [h1, h2, this]
      simp
  have := hgen cs [] (List.replicate (cs.foldl (fun n v => n + v.length) 0) 0) (by rw [List.length_replicate, hsum]; simp)
  simp only [List.flatten_nil, List.nil_append, List.length_nil] at this
  rw [packConstants, this]; rfl

/-! ## Forms that are not refused -/

/-- A form on a mesh of facets (dimension 1) with a coefficient and an argument on the mesh of cells, whose facet 2 is cell 0 of the mesh of facets;
`parentFacets` are the facets of the cells of the latter. -/
def facetForm : Form Nat where
  mesh := ⟨1, 1, 1⟩
  args := [⟨0, 0, 2⟩]
  integrals := [((.cell, 0), ⟨[0], [0]⟩)]
  coefficients := [⟨⟨0, 0, 2⟩, 1, [[0], [1], [2]], 1, fun _ l => l, [10, 11, 12]⟩]
  maps := [⟨0, 1, [2]⟩]
  c2e := fun _ => []

/-- Facets of the cells of the larger mesh. -/
def parentFacets : List (List Nat) := [[0, 1, 2], [1, 3, 4], [3, 5, 6]]

/-- C75: the dimensions of meshes are not compared if the mesh of the form is the smaller one.  The number of a facet is taken as the number of a cell:
the kernel gets the value of the coefficient on cell 2, which does not have facet 2. -/
theorem C75_refuted_dimension :
    (cdata facetForm).bind (fun cd => (allocate facetForm).bind (packCoefficients facetForm cd)) = some [((.cell, 0), ([12], 1))] ∧
    edata facetForm = some [[((.cell, 0), [2])]] ∧
    ∀ fs, parentFacets[2]? = some fs → 2 ∉ fs := by
  refine ⟨by decide +kernel, by decide +kernel, ?_⟩
  intro fs h
  cases h
  decide

/-! ## Example: two cells, coefficients on the mesh, on one of the cells and on the facet between them -/

/-- Cells 0 and 1 share facet 1, with local numbers 1 and 0.  Coefficient 0 has two components and is on the same mesh, coefficient 1 on a mesh of
cell 1, coefficient 2 on a mesh of facet 1. -/
def twoCells : Form Nat where
  mesh := ⟨0, 0, 2⟩
  args := [⟨0, 0, 2⟩, ⟨1, 1, 2⟩]
  integrals := [((.cell, 0), ⟨[1, 0], [0, 1]⟩), ((.interiorFacet, 0), ⟨[0, 1, 1, 0], [1, 2]⟩)]
  coefficients := [⟨⟨0, 0, 2⟩, 2, [[1], [0]], 2, fun _ l => l, [1, 2, 3, 4]⟩,
    ⟨⟨1, 1, 2⟩, 1, [[0, 1]], 2, fun _ l => l.reverse, [5, 6]⟩, ⟨⟨2, 2, 1⟩, 1, [[0]], 1, fun _ l => l, [7]⟩]
  maps := [⟨0, 1, [1]⟩, ⟨0, 2, [1]⟩]
  c2e := fun _ => [[0, 1], [1, 2]]

/-- What is packed: rows `c0 c1 c2` for cells, rows `c0+ c0- c1+ c1- c2+ c2-` for facets. -/
example : (cdata twoCells).bind (fun cd => (allocate twoCells).bind (packCoefficients twoCells cd)) =
    some [((.cell, 0), ([1, 2, 6, 5, 0, 3, 4, 0, 0, 0], 5)), ((.interiorFacet, 0), ([0, 0, 0, 0, 0, 0, 6, 5, 7, 7], 5))] := by decide +kernel

/-- The second argument is on the mesh of cell 1: cell 0 is not there. -/
example : edata twoCells = some [[((.cell, 0), [1, 0]), ((.interiorFacet, 0), [0, 1, 1, 0])],
    [((.cell, 0), [0, -1]), ((.interiorFacet, 0), [-1, 1, 0, 0])]] := by decide +kernel

theorem twoCells_sub1 (t : Kind) (ents : List Int) (hn : ∃ n, ents.length = width t * n) (hp : ∀ x ∈ ents, 0 ≤ x)
    (ht : t = .cell ∨ t = .exteriorFacet ∨ t = .interiorFacet) : DomainOk twoCells ⟨1, 1, 2⟩ t ents :=
  ⟨hn, hp, fun _ => ⟨ht, by unfold MapsOk; decide, Or.inl rfl, fun _ h => absurd h (by decide), fun h => absurd h (by decide)⟩⟩

theorem twoCells_same (t : Kind) (ents : List Int) (hn : ∃ n, ents.length = width t * n) (hp : ∀ x ∈ ents, 0 ≤ x) :
    DomainOk twoCells ⟨0, 0, 2⟩ t ents := ⟨hn, hp, fun h => absurd rfl h⟩

theorem twoCells_facet : DomainOk twoCells ⟨2, 2, 1⟩ .interiorFacet [0, 1, 1, 0] := by
  refine ⟨⟨1, rfl⟩, by decide, fun _ => ⟨by decide, by unfold MapsOk; decide, Or.inr ⟨by decide, rfl⟩, fun h => absurd h (by decide), fun _ => ⟨?_, by decide⟩⟩⟩
  intro e s cell lf hs h1 h2
  have hlt := (List.getElem?_eq_some_iff.mp h1).1
  simp only [cellPos, width, sides, List.length_cons, List.length_nil] at hs hlt
  have he : e = 0 := by omega
  subst he
  have : s = 0 ∨ s = 1 := by omega
  rcases this with rfl | rfl
  · simp [cellPos] at h1 h2
    obtain rfl : cell = 0 := by omega
    obtain rfl : lf = 1 := by omega
    exact ⟨[0, 1], 1, rfl, rfl⟩
  · simp [cellPos] at h1 h2
    obtain rfl : cell = 1 := by omega
    obtain rfl : lf = 0 := by omega
    exact ⟨[1, 2], 1, rfl, rfl⟩

theorem twoCells_same_lt {m0 : MeshId} (h0 : m0.topo ≠ 0) {x j : Nat} (h : Same twoCells.maps twoCells.mesh m0 x j) : j < 1 := by
  obtain ⟨em, hem, h | h⟩ := h
  · have := (List.getElem?_eq_some_iff.mp h.2.2).1
    simp only [twoCells, List.mem_cons, List.not_mem_nil, or_false] at hem
    rcases hem with rfl | rfl <;> simpa using this
  · exfalso
    simp only [twoCells, List.mem_cons, List.not_mem_nil, or_false] at hem
    rcases hem with rfl | rfl <;> exact h0 h.1.symm

theorem twoCells_range {m0 : MeshId} (h0 : m0.topo ≠ 0) (hid : m0.id ≠ 0) {cell lf j : Nat}
    (h : IsCell twoCells.mesh m0 (m0.id = twoCells.mesh.id) twoCells.maps twoCells.c2e cell lf j) : j < 1 := by
  unfold IsCell at h
  rw [if_neg (show ¬ m0.id = twoCells.mesh.id from hid)] at h
  split at h
  · exact twoCells_same_lt h0 h
  · obtain ⟨_, _, _, _, h⟩ := h
    exact twoCells_same_lt h0 h

theorem fnOk_of {u : Fn Nat} (h : (u.dofs.all fun ds => ds.length * u.bs == u.spaceDim && ds.all fun d => decide (u.bs * d + u.bs ≤ u.x.length)) = true)
    (ht : ∀ c l, (u.transform c l).length = l.length) : FnOk u := by
  refine ⟨fun ds hds => ?_, ht⟩
  have := List.all_eq_true.mp h ds hds
  simp only [Bool.and_eq_true, beq_iff_eq, List.all_eq_true, decide_eq_true_eq] at this
  exact this

/-- The hypotheses of `C75_coefficients` hold. -/
example : FormOk twoCells where
  keys := by decide
  numbered := by
    intro t i
    cases t <;> simp [twoCells]
  meshes := by
    intro u hu h
    simp only [twoCells, List.mem_cons, List.not_mem_nil, or_false] at hu
    rcases hu with rfl | rfl | rfl
    · rfl
    · exact absurd h (by decide)
    · exact absurd h (by decide)
  rows := by
    intro p hp
    simp only [twoCells, List.mem_cons, List.not_mem_nil, or_false] at hp
    rcases hp with rfl | rfl
    · exact ⟨2, rfl⟩
    · exact ⟨1, rfl⟩
  active := by
    intro p hp c hc
    simp only [twoCells, List.mem_cons, List.not_mem_nil, or_false] at hp
    rcases hp with rfl | rfl
    · simp only [List.mem_cons, List.not_mem_nil, or_false] at hc
      rcases hc with rfl | rfl
      · refine ⟨_, rfl, fnOk_of (by decide) (fun _ _ => rfl), twoCells_same _ _ ⟨2, rfl⟩ (by decide), ?_⟩
        intro e s cell lf j h hj
        unfold IsCell at hj
        rw [if_pos (by rfl)] at hj
        subst hj
        have := List.mem_of_getElem? h.2.1
        simp only [List.mem_cons, List.not_mem_nil, or_false] at this
        show j < 2
        omega
      · exact ⟨_, rfl, fnOk_of (by decide) (fun _ _ => by simp), twoCells_sub1 _ _ ⟨2, rfl⟩ (by decide) (by decide),
          fun e s cell lf j _ hj => twoCells_range (by decide) (by decide) hj⟩
    · simp only [List.mem_cons, List.not_mem_nil, or_false] at hc
      rcases hc with rfl | rfl
      · exact ⟨_, rfl, fnOk_of (by decide) (fun _ _ => by simp), twoCells_sub1 _ _ ⟨1, rfl⟩ (by decide) (by decide),
          fun e s cell lf j _ hj => twoCells_range (by decide) (by decide) hj⟩
      · exact ⟨_, rfl, fnOk_of (by decide) (fun _ _ => rfl), twoCells_facet,
          fun e s cell lf j _ hj => twoCells_range (by decide) (by decide) hj⟩

/-- The hypotheses of `C75_arguments` hold. -/
example : ∀ m ∈ twoCells.args, ∀ p ∈ twoCells.integrals, DomainOk twoCells m p.1.1 p.2.entities := by
  intro m hm p hp
  simp only [twoCells, List.mem_cons, List.not_mem_nil, or_false] at hp hm
  rcases hm with rfl | rfl <;> rcases hp with rfl | rfl
  · exact twoCells_same _ _ ⟨2, rfl⟩ (by decide)
  · exact twoCells_same _ _ ⟨1, rfl⟩ (by decide)
  · exact twoCells_sub1 _ _ ⟨2, rfl⟩ (by decide) (by decide)
  · exact twoCells_sub1 _ _ ⟨1, rfl⟩ (by decide) (by decide)

/-- An expression with the coefficient on the facet, from both cells. -/
example : packExpression (twoCells.coefficients.drop 2) twoCells.mesh (.pairs [(0, 1), (1, 1), (1, 0)]) twoCells.maps twoCells.c2e [0, 0, 0] =
    some [7, 0, 7] := by decide +kernel

/-- The hypotheses of `C75_expression` hold. -/
example : EntsOk twoCells.mesh ⟨2, 2, 1⟩ twoCells.maps twoCells.c2e (.pairs [(0, 1), (1, 1), (1, 0)]) := by
  refine ⟨?_, fun _ => ⟨by unfold MapsOk; decide, fun h => absurd h (by decide), fun _ => ⟨by decide, by decide, _, rfl, ?_⟩⟩⟩
  · intro e he
    have : e < 3 := he
    interval_cases e
    · exact ⟨0, 1, rfl⟩
    · exact ⟨1, 1, rfl⟩
    · exact ⟨1, 0, rfl⟩
  · intro p hp
    simp only [List.mem_cons, List.not_mem_nil, or_false] at hp
    rcases hp with rfl | rfl | rfl
    · exact ⟨0, 1, rfl, [0, 1], 1, rfl, rfl⟩
    · exact ⟨1, 1, rfl, [1, 2], 2, rfl, rfl⟩
    · exact ⟨1, 0, rfl, [1, 2], 1, rfl, rfl⟩

end Verif.Props
