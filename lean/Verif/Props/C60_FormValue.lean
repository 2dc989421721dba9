import Verif.Lemmas.FormIntegrals
/-!
# C60: the values of a functional on the processes add up to its value on the whole mesh
-/
namespace Verif.Props
open Verif.Std Verif.World Verif.Spec Verif.Spec.Integration Verif.Integration

/-- The entities of one id on one process: all without tag for `-1`. -/
theorem C60_aux_rows (m : Mesh) (k : Kind) (hok : k ≠ .cell → Ok m) (hgh : k = .interiorFacet → Ghosted m) (hr : k = .cell → m.E = m.C) :
    (∃ rows : Nat → List (List Nat), (∀ r < m.C.P, defaults k (m.E.size r) (m.e2c r) (m.c2e r) (m.inter r) = .ok (rows r)) ∧
      Visits m (Dom m k) (Row m k) rows) ∧
    ∀ (found : Nat → List Nat) (S : Nat → Prop) [DecidablePred S], Tagged m found S →
      ∃ rows : Nat → List (List Nat), (∀ r < m.C.P, tagged k (m.E.size r) (m.e2c r) (m.c2e r) (m.inter r) (found r) = .ok (rows r)) ∧
        Visits m (fun f => S f ∧ Dom m k f) (Row m k) rows := by
  have hv : ∀ (S T : Nat → Prop) [DecidablePred S] [DecidablePred T] (Rw : Nat → Nat → List Nat → Prop) rows, (∀ f, S f ↔ T f) →
      Visits m S Rw rows → Visits m T Rw rows := by
    rintro S T _ _ Rw rows hST ⟨fs, h1, h2⟩
    refine ⟨fs, h1.trans ?_, h2⟩
    refine List.filter_congr fun f _ => ?_
    rw [decide_eq_decide]; exact hST f
  cases k with
  | cell =>
    have hE := hr rfl
    constructor
    · refine ⟨fun r => (List.range (m.E.size r)).map fun c => [c], fun r _ => rfl, ?_⟩
      refine C59_aux_visits _ _ (fun _ c => [c]) _ (fun r _ => ?_) fun r hr e he _ => ⟨e, rfl, own_global m.E r e he⟩
      congr 1
      refine (List.filter_eq_self.mpr fun a _ => ?_).symm
      rw [decide_eq_true_eq]
      trivial
    · intro found S _ ht
      refine ⟨fun r => ((List.range (m.E.size r)).filter fun e => decide (S (m.E.r0 r + e))).map fun c => [c], fun r hr => ?_, ?_⟩
      · show _ = Except.ok (List.map _ (List.filter _ _))
        rw [← C59_aux_take found S ht r hr]
        rfl
      · refine hv S _ _ _ (fun f => by simp [Dom]) (C59_aux_visits _ _ (fun _ c => [c]) _ (fun r _ => rfl) ?_)
        exact fun r hr e he _ => ⟨e, rfl, own_global m.E r e he⟩
  | exteriorFacet =>
    obtain ⟨_, ⟨rows, h1, h2⟩, h3⟩ := C59_exterior (hok (by simp))
    refine ⟨⟨rows, h1, hv _ _ _ _ (fun _ => Iff.rfl) h2⟩, fun found S _ ht => ?_⟩
    obtain ⟨rows, h1, h2⟩ := h3 found S ht
    exact ⟨rows, h1, hv _ _ _ _ (fun _ => Iff.rfl) h2⟩
  | vertex =>
    obtain ⟨⟨rows, h1, h2⟩, h3⟩ := C59_points (hok (by simp)) .vertex (Or.inl rfl)
    refine ⟨⟨rows, h1, hv _ _ _ _ (fun _ => Iff.rfl) h2⟩, fun found S _ ht => ?_⟩
    obtain ⟨rows, h1, h2⟩ := h3 found S ht
    exact ⟨rows, h1, hv _ _ _ _ (fun _ => by simp [Dom]) h2⟩
  | ridge =>
    obtain ⟨⟨rows, h1, h2⟩, h3⟩ := C59_points (hok (by simp)) .ridge (Or.inr rfl)
    refine ⟨⟨rows, h1, hv _ _ _ _ (fun _ => Iff.rfl) h2⟩, fun found S _ ht => ?_⟩
    obtain ⟨rows, h1, h2⟩ := h3 found S ht
    exact ⟨rows, h1, hv _ _ _ _ (fun _ => by simp [Dom]) h2⟩
  | interiorFacet =>
    obtain ⟨hm, hg⟩ := hgh rfl
    obtain ⟨⟨h1, h2⟩, h3⟩ := C59_interior (hok (by simp)) hm
    constructor
    · have : ∀ r, ∃ rows, r < m.C.P → defaults .interiorFacet (m.E.size r) (m.e2c r) (m.c2e r) (m.inter r) = .ok rows := by
        intro r
        by_cases hr : r < m.C.P
        · obtain ⟨rows, h⟩ := (h2 r hr).2 fun he => by
            obtain ⟨e, he, _, g, hg', hc⟩ := (h2 r hr).1.mp he
            obtain ⟨c, hc'⟩ := hg r hr e he g hg'
            exact hc c hc'
          exact ⟨rows, fun _ => h⟩
        · exact ⟨[], fun h => absurd h hr⟩
      choose rows hrows using this
      exact ⟨rows, hrows, hv _ _ _ _ (fun _ => Iff.rfl) (h1 rows hrows)⟩
    · intro found S _ ht
      obtain ⟨h1, h2⟩ := h3 found S ht
      have : ∀ r, ∃ rows, r < m.C.P → tagged .interiorFacet (m.E.size r) (m.e2c r) (m.c2e r) (m.inter r) (found r) = .ok rows := by
        intro r
        by_cases hr : r < m.C.P
        · obtain ⟨rows, h⟩ := (h2 r hr).2 fun he => by
            obtain ⟨e, he, _, g, hg', hc⟩ := (h2 r hr).1.mp he
            obtain ⟨c, hc'⟩ := hg r hr e he g hg'
            exact hc c hc'
          exact ⟨rows, fun _ => h⟩
        · exact ⟨[], fun h => absurd h hr⟩
      choose rows hrows using this
      exact ⟨rows, hrows, hv _ _ _ _ (fun _ => Iff.rfl) (h1 rows hrows)⟩

variable {κ V : Type} [AddCommMonoid V]

/-- The subdomain data on process `r`. -/
def C60Sub (find : Option (Nat → Int → List Nat)) (r : Nat) : Sub :=
  match find with
  | none => .none
  | some find => .tags (find r)

/-- One kind of integrals. -/
theorem C60_aux_kind (m : Mesh) (k : Kind) (hok : k ≠ .cell → Ok m) (hgh : k = .interiorFacet → Ghosted m) (hE : k = .cell → m.E = m.C)
    (l : List (Integral κ)) (hs : (l.map (·.id)).Pairwise (· ≤ ·)) (hone : k ≠ .cell → (l.map (·.id)).count (-1) ≤ 1)
    (find : Option (Nat → Int → List Nat)) (hnone : find = none → ∀ I ∈ l, I.id = -1)
    (S : Int → Nat → Prop) [∀ id, DecidablePred (S id)] (hfind : ∀ fd, find = some fd → ∀ I ∈ l, Tagged m (fun r => fd r I.id) (S I.id))
    (val : Nat → κ → List Nat → V) (G : κ → Nat → V) (hval : ∀ r < m.C.P, ∀ I ∈ l, ∀ f row, Row m k r f row → val r I.kernel row = G I.kernel f) :
    ∃ (F : Nat → List (Nat × Data κ)) (x : Nat → V),
      (∀ r < m.C.P, formIntegrals k (m.E.size r) (m.e2c r) (m.c2e r) (m.inter r) (C60Sub find r) l = .ok (F r) ∧
        ∀ v, assembleKind (val r) (F r) v = some (v + x r)) ∧
      ((List.range m.C.P).map x).sum =
        (l.map fun I => (((List.range (m.E.r0 m.C.P)).filter fun f => decide ((I.id ≠ -1 → S I.id f) ∧ Dom m k f)).map (G I.kernel)).sum).sum := by
  obtain ⟨⟨rd, hd1, hd2⟩, ht⟩ := C60_aux_rows m k hok hgh hE
  -- rows of each id
  have hrows : ∀ id : Int, ∃ rows : Nat → List (List Nat), id ∈ l.map (·.id) →
      (id = -1 → rows = rd) ∧ Visits m (fun f => (id ≠ -1 → S id f) ∧ Dom m k f) (Row m k) rows ∧
      (∀ fd, find = some fd → id ≠ -1 → ∀ r < m.C.P, tagged k (m.E.size r) (m.e2c r) (m.c2e r) (m.inter r) (fd r id) = .ok (rows r)) := by
    intro id
    by_cases hid : id = -1
    · refine ⟨rd, fun _ => ⟨fun _ => rfl, ?_, fun _ _ h => absurd hid h⟩⟩
      obtain ⟨fs, h1, h2⟩ := hd2
      refine ⟨fs, h1.trans (List.filter_congr fun f _ => ?_), h2⟩
      rw [decide_eq_decide]
      exact ⟨fun h => ⟨fun hx => absurd hid hx, h⟩, fun h => h.2⟩
    · by_cases hm : id ∈ l.map (·.id)
      · obtain ⟨I, hI, rfl⟩ := List.mem_map.mp hm
        cases hf : find with
        | none => exact absurd (hnone hf I hI) hid
        | some fd =>
          obtain ⟨rows, h1, fs, h2, h3⟩ := ht _ (S I.id) (hfind fd hf I hI)
          refine ⟨rows, fun _ => ⟨fun h => absurd h hid, ⟨fs, h2.trans (List.filter_congr fun f _ => ?_), h3⟩, ?_⟩⟩
          · rw [decide_eq_decide]
            exact ⟨fun h => ⟨fun _ => h.1, h.2⟩, fun h => ⟨h.1 hid, h.2⟩⟩
          · rintro fd' hfd _ r hr
            cases hfd
            exact h1 r hr
      · exact ⟨fun _ => [], fun h => absurd h hm⟩
  choose R hR using hrows
  -- what the Python layer passes
  have hsubs : ∀ r < m.C.P, ∃ subs, integrationDomains k (m.E.size r) (m.e2c r) (m.c2e r) (m.inter r) (l.map (·.id)) (C60Sub find r) = .ok subs ∧
      ∀ I ∈ l, I.id ≠ -1 → findId subs I.id = some (R I.id r) := by
    intro r hr
    cases hf : find with
    | none => exact ⟨[], rfl, fun I hI h => absurd (hnone hf I hI) h⟩
    | some fd =>
      -- the rows found for -1 are not used
      have hx : ∀ id : Int, ∃ rows, id ∈ l.map (·.id) → tagged k (m.E.size r) (m.e2c r) (m.c2e r) (m.inter r) (fd r id) = .ok rows ∧
          (id ≠ -1 → rows = R id r) := by
        intro id
        by_cases hm : id ∈ l.map (·.id)
        · obtain ⟨I, hI, rfl⟩ := List.mem_map.mp hm
          by_cases hid : I.id = -1
          · obtain ⟨rows, h1, _⟩ := ht _ (S I.id) (hfind fd hf I hI)
            exact ⟨rows r, fun _ => ⟨h1 r hr, fun h => absurd hid h⟩⟩
          · exact ⟨R I.id r, fun _ => ⟨(hR I.id hm).2.2 fd hf hid r hr, fun _ => rfl⟩⟩
        · exact ⟨[], fun h => absurd h hm⟩
      choose Q hQ using hx
      refine ⟨(l.map (·.id)).map fun i => (i, Q i), ?_, fun I hI hid => ?_⟩
      · show (l.map (·.id)).mapM (fun id => do
            let rows ← tagged k (m.E.size r) (m.e2c r) (m.c2e r) (m.inter r) (fd r id)
            Except.ok (id, rows)) = _
        have gen : ∀ ids : List Int, (∀ i ∈ ids, tagged k (m.E.size r) (m.e2c r) (m.c2e r) (m.inter r) (fd r i) = .ok (Q i)) →
            ids.mapM (fun id => do
              let rows ← tagged k (m.E.size r) (m.e2c r) (m.c2e r) (m.inter r) (fd r id)
              Except.ok (id, rows)) = Except.ok (ε := Err) (ids.map fun i => (i, Q i)) := by
          intro ids
          induction ids with
          | nil => intro _; rfl
          | cons a ids ih =>
            intro h
            rw [List.mapM_cons, ih fun i hi => h i (List.mem_cons_of_mem _ hi), h a List.mem_cons_self]
            rfl
        exact gen _ fun i hi => (hQ i hi).1
      · have hm : I.id ∈ l.map (·.id) := List.mem_map.mpr ⟨I, hI, rfl⟩
        rw [findId_map _ Q hs I.id hm, (hQ I.id hm).2 hid]
  refine ⟨fun r => l.zipIdx.map fun p => (0 + p.2, ⟨p.1.kernel, R p.1.id r⟩),
    fun r => (l.map fun I => ((R I.id r).map (val r I.kernel)).sum).sum, fun r hr => ⟨?_, fun v => assembleKind_spec (val r) l (fun id => R id r) v⟩, ?_⟩
  · obtain ⟨subs, h1, h2⟩ := hsubs r hr
    unfold formIntegrals
    rw [h1]
    refine attach_spec k _ subs (fun id => R id r) l 0 [] (fun hm => ?_) h2 fun hk => ⟨hone hk, fun _ => rfl⟩
    show _ = Except.ok (R (-1) r)
    rw [(hR (-1) hm).1 rfl]
    exact hd1 r hr
  · rw [sum_comm]
    congr 1
    refine List.map_congr_left fun I hI => ?_
    exact visits_sum _ _ _ (hR I.id (List.mem_map.mpr ⟨I, hI, rfl⟩)).2.1 (fun r => val r I.kernel) (G I.kernel)
      fun r hr f row h => hval r hr I hI f row h

/-- **C60 (partial).** For any form whose integrals over facets, vertices and ridges have at most one default integral per kind, and with
subdomains given by tags (the same on all processes), the form is created on each process, `assemble_scalar` succeeds, and the sum over the
processes is the sum over all integrals and all entities of the whole mesh in their domains, of what the kernel gives on the entity. -/
theorem C60_scalar_partial (P : Nat) (m : Kind → Mesh) (hP : ∀ k, (m k).C.P = P) (hok : ∀ k, k ≠ .cell → Ok (m k))
    (hgh : Ghosted (m .interiorFacet)) (hE : (m .cell).E = (m .cell).C)
    (ints : Kind → List (Integral κ)) (hs : ∀ k, ((ints k).map (·.id)).Pairwise (· ≤ ·))
    (hone : ∀ k, k ≠ .cell → ((ints k).map (·.id)).count (-1) ≤ 1)
    (find : Kind → Option (Nat → Int → List Nat)) (hnone : ∀ k, find k = none → ∀ I ∈ ints k, I.id = -1)
    (S : Kind → Int → Nat → Prop) [∀ k id, DecidablePred (S k id)]
    (hfind : ∀ k fd, find k = some fd → ∀ I ∈ ints k, Tagged (m k) (fun r => fd r I.id) (S k I.id))
    (val : Nat → κ → List Nat → V) (G : κ → Nat → V)
    (hval : ∀ k, ∀ r < P, ∀ I ∈ ints k, ∀ f row, Row (m k) k r f row → val r I.kernel row = G I.kernel f) :
    ∃ (F : Nat → Kind → List (Nat × Data κ)) (x : Nat → V),
      (∀ r < P, (∀ k, formIntegrals k ((m k).E.size r) ((m k).e2c r) ((m k).c2e r) ((m k).inter r) (C60Sub (find k) r) (ints k) = .ok (F r k)) ∧
        assembleScalar (val r) (F r) = some (x r)) ∧
      ((List.range P).map x).sum = (allKinds.map fun k => ((ints k).map fun I =>
        (((List.range ((m k).E.r0 P)).filter fun f => decide ((I.id ≠ -1 → S k I.id f) ∧ Dom (m k) k f)).map (G I.kernel)).sum).sum).sum := by
  have := fun k => C60_aux_kind (m k) k (hok k) (fun h => by subst h; exact hgh) (fun h => by subst h; exact hE) (ints k) (hs k) (hone k) (find k)
    (hnone k) (S k) (hfind k) val G (by rw [hP k]; exact hval k)
  choose F x h1 h2 using this
  refine ⟨fun r k => F k r, fun r => (allKinds.map fun k => x k r).sum, fun r hr => ⟨fun k => (h1 k r (by rw [hP k]; exact hr)).1, ?_⟩, ?_⟩
  · have h3 := fun k => (h1 k r (by rw [hP k]; exact hr)).2
    simp [assembleScalar, kinds, allKinds, h3, add_assoc]
  · rw [sum_comm]
    congr 1
    refine List.map_congr_left fun k _ => ?_
    have := h2 k
    rw [hP k] at this
    exact this

/-- **C60 (refuted).** Two default integrals over facets: the second is evaluated twice on each facet. One cell with one exterior facet; both
kernels give 1, the value is 3. -/
theorem C60_refuted_default_twice :
    formIntegrals .exteriorFacet 1 [[0]] [[0]] [] .none [⟨-1, 0⟩, ⟨-1, 1⟩] = .ok [(0, ⟨0, [[0, 0]]⟩), (1, (⟨1, [[0, 0], [0, 0]]⟩ : Data Nat))] ∧
    assembleScalar (fun (_ : Nat) _ => (1 : Int)) (fun k => if k = .exteriorFacet then [(0, ⟨0, [[0, 0]]⟩), (1, ⟨1, [[0, 0], [0, 0]]⟩)] else []) =
      some 3 := by
  constructor
  · rfl
  · decide

/-- **C60 (refuted).** With a list of subdomains that lacks an id of the form, the form is created and reports one integral, but assembling fails:
the integral is stored at position 1. -/
theorem C60_refuted_gap :
    formIntegrals .cell 1 [] [] [] (.list [(2, [[0]])]) [⟨1, 0⟩, ⟨2, 1⟩] = .ok [(1, (⟨1, [[0]]⟩ : Data Nat))] ∧
    assembleScalar (fun (_ : Nat) _ => (1 : Int)) (fun k => if k = .cell then [(1, ⟨1, [[0]]⟩)] else []) = none := by
  constructor
  · rfl
  · decide

/-! ## Example: the mesh of C59, a default boundary integral and one with a tag -/

/-- For cells, the entities are the cells. -/
def C60Mesh (k : Kind) : Mesh := if k = .cell then { C59Mesh true with E := (C59Mesh true).C } else C59Mesh true

/-- A default integral with kernel 5 and an integral over tag 7 with kernel 10. -/
def C60Ints (k : Kind) : List (Integral Nat) := if k = .exteriorFacet then [⟨-1, 5⟩, ⟨7, 10⟩] else []

/-- Facets 0 and 1 have tag 7. -/
def C60Find (r : Nat) (id : Int) : List Nat := if r = 0 ∧ id = 7 then [0, 1] else []

example : ∃ (F : Nat → Kind → List (Nat × Data Nat)) (x : Nat → Nat),
    (∀ r < 2, (∀ k, formIntegrals k ((C60Mesh k).E.size r) ((C60Mesh k).e2c r) ((C60Mesh k).c2e r) ((C60Mesh k).inter r)
      (C60Sub (some C60Find) r) (C60Ints k) = .ok (F r k)) ∧ assembleScalar (fun k _ => k) (F r) = some (x r)) ∧
    ((List.range 2).map x).sum = 20 := by
  have hne : ∀ k, k ≠ .cell → C60Mesh k = C59Mesh true := fun k hk => if_neg hk
  have := C60_scalar_partial (V := Nat) 2 C60Mesh (fun k => by cases k <;> rfl) (fun k hk => by rw [hne k hk]; exact C59_aux_example true)
    ⟨by rw [hne _ (by decide)]; exact C59_aux_two, by
      intro r hr e he
      have : ∀ r < 2, ∀ e < (C60Mesh .interiorFacet).E.size r, ∀ g ∈ cellsAt (C60Mesh .interiorFacet) ((C60Mesh .interiorFacet).E.r0 r + e),
        ∃ c ∈ List.range 3, globalOf (C60Mesh .interiorFacet).C r c = some g := by decide +kernel
      intro g hg
      obtain ⟨c, _, hc⟩ := this r hr e he g hg
      exact ⟨c, hc⟩⟩ rfl C60Ints (by intro k; cases k <;> decide) (by intro k hk; cases k <;> decide)
    (fun _ => some C60Find) (by intro k h; simp at h) (fun _ id f => id = 7 ∧ f < 2) (by
      intro k fd hfd I hI
      cases hfd
      have hk : k = .exteriorFacet := by
        by_contra hk
        simp [C60Ints, hk] at hI
      subst hk
      have : ∀ id ∈ [(-1 : Int), 7], ∀ r < 2, (C60Find r id).Pairwise (· < ·) ∧ ∀ e < (C59Mesh true).E.size r,
          (e ∈ C60Find r id ↔ id = 7 ∧ (C59Mesh true).E.r0 r + e < 2) := by decide +kernel
      intro r hr
      refine this I.id ?_ r hr
      rcases List.mem_cons.mp hI with rfl | hI
      · simp
      · rw [List.mem_singleton] at hI
        subst hI; simp)
    (fun _ k _ => k) (fun k _ => k) (fun _ _ _ _ _ _ _ _ => rfl)
  obtain ⟨F, x, h1, h2⟩ := this
  refine ⟨F, x, h1, h2.trans ?_⟩
  decide +kernel

end Verif.Props
