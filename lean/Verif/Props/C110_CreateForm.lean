import Verif.Spec.CreateForm
import Verif.Lemmas.FormIntegrals
/-!
# C110: forms made from compiled forms and data
-/
namespace Verif.Props
open Verif.CreateForm Verif.Spec.CreateForm Verif.Std
open Verif.Integration (Kind Integral Data attach findId defaults formIntegrals)

variable {κ C K F G : Type}

theorem cform_mapM {α β ε : Type} (f : α → Except ε β) (l : List α) (h : ∀ x ∈ l, ∃ y, f x = .ok y) :
    ∃ ys, l.mapM f = .ok ys ∧ List.Forall₂ (fun x y => f x = .ok y) l ys := by
  induction l with
  | nil => exact ⟨[], rfl, .nil⟩
  | cons x l ih =>
    obtain ⟨y, hy⟩ := h x (by simp)
    obtain ⟨ys, h1, h2⟩ := ih fun z hz => h z (by simp [hz])
    refine ⟨y :: ys, ?_, .cons hy h2⟩
    rw [List.mapM_cons, hy, h1]; rfl

theorem cform_mapM_inv {α β ε : Type} (f : α → Except ε β) (l : List α) (ys : List β) (h : l.mapM f = .ok ys) :
    ∀ x ∈ l, ∃ y, f x = .ok y := by
  induction l generalizing ys with
  | nil => simp
  | cons x l ih =>
    rw [List.mapM_cons] at h
    cases hx : f x with
    | error e => rw [hx] at h; cases h
    | ok y =>
      cases hl : l.mapM f with
      | error e => rw [hx, hl] at h; cases h
      | ok ys' =>
        intro z hz
        rcases List.mem_cons.mp hz with rfl | hz
        · exact ⟨y, hx⟩
        · exact ih ys' hl z hz

theorem cform_sort_sorted (l : Pairs) : (sort (fun a b : Int × List (List Nat) => decide (a.1 ≤ b.1)) l).Pairwise fun a b => a.1 ≤ b.1 := by
  have := sort_sorted (fun a b : Int × List (List Nat) => decide (a.1 ≤ b.1))
    (fun a b c h1 h2 => by simp only [decide_eq_true_eq] at h1 h2 ⊢; omega)
    (fun a b => by simp only [Bool.or_eq_true, decide_eq_true_eq]; omega) l
  exact this.imp fun h => by simpa using h

theorem cform_lists (subs : List (Kind × Nat)) (heap : Nat → Pairs) :
    (∀ r, (sortLists subs heap r).Perm (heap r)) ∧
    (∀ r, (r ∈ subs.map (·.2) ∨ (heap r).Pairwise fun a b => a.1 ≤ b.1) → (sortLists subs heap r).Pairwise fun a b => a.1 ≤ b.1) ∧
    (∀ r, r ∉ subs.map (·.2) → sortLists subs heap r = heap r) := by
  induction subs generalizing heap with
  | nil => exact ⟨fun r => .refl _, fun r h => by rcases h with h | h; · simp at h
                                                  · exact h, fun r _ => rfl⟩
  | cons p subs ih =>
    obtain ⟨i1, i2, i3⟩ := ih (fun r => if r = p.2 then sort (fun a b => decide (a.1 ≤ b.1)) (heap r) else heap r)
    refine ⟨fun r => ?_, fun r h => ?_, fun r h => ?_⟩
    · refine (i1 r).trans ?_
      split
      · exact sort_perm _ _
      · exact .refl _
    · apply i2 r
      by_cases hp : r = p.2
      · right; rw [if_pos hp]; exact cform_sort_sorted _
      · rcases h with h | h
        · left
          rw [List.map_cons, List.mem_cons] at h
          exact h.resolve_left hp
        · right; rw [if_neg hp]; exact h
    · rw [List.map_cons, List.mem_cons, not_or] at h
      have := i3 r h.2
      rw [if_neg h.1] at this
      exact this

theorem cform_find_key {β : Type} (d : List (Nat × β)) (h : ∀ i (hi : i < d.length), (d[i]).1 = i) (i : Nat) (hi : i < d.length) :
    (d.find? fun p => p.1 == i) = some d[i] := by
  rw [List.find?_eq_some_iff_getElem]
  refine ⟨by simp [h i hi], i, hi, rfl, fun j hj => ?_⟩
  have := h j (by omega)
  simp [this]; omega

theorem cform_byName {β : Type} (err : Fault) (d : List (Nat × β)) (n : Nat) (hn : n = d.length)
    (h : ∀ i (hi : i < d.length), (d[i]).1 = i) : byName err (List.range n) d = .ok (d.map (·.2)) := by
  subst hn
  unfold byName
  obtain ⟨ys, h1, h2⟩ := cform_mapM (lookupName err d)
    (List.range d.length) (fun i hi => by
      rw [List.mem_range] at hi
      exact ⟨(d[i]).2, by simp only [lookupName, cform_find_key d h i hi]⟩)
  rw [h1]
  congr 1
  apply List.ext_getElem
  · have := h2.length_eq; simp at this; simp [this]
  · intro i hi hi'
    have hi2 : i < d.length := by simpa using hi'
    have := List.forall₂_iff_get.mp h2 |>.2 i (by simpa using hi2) hi
    simp only [List.get_eq_getElem, List.getElem_range, lookupName, cform_find_key d h i hi2] at this
    injection this with this
    rw [← this]; simp

theorem cform_coefficients (cf : Compiled κ C K) (cm : C → Option F) (hp : ∀ p ∈ cf.positions, p < cf.coefficients.length)
    (hc : ∀ p ∈ cf.positions, ∀ c, cf.coefficients[p]? = some c → (cm c).isSome) (hn : cf.coefficientNames = List.range cf.positions.length) :
    ∃ wd w, namedCoefficients cf cm = .ok wd ∧ byName .coefficient cf.coefficientNames wd = .ok w ∧
      w.map some = cf.positions.map fun p => (cf.coefficients[p]?).bind cm := by
  have hex : ∀ x ∈ cf.positions.zipIdx, ∃ y, namedCoefficient cf cm x = .ok y := by
    intro x hx
    have hm : x.1 ∈ cf.positions := by
      have := List.mem_zipIdx' hx
      rw [this.2]; exact List.getElem_mem _
    have h1 := hp x.1 hm
    have h2 := List.getElem?_eq_getElem h1
    obtain ⟨f, hf⟩ := Option.isSome_iff_exists.mp (hc x.1 hm _ h2)
    exact ⟨(x.2, f), by simp only [namedCoefficient, h2, hf]⟩
  obtain ⟨wd, h1, h2⟩ := cform_mapM (namedCoefficient cf cm) cf.positions.zipIdx hex
  have hlen : wd.length = cf.positions.length := by have := h2.length_eq; simpa using this.symm
  have hget : ∀ i (hi : i < wd.length), (wd[i]).1 = i ∧
      some (wd[i]).2 = (cf.coefficients[cf.positions[i]'(by omega)]?).bind cm := by
    intro i hi
    have := List.forall₂_iff_get.mp h2 |>.2 i (by simp; omega) hi
    simp only [List.get_eq_getElem, List.getElem_zipIdx, namedCoefficient, Nat.zero_add] at this
    cases hcc : cf.coefficients[cf.positions[i]'(by omega)]? with
    | none => rw [hcc] at this; cases this
    | some c =>
      rw [hcc] at this
      simp only [] at this
      cases hcm : cm c with
      | none => rw [hcm] at this; cases this
      | some f =>
        rw [hcm] at this
        injection this with this
        rw [← this]
        exact ⟨rfl, by simp [hcm]⟩
  refine ⟨wd, wd.map (·.2), h1, ?_, ?_⟩
  · rw [hn]
    exact cform_byName _ wd _ hlen.symm fun i hi => (hget i hi).1
  · apply List.ext_getElem
    · simp [hlen]
    · intro i hi hi'
      have hi2 : i < wd.length := by simpa using hi
      simpa using (hget i hi2).2

theorem cform_constants (cf : Compiled κ C K) (km : K → Option G) (hk : ∀ (i : Nat) (c : K), cf.constants[i]? = some c → ∃ g, km c = some g)
    (hn : cf.constantNames = List.range cf.constants.length) (hl : cf.numConstants = cf.constants.length) :
    ∃ cd c, namedConstants cf km = .ok cd ∧ byName .constant cf.constantNames cd = .ok c ∧ c.map some = cf.constants.map km := by
  have hex : ∀ x ∈ cf.constants.zipIdx, ∃ y, namedConstant km x = .ok y := by
    intro x hx
    have h0 := List.mem_zipIdx' hx
    obtain ⟨g, hg⟩ := hk x.2 x.1 (by rw [h0.2]; exact List.getElem?_eq_getElem h0.1)
    exact ⟨(x.2, g), by simp only [namedConstant, hg]⟩
  obtain ⟨cd, h1, h2⟩ := cform_mapM (namedConstant km) cf.constants.zipIdx hex
  have hlen : cd.length = cf.constants.length := by have := h2.length_eq; simpa using this.symm
  have hget : ∀ i (hi : i < cd.length), (cd[i]).1 = i ∧ some (cd[i]).2 = km (cf.constants[i]'(by omega)) := by
    intro i hi
    have := List.forall₂_iff_get.mp h2 |>.2 i (by simp; omega) hi
    simp only [List.get_eq_getElem, List.getElem_zipIdx, namedConstant, Nat.zero_add] at this
    cases hcm : km (cf.constants[i]'(by omega)) with
    | none => rw [hcm] at this; cases this
    | some f =>
      rw [hcm] at this
      injection this with this
      rw [← this]
      exact ⟨rfl, rfl⟩
  refine ⟨cd, cd.map (·.2), ?_, ?_, ?_⟩
  · unfold namedConstants
    rw [if_neg (by omega)]
    exact h1
  · rw [hn]
    exact cform_byName _ cd _ hlen.symm fun i hi => (hget i hi).1
  · apply List.ext_getElem
    · simp [hlen]
    · intro i hi hi'
      have hi2 : i < cd.length := by simpa using hi
      simpa using (hget i hi2).2

theorem cform_findId (l : Pairs) (hs : l.Pairwise fun a b => a.1 ≤ b.1) (id : Int) (e : List (List Nat)) (h : (id, e) ∈ l) :
    ∃ e', findId l id = some e' ∧ (id, e') ∈ l := by
  obtain ⟨x, h1, h2, h3⟩ := lowerBound_find (fun p : Int × List (List Nat) => p.1) l hs id ⟨_, h, rfl⟩
  refine ⟨x.2, ?_, ?_⟩
  · unfold findId
    simp only [h1]
    exact if_pos h2
  · rw [← h2]; exact h3

theorem cform_find_kind (subs : List (Kind × Nat)) (h : (subs.map (·.1)).Nodup) (k : Kind) (r : Nat) (hm : (k, r) ∈ subs) :
    (subs.find? fun p => p.1 == k) = some (k, r) := by
  induction subs with
  | nil => simp at hm
  | cons p subs ih =>
    rw [List.map_cons, List.nodup_cons] at h
    rcases List.mem_cons.mp hm with rfl | hm
    · simp
    · have : p.1 ≠ k := by
        rintro rfl
        exact h.1 (List.mem_map.mpr ⟨_, hm, rfl⟩)
      rw [List.find?_cons_of_neg (by simpa using this)]
      exact ih h.2 hm

/-- With data that fit, the form is made, and it has these data. -/
theorem C110_create (cf : Compiled κ C K) (hcf : IsCompiled cf) (spaces : List Nat) (shape : G → List Nat) (subs : List (Kind × Nat))
    (cm : C → Option F) (km : K → Option G) (dflt : Kind → Except Integration.Err (List (List Nat))) (heap : Nat → Pairs)
    (hfit : Fitting cf spaces shape subs cm km dflt heap) :
    ∃ f, (createForm cf spaces shape subs cm km dflt heap).2 = .ok f ∧ HasData cf subs cm km dflt heap f := by
  obtain ⟨wd, w, hw1, hw2, hw3⟩ := cform_coefficients cf cm hcf.positions hfit.coefficients hcf.coefficientNames
  obtain ⟨cd, c, hc1, hc2, hc3⟩ := cform_constants cf km (fun i c h => by
    obtain ⟨g, hg, _⟩ := hfit.constants i c h
    exact ⟨g, hg⟩) hcf.constantNames hcf.numConstants
  obtain ⟨s1, s2, s3⟩ := cform_lists subs heap
  -- integrals
  have hint : ∀ k, ∃ out, kindIntegrals cf subs (sortLists subs heap) dflt k = .ok out ∧
      List.Forall₂ (fun (I : Integral κ × Nat) (d : Nat × Data κ) => d.1 = I.2 ∧ d.2.kernel = I.1.kernel ∧
        (I.1.id = -1 → dflt k = .ok d.2.entities) ∧ (I.1.id ≠ -1 → ∃ l, given subs heap k l ∧ (I.1.id, d.2.entities) ∈ l))
      (cf.integrals k).zipIdx out := by
    intro k
    unfold kindIntegrals
    generalize hL : pairsOf subs (sortLists subs heap) k = L
    have hR : ∀ I ∈ cf.integrals k, I.id ≠ -1 → ∃ e', findId L I.id = some e' ∧ ∃ l, given subs heap k l ∧ (I.id, e') ∈ l := by
      intro I hI hne
      obtain ⟨l, e, ⟨r, hr, rfl⟩, he⟩ := hfit.listed k I hI hne
      unfold pairsOf at hL
      rw [cform_find_kind subs hfit.kinds k r hr] at hL
      simp only [] at hL
      subst hL
      obtain ⟨e', h1, h2⟩ := cform_findId _ (s2 r (Or.inl (List.mem_map.mpr ⟨_, hr, rfl⟩))) I.id e ((s1 r).mem_iff.mpr he)
      exact ⟨e', h1, heap r, ⟨r, hr, rfl⟩, (s1 r).mem_iff.mp h2⟩
    have hatt := Verif.Integration.attach_spec k (dflt k) L
      (fun id => if id = -1 then okD [] (dflt k) else (findId L id).getD []) (cf.integrals k) 0 []
      (fun h => by
        obtain ⟨I, hI, hid⟩ := List.mem_map.mp h
        obtain ⟨e, he⟩ := hfit.all k I hI hid
        rw [he]; rfl)
      (fun I hI hne => by
        obtain ⟨e', h1, _⟩ := hR I hI hne
        simp only [if_neg hne, h1, Option.getD_some])
      (fun _ => ⟨List.nodup_iff_count_le_one.mp (hcf.ids k) _, fun _ => rfl⟩)
    refine ⟨_, hatt, ?_⟩
    rw [List.forall₂_map_right_iff, List.forall₂_same]
    intro x hx
    have hm : x.1 ∈ cf.integrals k := by
      have := List.mem_zipIdx' hx
      rw [this.2]; exact List.getElem_mem _
    refine ⟨by simp, rfl, fun h => ?_, fun h => ?_⟩
    · obtain ⟨e, he⟩ := hfit.all k x.1 hm h
      simp only [if_pos h, he]; rfl
    · obtain ⟨e', h1, h2⟩ := hR x.1 hm h
      simp only [if_neg h, h1, Option.getD_some]
      exact h2
  have hchk : checks cf shape spaces w c = none := by
    have e1 : w.length = cf.positions.length := by simpa using congrArg List.length hw3
    have e2 : c.length = cf.constants.length := by simpa using congrArg List.length hc3
    unfold checks
    rw [if_neg (by simp [hfit.spaces.length_eq]), if_neg (by omega), if_neg (by rw [hcf.numConstants]; omega), if_neg, if_neg]
    · rw [Bool.not_eq_true, List.any_eq_false]
      intro x hx
      have := List.forall₂_iff_zip.mp hfit.spaces |>.2 hx
      simp only [decide_eq_true_eq, not_and, not_not]
      rcases this with h | h
      · exact fun hn => absurd h hn
      · exact fun _ => h
    · rw [Bool.not_eq_true, List.any_eq_false]
      intro x hx
      have h0 := List.mem_zipIdx' hx
      have hi : x.2 < cf.constants.length := by omega
      obtain ⟨g, hg1, hg2⟩ := hfit.constants x.2 _ (List.getElem?_eq_getElem hi)
      have h1 : some x.1 = km (cf.constants[x.2]) := by
        have h3 : (c.map some)[x.2]? = (cf.constants.map km)[x.2]? := by rw [hc3]
        rw [List.getElem?_map, List.getElem?_map, List.getElem?_eq_getElem h0.1, List.getElem?_eq_getElem hi, ← h0.2] at h3
        simpa using h3
      rw [hg1] at h1
      injection h1 with h1
      rw [h1]
      simpa using hg2
  refine ⟨⟨w, c, fun k => okD [] (kindIntegrals cf subs (sortLists subs heap) dflt k)⟩, ?_, hw3, hc3, fun k => ?_⟩
  · unfold createForm
    simp only [hw1, hc1, hw2, hc2, bind, Except.bind, hchk]
    rw [if_pos]
    rw [List.all_eq_true]
    intro k _
    obtain ⟨out, ho, _⟩ := hint k
    rw [ho]; rfl
  · obtain ⟨out, ho, h⟩ := hint k
    simp only [ho, okD]
    exact h

/-- The order of pairs in the lists does not matter. -/
theorem C110_order (cf : Compiled κ C K) (spaces : List Nat) (shape : G → List Nat) (subs : List (Kind × Nat))
    (cm : C → Option F) (km : K → Option G) (dflt : Kind → Except Integration.Err (List (List Nat))) (heap heap' : Nat → Pairs)
    (hnd : ∀ r ∈ subs.map (·.2), ((heap r).map (·.1)).Nodup) (hp : ∀ r ∈ subs.map (·.2), (heap' r).Perm (heap r)) :
    (createForm cf spaces shape subs cm km dflt heap').2 = (createForm cf spaces shape subs cm km dflt heap).2 := by
  have key : ∀ r ∈ subs.map (·.2), sortLists subs heap' r = sortLists subs heap r := by
    intro r hr
    obtain ⟨a1, a2, _⟩ := cform_lists subs heap
    obtain ⟨b1, b2, _⟩ := cform_lists subs heap'
    have hperm : (sortLists subs heap' r).Perm (sortLists subs heap r) := (b1 r).trans ((hp r hr).trans (a1 r).symm)
    have hn : ((sortLists subs heap r).map (·.1)).Nodup := ((a1 r).map (·.1)).nodup_iff.mpr (hnd r hr)
    refine hperm.eq_of_pairwise (le := fun a b => a.1 ≤ b.1) (fun a b ha hb h1 h2 => ?_) (b2 r (Or.inl hr)) (a2 r (Or.inl hr))
    exact List.inj_on_of_nodup_map hn (hperm.mem_iff.mp ha) hb (by omega)
  have hk : kindIntegrals cf subs (sortLists subs heap') dflt = kindIntegrals cf subs (sortLists subs heap) dflt := by
    funext k
    unfold kindIntegrals pairsOf
    cases h : subs.find? (fun p => p.1 == k) with
    | none => rfl
    | some p =>
      have : p.2 ∈ subs.map (·.2) := List.mem_map.mpr ⟨p, List.mem_of_find?_eq_some h, rfl⟩
      simp only [key p.2 this]
  unfold createForm
  simp only [hk]

/-- The lists of the caller have the same pairs afterwards, sorted by id; other lists are not changed. -/
theorem C110_lists (cf : Compiled κ C K) (spaces : List Nat) (shape : G → List Nat) (subs : List (Kind × Nat))
    (cm : C → Option F) (km : K → Option G) (dflt : Kind → Except Integration.Err (List (List Nat))) (heap : Nat → Pairs) (r : Nat) :
    ((createForm cf spaces shape subs cm km dflt heap).1 r).Perm (heap r) ∧
      (r ∉ subs.map (·.2) → (createForm cf spaces shape subs cm km dflt heap).1 r = heap r) :=
  ⟨(cform_lists subs heap).1 r, (cform_lists subs heap).2.2 r⟩

/-- A second call with the same arguments, after the first one has changed the order in the lists, gives the same form. -/
theorem C110_again (cf : Compiled κ C K) (spaces : List Nat) (shape : G → List Nat) (subs : List (Kind × Nat))
    (cm : C → Option F) (km : K → Option G) (dflt : Kind → Except Integration.Err (List (List Nat))) (heap : Nat → Pairs)
    (hnd : ∀ r ∈ subs.map (·.2), ((heap r).map (·.1)).Nodup) :
    (createForm cf spaces shape subs cm km dflt (createForm cf spaces shape subs cm km dflt heap).1).2 =
      (createForm cf spaces shape subs cm km dflt heap).2 :=
  C110_order cf spaces shape subs cm km dflt heap _ hnd fun r _ => (C110_lists cf spaces shape subs cm km dflt heap r).1

/-- A coefficient or constant of the form without a value is an error. -/
theorem C110_missing (cf : Compiled κ C K) (hcf : IsCompiled cf) (spaces : List Nat) (shape : G → List Nat) (subs : List (Kind × Nat))
    (cm : C → Option F) (km : K → Option G) (dflt : Kind → Except Integration.Err (List (List Nat))) (heap : Nat → Pairs)
    (h : (∃ p ∈ cf.positions, ∃ c, cf.coefficients[p]? = some c ∧ cm c = none) ∨ ∃ c ∈ cf.constants, km c = none) :
    ∃ e, (createForm cf spaces shape subs cm km dflt heap).2 = .error e := by
  unfold createForm
  simp only [bind, Except.bind]
  cases hw : namedCoefficients cf cm with
  | error e => exact ⟨e, rfl⟩
  | ok wd =>
    simp only []
    cases hc : namedConstants cf km with
    | error e => exact ⟨e, rfl⟩
    | ok cd =>
      exfalso
      rcases h with ⟨p, hp, c, h1, h2⟩ | ⟨c, hcm, h2⟩
      · obtain ⟨i, hi, rfl⟩ := List.getElem_of_mem hp
        obtain ⟨y, hy⟩ := cform_mapM_inv _ _ _ hw (cf.positions[i], i) (by
          rw [List.mem_zipIdx_iff_getElem?]; exact List.getElem?_eq_getElem hi)
        simp only [namedCoefficient, h1, h2] at hy
        cases hy
      · obtain ⟨i, hi, rfl⟩ := List.getElem_of_mem hcm
        unfold namedConstants at hc
        rw [if_neg (by rw [hcf.numConstants]; simp)] at hc
        obtain ⟨y, hy⟩ := cform_mapM_inv _ _ _ hc (cf.constants[i], i) (by
          rw [List.mem_zipIdx_iff_getElem?]; exact List.getElem?_eq_getElem hi)
        simp only [namedConstant, h2] at hy
        cases hy

/-- A form that is made has spaces with the elements it was compiled for and constants of the shapes it was compiled for. -/
theorem C110_checked (cf : Compiled κ C K) (spaces : List Nat) (shape : G → List Nat) (subs : List (Kind × Nat))
    (cm : C → Option F) (km : K → Option G) (dflt : Kind → Except Integration.Err (List (List Nat))) (heap : Nat → Pairs) (f : Made κ F G)
    (h : (createForm cf spaces shape subs cm km dflt heap).2 = .ok f) :
    List.Forall₂ (fun h s => h = 0 ∨ h = s) cf.hashes spaces ∧ f.coefficients.length = cf.positions.length ∧
      f.constants.length = cf.numConstants ∧ ∀ (i : Nat) (g : G), f.constants[i]? = some g → cf.constantShapes[i]? = some (shape g) := by
  unfold createForm at h
  simp only [bind, Except.bind] at h
  split at h
  · cases h
  split at h
  · cases h
  split at h
  · cases h
  split at h
  · cases h
  split at h
  · cases h
  next w _ c _ hchk =>
    split at h
    · injection h with h
      subst h
      unfold checks at hchk
      split at hchk
      · cases hchk
      split at hchk
      · cases hchk
      split at hchk
      · cases hchk
      split at hchk
      · cases hchk
      split at hchk
      · cases hchk
      next h1 h2 h3 h4 h5 =>
        refine ⟨?_, by simp only []; omega, by simp only []; omega, fun i g hg => ?_⟩
        · rw [List.forall₂_iff_zip]
          refine ⟨by omega, fun {a b} hab => ?_⟩
          rw [Bool.not_eq_true, List.any_eq_false] at h5
          have := h5 _ hab
          simp only [decide_eq_true_eq] at this
          by_cases ha : a = 0
          · exact Or.inl ha
          · right
            by_contra hne
            exact this ⟨ha, hne⟩
        · rw [Bool.not_eq_true, List.any_eq_false] at h4
          have := h4 (g, i) (by rw [List.mem_zipIdx_iff_getElem?]; exact hg)
          simpa using this
    · cases h

/-- A list given for a kind is used as `form` uses a list of pairs in `subdomain_data`. -/
theorem C110_as_form (cf : Compiled κ C K) (subs : List (Kind × Nat)) (hk : (subs.map (·.1)).Nodup) (hr : (subs.map (·.2)).Nodup)
    (heap : Nat → Pairs) (dflt : Kind → Except Integration.Err (List (List Nat))) (k : Kind) (n : Nat) (e2c c2e : List (List Nat))
    (inter : List Nat) (hd : dflt k = defaults k n e2c c2e inter) (l : Pairs) (hl : given subs heap k l) :
    kindIntegrals cf subs (sortLists subs heap) dflt k = formIntegrals k n e2c c2e inter (.list l) (cf.integrals k) := by
  obtain ⟨r, hr1, rfl⟩ := hl
  have key : ∀ (subs : List (Kind × Nat)) (heap : Nat → Pairs), (subs.map (·.2)).Nodup → r ∈ subs.map (·.2) →
      sortLists subs heap r = sort (fun a b => decide (a.1 ≤ b.1)) (heap r) := by
    intro subs
    induction subs with
    | nil => intro heap _ h; simp at h
    | cons p subs ih =>
      intro heap hn hm
      rw [List.map_cons, List.nodup_cons] at hn
      have hstep : sortLists (p :: subs) heap =
        sortLists subs (fun r => if r = p.2 then sort (fun a b => decide (a.1 ≤ b.1)) (heap r) else heap r) := rfl
      rw [hstep]
      rw [List.map_cons, List.mem_cons] at hm
      by_cases h : r = p.2
      · rw [(cform_lists subs _).2.2 r (by rw [h]; exact hn.1), if_pos h]
      · rw [ih _ hn.2 (hm.resolve_left h), if_neg h]
  have h1 := key subs heap hr (List.mem_map.mpr ⟨_, hr1, rfl⟩)
  unfold kindIntegrals pairsOf
  rw [cform_find_kind subs hk k r hr1, hd]
  simp only [h1]
  rfl

/-- A form with three coefficients, of which the third and the first are left, one constant and two integrals over cells, with lists that are
not sorted. -/
private def exCompiled : Compiled Nat Nat Nat :=
  ⟨[10, 20, 30], [7], [2, 0], 1, [0, 1], [0], [[]], [5], fun k => if k = .cell then [⟨1, 100⟩, ⟨2, 200⟩] else []⟩

private def exHeap : Nat → Pairs := fun r => if r = 3 then [(2, [[4], [5]]), (9, []), (1, [[6]])] else []

private theorem exIsCompiled : IsCompiled exCompiled where
  positions := by decide
  coefficientNames := rfl
  constantNames := rfl
  numConstants := rfl
  ids := by intro k; cases k <;> decide

private theorem exFitting : Fitting exCompiled [5] (fun _ : Nat => []) [(.cell, 3)] (fun c => if c = 20 then none else some (c + 1))
    (fun c => some (c * 2)) (fun _ => .ok []) exHeap where
  coefficients := by
    intro p hp c hc
    simp only [exCompiled, List.mem_cons, List.not_mem_nil, or_false] at hp
    rcases hp with rfl | rfl <;> simp only [exCompiled] at hc <;> simp at hc <;> subst hc <;> rfl
  constants := by
    intro i c h
    rcases i with _ | i
    · exact ⟨c * 2, rfl, rfl⟩
    · simp [exCompiled] at h
  spaces := .cons (Or.inr rfl) .nil
  kinds := by decide
  once := by
    rintro k l ⟨r, hr, rfl⟩
    simp only [List.mem_cons, Prod.mk.injEq, List.not_mem_nil, or_false] at hr
    rw [hr.2]; decide
  listed := by
    intro k I hI hne
    cases k <;> simp [exCompiled] at hI
    rcases hI with rfl | rfl
    · exact ⟨_, [[6]], ⟨3, by simp, rfl⟩, by decide⟩
    · exact ⟨_, [[4], [5]], ⟨3, by simp, rfl⟩, by decide⟩
  all := fun _ _ _ _ => ⟨[], rfl⟩

example : ∃ f : Made Nat Nat Nat, (createForm exCompiled [5] (fun _ : Nat => []) [(.cell, 3)] (fun c => if c = 20 then none else some (c + 1))
      (fun c => some (c * 2)) (fun _ => .ok []) exHeap).2 = .ok f ∧ f.coefficients = [31, 11] ∧ f.constants = [14] ∧
      (f.integrals .cell).map (fun d => (d.1, d.2.kernel, d.2.entities)) = [(0, 100, [[6]]), (1, 200, [[4], [5]])] :=
  ⟨_, rfl, rfl, rfl, rfl⟩

example := C110_create exCompiled exIsCompiled [5] (fun _ : Nat => []) _ _ _ _ _ exFitting

end Verif.Props
