import Verif.Spec.Coefficients
import Verif.Props.C33_EntityMap
import Verif.Prelude
/-!
# Lemmas: entities in other meshes
-/
namespace Verif.Coefficients
open Verif.Spec.Coefficients
open Verif.Integration (Kind)

/-- The map that is found. -/
theorem findMap_ok {maps : List EMap} {mesh m0 : MeshId} (h : MapsOk maps mesh m0) :
    ∃ em, findMap maps mesh m0 = some em ∧ em ∈ maps ∧
      ((em.sub = m0.topo ∧ em.topo = mesh.topo) ∨ (em.sub = mesh.topo ∧ em.topo = m0.topo)) := by
  obtain ⟨_, ⟨em, hem, hr⟩, _, _⟩ := h
  have : (findMap maps mesh m0).isSome := by
    rw [findMap, List.find?_isSome]
    refine ⟨em, hem, ?_⟩
    rcases hr with hr | hr <;> simp [hr.1, hr.2]
  obtain ⟨em', h'⟩ := Option.isSome_iff_exists.mp this
  refine ⟨em', h', List.mem_of_find?_eq_some h', ?_⟩
  have := List.find?_some h'
  simp only [Bool.or_eq_true, Bool.and_eq_true, beq_iff_eq] at this
  tauto

theorem same_sub {maps : List EMap} {mesh m0 : MeshId} (h : MapsOk maps mesh m0) {em : EMap} (hem : em ∈ maps)
    (h1 : em.sub = m0.topo) (h2 : em.topo = mesh.topo) (x j : Nat) : Same maps mesh m0 x j ↔ em.map[j]? = some (x : Int) := by
  obtain ⟨hne, _, hu, _⟩ := h
  constructor
  · rintro ⟨em', hem', hh⟩
    have he : em' = em := hu em hem em' hem' (Or.inl ⟨h2, h1⟩) (by tauto)
    subst he
    rcases hh with hh | hh
    · exact hh.2.2
    · exact absurd (h2.symm.trans hh.1) hne
  · intro hj
    exact ⟨em, hem, Or.inl ⟨h2, h1, hj⟩⟩

theorem same_top {maps : List EMap} {mesh m0 : MeshId} (h : MapsOk maps mesh m0) {em : EMap} (hem : em ∈ maps)
    (h1 : em.sub = mesh.topo) (h2 : em.topo = m0.topo) (x j : Nat) : Same maps mesh m0 x j ↔ em.map[x]? = some (j : Int) := by
  obtain ⟨hne, _, hu, _⟩ := h
  constructor
  · rintro ⟨em', hem', hh⟩
    have he : em' = em := hu em hem em' hem' (Or.inr ⟨h2, h1⟩) (by tauto)
    subst he
    rcases hh with hh | hh
    · exact absurd (hh.1.symm.trans h2) hne
    · exact hh.2.2
  · intro hj
    exact ⟨em, hem, Or.inr ⟨h2, h1, hj⟩⟩

/-- A list of entities is mapped to cells of the other mesh. -/
theorem apply_ok {maps : List EMap} {mesh m0 : MeshId} (h : MapsOk maps mesh m0) {em : EMap} (hf : findMap maps mesh m0 = some em)
    (l : List Int) (hl : ∀ x ∈ l, 0 ≤ x) (hc : Covered maps mesh m0 fun x => (x : Int) ∈ l) :
    ∃ r, em.apply l (em.sub == m0.topo) = some r ∧ r.length = l.length ∧
      ∀ k x : Nat, l[k]? = some (x : Int) →
        (∀ j, Same maps mesh m0 x j → r[k]? = some (j : Int)) ∧ ((∀ j, ¬ Same maps mesh m0 x j) → r[k]? = some (-1)) := by
  obtain ⟨em', hf', hem, hr⟩ := findMap_ok h
  rw [hf] at hf'
  cases hf'
  have hok := h.2.2.2 em hem
  rcases hr with ⟨h1, h2⟩ | ⟨h1, h2⟩
  · have hb : (em.sub == m0.topo) = true := by simpa using h1
    obtain ⟨hlen, hback⟩ := Verif.Props.C33_backward em.map l
    refine ⟨EntityMap.backward em.map l, by rw [EMap.apply, hb]; rfl, hlen, ?_⟩
    intro k x hx
    obtain ⟨hb1, hb2⟩ := hback k x hx
    constructor
    · intro j hj
      rw [same_sub h hem h1 h2] at hj
      refine (hb1 j).mpr ⟨hj, ?_⟩
      intro i hi hij
      obtain ⟨hi1, hi2⟩ := List.getElem?_eq_some_iff.mp hij
      obtain ⟨hj1, hj2⟩ := List.getElem?_eq_some_iff.mp hj
      have := (List.Nodup.getElem_inj_iff hok.1 (hi := hi1) (hj := hj1)).mp (by rw [hi2, hj2])
      omega
    · intro hn
      refine hb2.mpr ?_
      intro hmem
      obtain ⟨j, hj⟩ := List.mem_iff_getElem?.mp hmem
      exact hn j ((same_sub h hem h1 h2 x j).mpr hj)
  · have hb : (em.sub == m0.topo) = false := by
      simp only [beq_eq_false_iff_ne]
      rw [h1]
      exact h.1
    have hsome : ∀ x ∈ l, ∃ j : Nat, (if x < 0 then none else em.map[x.toNat]?) = some (j : Int) ∧ Same maps mesh m0 x.toNat j := by
      intro x hx
      have h0 := hl x hx
      obtain ⟨j, hj⟩ := hc ⟨em, hem, h2, h1⟩ x.toNat (by
        show ((x.toNat : Nat) : Int) ∈ l
        rw [Int.toNat_of_nonneg h0]; exact hx)
      refine ⟨j, ?_, hj⟩
      rw [if_neg (by omega)]
      exact (same_top h hem h1 h2 _ _).mp hj
    have hmap : ∀ l' : List Int, (∀ x ∈ l', ∃ j : Nat, (if x < 0 then none else em.map[x.toNat]?) = some (j : Int) ∧ Same maps mesh m0 x.toNat j) →
        ∃ r, (l'.mapM fun i => if i < 0 then none else em.map[i.toNat]?) = some r ∧ r.length = l'.length ∧
          ∀ k x : Nat, l'[k]? = some (x : Int) → ∃ j : Nat, r[k]? = some (j : Int) ∧ Same maps mesh m0 x j := by
      intro l'
      induction l' with
      | nil => intro _; exact ⟨[], rfl, rfl, by simp⟩
      | cons a l' ih =>
        intro hl'
        obtain ⟨r, hr, hlen, hget⟩ := ih fun x hx => hl' x (List.mem_cons_of_mem _ hx)
        obtain ⟨j, hj, hs⟩ := hl' a (List.mem_cons_self ..)
        refine ⟨(j : Int) :: r, ?_, by simp [hlen], ?_⟩
        · rw [List.mapM_cons, hj, hr]; rfl
        · intro k x hx
          cases k with
          | zero =>
            simp only [List.getElem?_cons_zero, Option.some.injEq] at hx
            subst hx
            exact ⟨j, rfl, by simpa using hs⟩
          | succ k => exact hget k x (by simpa using hx)
    obtain ⟨r, hr, hlen, hget⟩ := hmap l hsome
    refine ⟨r, by rw [EMap.apply, hb]; exact hr, hlen, ?_⟩
    intro k x hx
    obtain ⟨j, hj, hs⟩ := hget k x hx
    constructor
    · intro j' hj'
      rw [same_top h hem h1 h2] at hs hj'
      rw [hs] at hj'
      rw [hj, Option.some.inj hj']
    · intro hn
      exact absurd hs (hn j)

theorem pairs_get (l : List Int) : ∀ (i : Nat) (a b : Int), l[2 * i]? = some a → l[2 * i + 1]? = some b → (pairs l)[i]? = some (a, b) := by
  induction l using pairs.induct with
  | case1 x y l ih =>
    intro i a b ha hb
    cases i with
    | zero =>
      simp at ha hb
      simp [pairs, ha, hb]
    | succ i =>
      simp only [pairs, List.getElem?_cons_succ]
      refine ih i a b ?_ ?_
      · rw [show 2 * (i + 1) = 2 * i + 1 + 1 by omega] at ha; simpa using ha
      · rw [show 2 * (i + 1) + 1 = (2 * i + 1) + 1 + 1 by omega] at hb; simpa using hb
  | case2 l hn =>
    intro i a b ha hb
    exfalso
    match l, hn, ha, hb with
    | [], _, ha, _ => simp at ha
    | [x], _, _, hb => simp at hb
    | x :: y :: l, hn, _, _ => exact hn x y l rfl

theorem pairs_length (l : List Int) (n : Nat) (h : l.length = 2 * n) : (pairs l).length = n := by
  induction l using pairs.induct generalizing n with
  | case1 x y l ih =>
    simp only [pairs, List.length_cons] at h ⊢
    have := ih (n - 1) (by omega)
    omega
  | case2 l hn =>
    match l, hn, h with
    | [], _, h => simp at h; subst h; rfl
    | [x], _, h => simp at h; omega
    | x :: y :: l, hn, _ => exact absurd rfl (hn x y l)

theorem pairs_mem {l : List Int} {p : Int × Int} (h : p ∈ pairs l) : ∃ i : Nat, l[2 * i]? = some p.1 ∧ l[2 * i + 1]? = some p.2 := by
  induction l using pairs.induct with
  | case1 x y l ih =>
    simp only [pairs, List.mem_cons] at h
    rcases h with h | h
    · subst h; exact ⟨0, by simp, by simp⟩
    · obtain ⟨i, h1, h2⟩ := ih h
      refine ⟨i + 1, ?_, ?_⟩
      · rw [show 2 * (i + 1) = 2 * i + 1 + 1 by omega]; simpa using h1
      · rw [show 2 * (i + 1) + 1 = (2 * i + 1) + 1 + 1 by omega]; simpa using h2
  | case2 l hn => simp [pairs] at h

/-- Cells are written to the even places. -/
theorem set_even (cells : List Int) : ∀ (ents : List Int) (n : Nat), ents.length = 2 * n → cells.length ≤ n →
    (cells.zipIdx.foldl (fun e c => e.set (2 * c.2) c.1) ents).length = ents.length ∧
    (∀ i, (cells.zipIdx.foldl (fun e c => e.set (2 * c.2) c.1) ents)[2 * i + 1]? = ents[2 * i + 1]?) ∧
    ∀ i, (cells.zipIdx.foldl (fun e c => e.set (2 * c.2) c.1) ents)[2 * i]? = if i < cells.length then cells[i]? else ents[2 * i]? := by
  induction cells using List.reverseRecOn with
  | nil => intro ents n _ _; simp
  | append_singleton cells c ih =>
    intro ents n hn hc
    simp only [List.length_append, List.length_singleton] at hc
    obtain ⟨h1, h2, h3⟩ := ih ents n hn (by omega)
    rw [List.zipIdx_append, List.foldl_append]
    simp only [List.zipIdx_singleton, List.foldl_cons, List.foldl_nil, Nat.zero_add]
    set r := cells.zipIdx.foldl (fun e c => e.set (2 * c.2) c.1) ents with hr
    refine ⟨by simp [h1], ?_, ?_⟩
    · intro i
      rw [List.getElem?_set_ne (by omega)]
      exact h2 i
    · intro i
      rcases Nat.lt_trichotomy i cells.length with hi | hi | hi
      · rw [List.getElem?_set_ne (by omega), h3 i, if_pos hi, if_pos (by simp; omega), List.getElem?_append_left hi]
      · subst hi
        rw [List.getElem?_set_self (by omega), if_pos (by simp), List.getElem?_append_right (by omega)]
        simp
      · rw [List.getElem?_set_ne (by omega), h3 i, if_neg (by omega), if_neg (by simp; omega)]

theorem mapM_some_get {α β : Type} (f : α → Option β) (l : List α) (h : ∀ x ∈ l, ∃ y, f x = some y) :
    ∃ r, l.mapM f = some r ∧ r.length = l.length ∧ ∀ (k : Nat) x, l[k]? = some x → r[k]? = f x := by
  induction l with
  | nil => exact ⟨[], rfl, rfl, by simp⟩
  | cons a l ih =>
    obtain ⟨r, hr, hlen, hget⟩ := ih fun x hx => h x (List.mem_cons_of_mem _ hx)
    obtain ⟨y, hy⟩ := h a (List.mem_cons_self ..)
    refine ⟨y :: r, by rw [List.mapM_cons, hy, hr]; rfl, by simp [hlen], ?_⟩
    intro k x hx
    cases k with
    | zero =>
      simp only [List.getElem?_cons_zero, Option.some.injEq] at hx ⊢
      rw [← hx, hy]
    | succ k => simpa using hget k x (by simpa using hx)

/-- The pair of a side. -/
theorem cellPos_even {t : Kind} (ht : t ≠ .cell) (e s : Nat) : ∃ i, cellPos t e s = 2 * i := by
  cases t
  · exact absurd rfl ht
  · exact ⟨e + s, by simp only [cellPos, width]; ring⟩
  · exact ⟨2 * e + s, by simp only [cellPos, width]; ring⟩
  · exact ⟨e + s, by simp only [cellPos, width]; ring⟩
  · exact ⟨e + s, by simp only [cellPos, width]; ring⟩

theorem cellPos_of_pair {t : Kind} (ht : t ≠ .cell) (i : Nat) : ∃ e s, s < sides t ∧ cellPos t e s = 2 * i := by
  cases t
  · exact absurd rfl ht
  · exact ⟨i, 0, by simp [sides], by simp [cellPos, width]⟩
  · exact ⟨i / 2, i % 2, by simp only [sides]; omega, by simp only [cellPos, width]; omega⟩
  · exact ⟨i, 0, by simp [sides], by simp [cellPos, width]⟩
  · exact ⟨i, 0, by simp [sides], by simp [cellPos, width]⟩

theorem width_even {t : Kind} (ht : t ≠ .cell) (n : Nat) : ∃ m, width t * n = 2 * m := by
  cases t
  · exact absurd rfl ht
  · exact ⟨n, rfl⟩
  · exact ⟨2 * n, by simp only [width]; ring⟩
  · exact ⟨n, rfl⟩
  · exact ⟨n, rfl⟩

/-- Entities of integrals are found in other meshes. -/
theorem mapDomain_ok {T : Type} (F : Form T) (m0 : MeshId) (t : Kind) (ents : List Int) (h : DomainOk F m0 t ents) :
    ∃ out, mapDomain F m0 t ents = some out ∧ Mapped F m0 t ents out := by
  obtain ⟨⟨n, hn⟩, hpos, h⟩ := h
  by_cases hid : m0.id = F.mesh.id
  · refine ⟨ents, by rw [mapDomain, if_pos hid], rfl, fun _ _ _ _ => rfl, ?_⟩
    intro e s cell lf _ hc _
    constructor
    · intro j hj
      rw [IsCell, if_pos hid] at hj
      rw [hc, hj]
    · intro hn
      refine absurd ?_ (hn cell)
      rw [IsCell, if_pos hid]
  · obtain ⟨hk, hmaps, hdim, hcov, hlow⟩ := h hid
    obtain ⟨em, hem, -⟩ := findMap_ok hmaps
    by_cases htc : t = .cell
    · subst htc
      have hd : m0.dim = F.mesh.dim := by
        rcases hdim with h | h
        · exact h
        · exact absurd rfl h.1
      obtain ⟨r, hr, hlen, hget⟩ := apply_ok hmaps hem ents hpos (hcov hd)
      refine ⟨r, by rw [mapDomain, if_neg hid, hem]; exact hr, hlen, fun _ _ _ h => absurd rfl h, ?_⟩
      intro e s cell lf hs hc _
      have hp := hget _ _ hc
      unfold IsCell
      simp only [if_neg hid, if_pos hd]
      exact hp
    · have hmd : mapDomain F m0 t ents = facetDomains ents ((F.mesh.dim : Int) - m0.dim) (F.c2e 1) em (em.sub == m0.topo) := by
        rw [mapDomain, if_neg hid, hem]
        rcases hk with rfl | rfl | rfl
        · exact absurd rfl htc
        · rfl
        · rfl
      obtain ⟨m, hm⟩ := width_even htc n
      rw [hm] at hn
      have hplen := pairs_length ents m hn
      by_cases hd : m0.dim = F.mesh.dim
      · have hl : ∀ x ∈ (pairs ents).map Prod.fst, x ∈ ents := by
          intro x hx
          obtain ⟨p, hp, rfl⟩ := List.mem_map.mp hx
          obtain ⟨i, h1, _⟩ := pairs_mem hp
          exact List.mem_of_getElem? h1
        obtain ⟨r, hr, hlen, hget⟩ := apply_ok hmaps hem ((pairs ents).map Prod.fst) (fun x hx => hpos x (hl x hx))
          (fun hc x hx => hcov hd hc x (hl _ hx))
        have hrl : r.length = m := by rw [hlen, List.length_map, hplen]
        obtain ⟨s1, s2, s3⟩ := set_even r ents m hn (by omega)
        refine ⟨_, ?_, s1, ?_, ?_⟩
        · rw [hmd, facetDomains, hd]
          simp only [sub_self, if_true, Option.bind_eq_bind, Option.bind_some, hr]
        · intro e s _ _
          obtain ⟨i, hi⟩ := cellPos_even htc e s
          rw [hi]; exact s2 i
        · intro e s cell lf hs hc hlf
          obtain ⟨i, hi⟩ := cellPos_even htc e s
          rw [hi] at hc hlf ⊢
          have hp := pairs_get ents i _ _ hc (hlf htc)
          have hil : i < m := by
            have := (List.getElem?_eq_some_iff.mp hp).1
            omega
          rw [s3 i, if_pos (by omega)]
          have hg := hget i cell (by rw [List.getElem?_map, hp]; rfl)
          unfold IsCell
          simp only [if_neg hid, if_pos hd]
          exact hg
      · have hd1 : m0.dim + 1 = F.mesh.dim := by
          rcases hdim with h | h
          · exact absurd h hd
          · exact h.2
        obtain ⟨hfac, hnosub⟩ := hlow hd1
        have hent : ∀ p ∈ pairs ents, ∃ f : Nat, entityAt (F.c2e 1) p = some (f : Int) := by
          intro p hp
          obtain ⟨i, h1, h2⟩ := pairs_mem hp
          have hp1 := hpos _ (List.mem_of_getElem? h1)
          have hp2 := hpos _ (List.mem_of_getElem? h2)
          obtain ⟨e, s, hs, he⟩ := cellPos_of_pair htc i
          obtain ⟨fs, f, hf1, hf2⟩ := hfac e s p.1.toNat p.2.toNat hs
            (by rw [he, Int.toNat_of_nonneg hp1]; exact h1) (by rw [he, Int.toNat_of_nonneg hp2]; exact h2)
          refine ⟨f, ?_⟩
          rw [entityAt, if_neg (by omega), hf1]
          simp [hf2]
        obtain ⟨l, hl, hll, hlg⟩ := mapM_some_get (entityAt (F.c2e 1)) (pairs ents) (fun p hp => ⟨_, (hent p hp).choose_spec⟩)
        have hlpos : ∀ x ∈ l, 0 ≤ x := by
          intro x hx
          obtain ⟨k, hk⟩ := List.mem_iff_getElem?.mp hx
          have hkl : k < (pairs ents).length := by rw [← hll]; exact (List.getElem?_eq_some_iff.mp hk).1
          have := hlg k _ (List.getElem?_eq_getElem hkl)
          obtain ⟨f, hf⟩ := hent _ (List.getElem_mem hkl)
          rw [hk, hf] at this
          rw [Option.some.inj this]; omega
        obtain ⟨r, hr, hlen, hget⟩ := apply_ok hmaps hem l hlpos
          (fun hc => by obtain ⟨em', he1, he2⟩ := hc; exact absurd he2 (hnosub em' he1))
        have hrl : r.length = m := by rw [hlen, hll, hplen]
        obtain ⟨s1, s2, s3⟩ := set_even r ents m hn (by omega)
        refine ⟨_, ?_, s1, ?_, ?_⟩
        · rw [hmd, facetDomains, ← hd1]
          have h1 : ((m0.dim + 1 : Nat) : Int) - m0.dim = 1 := by push_cast; ring
          rw [h1]
          simp only [if_neg (show ¬ (1 : Int) = 0 by decide), if_true, Option.bind_eq_bind, hl, Option.bind_some, hr]
        · intro e s _ _
          obtain ⟨i, hi⟩ := cellPos_even htc e s
          rw [hi]; exact s2 i
        · intro e s cell lf hs hc hlf
          have hc' := hc
          have hlf' := hlf htc
          obtain ⟨i, hi⟩ := cellPos_even htc e s
          rw [hi] at hc hlf ⊢
          have hp := pairs_get ents i _ _ hc (hlf htc)
          have hil : i < m := by
            have := (List.getElem?_eq_some_iff.mp hp).1
            omega
          rw [s3 i, if_pos (by omega)]
          obtain ⟨fs, f, hf1, hf2⟩ := hfac e s cell lf hs hc' hlf'
          have hlf := hlg i _ hp
          have hea : entityAt (F.c2e 1) ((cell : Int), (lf : Int)) = some (f : Int) := by
            rw [entityAt, if_neg (by simp only; omega)]
            simp [hf1, hf2]
          rw [hea] at hlf
          obtain ⟨hg1, hg2⟩ := hget i f hlf
          have hsub : F.mesh.dim - m0.dim = 1 := by omega
          have hic : ∀ j, IsCell F.mesh m0 (m0.id = F.mesh.id) F.maps F.c2e cell lf j ↔ Same F.maps F.mesh m0 f j := by
            intro j
            unfold IsCell
            rw [if_neg hid, if_neg hd, hsub]
            constructor
            · rintro ⟨fs', f', h1, h2, h3⟩
              rw [hf1] at h1; cases h1
              rw [hf2] at h2; cases h2
              exact h3
            · intro h3
              exact ⟨fs, f, hf1, hf2, h3⟩
          constructor
          · intro j hj; exact hg1 j ((hic j).mp hj)
          · intro hn; exact hg2 fun j hj => hn j ((hic j).mpr hj)

end Verif.Coefficients
