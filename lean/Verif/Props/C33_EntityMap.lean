import Verif.Model.EntityMap
import Mathlib.Data.List.Nodup
import Mathlib.Data.Nat.Find
/-!
# C33: entity maps
-/
namespace Verif.Props
open Verif

theorem inverseTable_lookup (m : List Int) (n : Nat) (hn : n ≤ m.length) (e i : Int) :
    (((List.range n).foldl (fun t (i : Nat) => match m[i]? with
      | some e => EntityMap.insert t (e, i)
      | none => t) ([] : List (Int × Int))).lookup e = some i) ↔
      ∃ k : Nat, i = k ∧ k < n ∧ m[k]? = some e ∧ ∀ j < k, m[j]? ≠ some e := by
  induction n generalizing i with
  | zero => simp
  | succ n ih =>
    have ih := ih (by omega)
    rw [List.range_succ, List.foldl_append]
    set t := (List.range n).foldl (fun t (i : Nat) => match m[i]? with
      | some e => EntityMap.insert t (e, i)
      | none => t) ([] : List (Int × Int)) with ht
    have hm : m[n]? = some (m[n]'(by omega)) := List.getElem?_eq_getElem (by omega)
    simp only [List.foldl_cons, List.foldl_nil, hm]
    set x := m[n]'(by omega) with hx
    unfold EntityMap.insert
    have hnone : t.lookup e = none → ∀ j < n, m[j]? ≠ some e := by
      intro h0 j hj hje
      -- the first position with `e`
      have hex : ∃ k, k < n ∧ m[k]? = some e := ⟨j, hj, hje⟩
      classical
      obtain ⟨hk1, hk2⟩ := Nat.find_spec hex
      have := (ih (Nat.find hex : Nat)).mpr ⟨Nat.find hex, rfl, hk1, hk2, fun l hl hle =>
        Nat.find_min hex hl ⟨by omega, hle⟩⟩
      rw [h0] at this
      exact absurd this (by simp)
    by_cases hs : (t.lookup x).isSome = true
    · rw [if_pos hs, ih]
      constructor
      · rintro ⟨k, h1, h2, h3⟩; exact ⟨k, h1, by omega, h3⟩
      · rintro ⟨k, h1, h2, h3, h4⟩
        refine ⟨k, h1, ?_, h3, h4⟩
        rcases Nat.lt_or_ge k n with h | h
        · exact h
        · exfalso
          have hkn : k = n := by omega
          subst hkn
          rw [hm] at h3
          obtain ⟨i', hi'⟩ := Option.isSome_iff_exists.mp hs
          rw [Option.some.inj h3, ih] at hi'
          obtain ⟨k', _, hk', hk'', _⟩ := hi'
          exact h4 k' hk' hk''
    · rw [if_neg hs, List.lookup_append]
      have hs' : t.lookup x = none := Option.not_isSome_iff_eq_none.mp hs
      by_cases hex : e = x
      · subst hex
        rw [hs']
        simp only [Option.none_or, List.lookup_cons, beq_self_eq_true, Option.some.injEq]
        constructor
        · intro h; exact ⟨n, h.symm, by omega, hm, hnone hs'⟩
        · rintro ⟨k, h1, h2, h3, h4⟩
          rcases Nat.lt_or_ge k n with h | h
          · exact absurd h3 (hnone hs' k h)
          · have : k = n := by omega
            rw [h1, this]
      · have hb : (e == x) = false := by simpa using hex
        simp only [List.lookup_cons, hb, List.lookup_nil, Option.or_none]
        rw [ih]
        constructor
        · rintro ⟨k, h1, h2, h3⟩; exact ⟨k, h1, by omega, h3⟩
        · rintro ⟨k, h1, h2, h3, h4⟩
          refine ⟨k, h1, ?_, h3, h4⟩
          rcases Nat.lt_or_ge k n with h | h
          · exact h
          · exfalso
            have hkn : k = n := by omega
            subst hkn
            rw [hm] at h3
            exact hex (Option.some.inj h3).symm

/-- C33: mapping a parent entity back gives the first sub-entity that maps to it, and `-1` exactly when no
sub-entity does. -/
theorem C33_backward (m : List Int) (entities : List Int) :
    (EntityMap.backward m entities).length = entities.length ∧
    ∀ (k : Nat) e, entities[k]? = some e →
      (∀ i : Nat, (EntityMap.backward m entities)[k]? = some (i : Int) ↔
        m[i]? = some e ∧ ∀ j < i, m[j]? ≠ some e) ∧
      ((EntityMap.backward m entities)[k]? = some (-1) ↔ e ∉ m) := by
  refine ⟨by simp [EntityMap.backward], ?_⟩
  intro k e hk
  have hl : ∀ i : Int, (EntityMap.inverseTable m).lookup e = some i ↔
      ∃ k : Nat, i = k ∧ k < m.length ∧ m[k]? = some e ∧ ∀ j < k, m[j]? ≠ some e :=
    fun i => inverseTable_lookup m m.length (Nat.le_refl _) e i
  unfold EntityMap.backward
  rw [List.getElem?_map, hk]
  simp only [Option.map_some, Option.some.injEq]
  cases h : (EntityMap.inverseTable m).lookup e with
  | none =>
    constructor
    · intro i
      constructor
      · intro h0; simp only at h0; omega
      · rintro ⟨h1, h2⟩
        have := (hl i).mpr ⟨i, rfl, (List.getElem?_eq_some_iff.mp h1).1, h1, h2⟩
        rw [h] at this
        exact absurd this (by simp)
    · simp only [true_iff]
      intro hm
      obtain ⟨j, hj⟩ := List.mem_iff_getElem?.mp hm
      have hex : ∃ k : Nat, m[k]? = some e := ⟨j, hj⟩
      have h1 := Nat.find_spec hex
      have := (hl (Nat.find hex : Nat)).mpr ⟨Nat.find hex, rfl, (List.getElem?_eq_some_iff.mp h1).1, h1,
        fun l hl hle => Nat.find_min hex hl hle⟩
      rw [h] at this
      exact absurd this (by simp)
  | some i =>
    obtain ⟨k', h1, h2, h3, h4⟩ := (hl i).mp h
    constructor
    · intro j
      simp only
      constructor
      · intro hj
        have : j = k' := by omega
        subst this
        exact ⟨h3, h4⟩
      · rintro ⟨h5, h6⟩
        rw [h1]
        rcases Nat.lt_trichotomy k' j with h | h | h
        · exact absurd h3 (h6 k' h)
        · rw [h]
        · exact absurd h5 (h4 j h)
    · simp only
      constructor
      · intro hj; omega
      · intro hm; exact absurd (List.mem_of_getElem? h3) hm

/-- C33: mapping sub-entities to the parent and back gives them back, and so does the other round trip for
the parent entities that are in the sub-topology, when no two sub-entities share a parent entity. -/
theorem C33_round_trip (sub : Option (Nat × Nat)) (m0 m : List Int) (hc : EntityMap.create sub m0 = .ok m)
    (hinj : m0.Nodup) :
    (∃ o g, sub = some (o, g) ∧ m.length = o + g ∧
      ∀ entities : List Nat, (∀ i ∈ entities, i < o + g) →
        ∃ parents : List Int, EntityMap.forward m entities = parents.map some ∧
          EntityMap.backward m parents = entities.map fun i => (i : Int)) ∧
    ∀ parents : List Int, (∀ e ∈ parents, e ∈ m) →
      ∃ subs : List Nat, EntityMap.backward m parents = subs.map (fun i => (i : Int)) ∧
        EntityMap.forward m subs = parents.map some := by
  unfold EntityMap.create at hc
  cases sub with
  | none => exact absurd hc (by simp)
  | some p =>
    obtain ⟨o, g⟩ := p
    simp only at hc
    split at hc
    · exact absurd hc (by simp)
    · rename_i hlen
      have hlen : o + g = m0.length := by simpa using hlen
      have : m0 = m := by injection hc
      subst this
      have hback : ∀ (i : Nat) e, m0[i]? = some e → EntityMap.backward m0 [e] = [(i : Int)] := by
        intro i e hi
        have h := ((C33_backward m0 [e]).2 0 e rfl).1 i
        have h1 := h.mpr ⟨hi, fun j hj hje => by
          obtain ⟨hi', _⟩ := List.getElem?_eq_some_iff.mp hi
          have := (List.getElem?_inj (by omega) hinj).mp (hje.trans hi.symm)
          omega⟩
        have h2 : (EntityMap.backward m0 [e]).length = 1 := (C33_backward m0 [e]).1
        match hb : EntityMap.backward m0 [e], h2 with
        | [x], _ => rw [hb] at h1; simpa using h1
      have hcons : ∀ e l, EntityMap.backward m0 (e :: l) = EntityMap.backward m0 [e] ++ EntityMap.backward m0 l := by
        intro e l; simp [EntityMap.backward]
      refine ⟨⟨o, g, rfl, hlen.symm, ?_⟩, ?_⟩
      · intro entities
        induction entities with
        | nil => intro _; exact ⟨[], rfl, rfl⟩
        | cons i l ih =>
          intro h
          obtain ⟨ps, h1, h2⟩ := ih fun j hj => h j (by simp [hj])
          have hi : i < m0.length := by have := h i (by simp); omega
          refine ⟨m0[i] :: ps, ?_, ?_⟩
          · show m0[i]? :: EntityMap.forward m0 l = _
            rw [h1, List.getElem?_eq_getElem hi]; rfl
          · rw [hcons, hback i _ (List.getElem?_eq_getElem hi), h2]; rfl
      · intro parents
        induction parents with
        | nil => intro _; exact ⟨[], rfl, rfl⟩
        | cons e l ih =>
          intro h
          obtain ⟨ss, h1, h2⟩ := ih fun j hj => h j (by simp [hj])
          obtain ⟨i, hi⟩ := List.mem_iff_getElem?.mp (h e (by simp))
          refine ⟨i :: ss, ?_, ?_⟩
          · rw [hcons, hback i e hi, h1]; rfl
          · show m0[i]? :: EntityMap.forward m0 ss = _
            rw [h2, hi]; rfl

/-- Three owned entities and a ghost of a sub-mesh. -/
example : ∃ m, EntityMap.create (some (3, 1)) [7, 2, 9, 4] = .ok m ∧ m.Nodup ∧
    EntityMap.backward m [9, 5, 7] = [2, -1, 0] := ⟨_, rfl, by decide, by decide⟩

end Verif.Props
