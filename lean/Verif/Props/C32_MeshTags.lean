import Verif.Model.MeshTags
import Verif.Lemmas.StdAlg
import Verif.Spec.TagOf
/-!
# C32: mesh tags
-/
namespace Verif.Props
open Verif.Std Verif.MeshTags Verif.Spec

section
variable {α κ : Type} [LinearOrder κ] (f : α → κ)

theorem uniqueFrom_sub (eq : α → α → Bool) (a : α) (l : List α) : ∀ x ∈ uniqueFrom eq a l, x ∈ l := by
  induction l generalizing a with
  | nil => intro x hx; exact hx
  | cons b l ih =>
    intro x hx
    unfold uniqueFrom at hx
    split at hx
    · exact List.mem_cons_of_mem _ (ih a x hx)
    · rcases List.mem_cons.mp hx with rfl | hx
      · simp
      · exact List.mem_cons_of_mem _ (ih b x hx)

theorem uniqueBy_strict (l : List α) (h : l.Pairwise fun x y => f x ≤ f y) :
    (uniqueBy (fun a b => decide (f a = f b)) l).Pairwise fun x y => f x < f y := by
  cases l with
  | nil => exact List.Pairwise.nil
  | cons a l =>
    show (a :: uniqueFrom _ a l).Pairwise _
    induction l generalizing a with
    | nil => simp [uniqueFrom]
    | cons b l ih =>
      unfold uniqueFrom
      obtain ⟨h1, h2⟩ := List.pairwise_cons.mp h
      obtain ⟨h3, h4⟩ := List.pairwise_cons.mp h2
      split
      · exact ih a (List.pairwise_cons.mpr ⟨fun x hx => h1 x (by simp [hx]), h4⟩)
      · rename_i hab
        have hab : f a ≠ f b := by simpa using hab
        have hlt : f a < f b := lt_of_le_of_ne (h1 b (by simp)) hab
        refine List.pairwise_cons.mpr ⟨?_, ih b h2⟩
        intro x hx
        rcases List.mem_cons.mp hx with rfl | hx
        · exact hlt
        · exact lt_of_lt_of_le hlt (h3 x (uniqueFrom_sub _ _ _ x hx))

theorem mem_uniqueBy (le : α → α → Prop) (hrefl : ∀ a, le a a) (htrans : ∀ a b c, le a b → le b c → le a c)
    (hanti : ∀ a b, le a b → le b a → a = b) (hle : ∀ a b, le a b → f a ≤ f b) (l : List α) (h : l.Pairwise le) (x : α) :
    x ∈ uniqueBy (fun a b => decide (f a = f b)) l ↔ x ∈ l ∧ ∀ y ∈ l, f y = f x → le x y := by
  cases l with
  | nil => simp [uniqueBy]
  | cons a l =>
    show x ∈ a :: uniqueFrom _ a l ↔ _
    induction l generalizing a with
    | nil =>
      simp only [uniqueFrom, List.mem_singleton]
      exact ⟨fun e => ⟨e, fun y hy _ => by rw [e, hy]; exact hrefl a⟩, fun e => e.1⟩
    | cons b l ih =>
      obtain ⟨h1, h2⟩ := List.pairwise_cons.mp h
      obtain ⟨h3, h4⟩ := List.pairwise_cons.mp h2
      unfold uniqueFrom
      split
      · rename_i hab
        have hab : f a = f b := by simpa using hab
        rw [ih a (List.pairwise_cons.mpr ⟨fun y hy => h1 y (by simp [hy]), h4⟩)]
        constructor
        · rintro ⟨hx, hm⟩
          refine ⟨?_, ?_⟩
          · rcases List.mem_cons.mp hx with rfl | hx <;> simp_all
          · intro y hy hf
            rcases List.mem_cons.mp hy with rfl | hy
            · exact hm _ (by simp) hf
            · rcases List.mem_cons.mp hy with rfl | hy
              · exact htrans _ _ _ (hm a (by simp) (hab.trans hf)) (h1 _ (by simp))
              · exact hm y (by simp [hy]) hf
        · rintro ⟨hx, hm⟩
          refine ⟨?_, fun y hy hf => hm y (by rcases List.mem_cons.mp hy with rfl | hy <;> simp_all) hf⟩
          rcases List.mem_cons.mp hx with rfl | hx
          · simp
          · rcases List.mem_cons.mp hx with rfl | hx
            · have := hanti _ _ (hm a (by simp) hab) (h1 _ (by simp))
              simp [this]
            · simp [hx]
      · rename_i hab
        have hab : f a ≠ f b := by simpa using hab
        have hlt : f a < f b := lt_of_le_of_ne (hle _ _ (h1 b (by simp))) hab
        have hbig : ∀ y ∈ b :: l, f a < f y := by
          intro y hy
          rcases List.mem_cons.mp hy with rfl | hy
          · exact hlt
          · exact lt_of_lt_of_le hlt (hle _ _ (h3 y hy))
        rw [List.mem_cons, ih b h2]
        constructor
        · rintro (rfl | ⟨hx, hm⟩)
          · refine ⟨by simp, ?_⟩
            intro y hy hf
            rcases List.mem_cons.mp hy with rfl | hy
            · exact hrefl _
            · exact absurd hf (ne_of_gt (hbig y hy))
          · refine ⟨List.mem_cons_of_mem _ hx, ?_⟩
            intro y hy hf
            rcases List.mem_cons.mp hy with rfl | hy
            · exact absurd hf (ne_of_lt (hbig x hx))
            · exact hm y hy hf
        · rintro ⟨hx, hm⟩
          rcases List.mem_cons.mp hx with rfl | hx
          · left; rfl
          · right; exact ⟨hx, fun y hy hf => hm y (List.mem_cons_of_mem _ hy) hf⟩
end

theorem tagOf_zip {α V : Type} (ind : List α) (vals : List V) (e : α) (v : V) :
    TagOf ind vals e v ↔ (e, v) ∈ ind.zip vals := by
  rw [List.mem_iff_getElem?]
  unfold TagOf
  simp only [List.getElem?_zip_eq_some]

theorem tagOf_map {α V : Type} (l : List (α × V)) (e : α) (v : V) :
    TagOf (l.map Prod.fst) (l.map Prod.snd) e v ↔ (e, v) ∈ l := by
  rw [tagOf_zip, List.zip_map', List.mem_map]
  constructor
  · rintro ⟨x, hx, h⟩; rw [← h]; exact hx
  · intro h; exact ⟨(e, v), h, rfl⟩

section
variable {V : Type} [LinearOrder V]

/-- The sorted pairs without repeated index. -/
def sortedTags (ind : List Int) (vals : List V) : List (Int × V) :=
  uniqueBy (fun a b : Int × V => decide (a.1 = b.1)) (sort pairLe (ind.zip vals))

theorem pairLe_iff (a b : Int × V) : pairLe a b = true ↔ (a.1 < b.1 ∨ (a.1 = b.1 ∧ a.2 ≤ b.2)) := by
  unfold pairLe; exact decide_eq_true_iff

theorem sort_pairs_sorted (l : List (Int × V)) : (sort pairLe l).Pairwise fun a b => pairLe a b = true := by
  apply sort_sorted
  · intro a b c h1 h2
    rw [pairLe_iff] at *
    rcases h1 with h1 | ⟨h1, h1'⟩ <;> rcases h2 with h2 | ⟨h2, h2'⟩
    · left; omega
    · left; omega
    · left; omega
    · right; exact ⟨by omega, le_trans h1' h2'⟩
  · intro a b
    rw [Bool.or_eq_true, pairLe_iff, pairLe_iff]
    rcases lt_trichotomy a.1 b.1 with h | h | h
    · left; left; exact h
    · rcases le_total a.2 b.2 with h' | h'
      · left; right; exact ⟨h, h'⟩
      · right; right; exact ⟨h.symm, h'⟩
    · right; left; exact h

theorem mem_sortedTags (ind : List Int) (vals : List V) (e : Int) (v : V) :
    (e, v) ∈ sortedTags ind vals ↔ (e, v) ∈ ind.zip vals ∧ ∀ v', (e, v') ∈ ind.zip vals → v ≤ v' := by
  unfold sortedTags
  rw [mem_uniqueBy (fun a : Int × V => a.1) (fun a b => pairLe a b = true) _ _ _ _ _ (sort_pairs_sorted _)]
  · simp only [mem_sort]
    constructor
    · rintro ⟨h, hm⟩
      refine ⟨h, fun v' h' => ?_⟩
      have := hm (e, v') h' rfl
      rw [pairLe_iff] at this
      rcases this with h | ⟨_, h⟩
      · exact absurd h (lt_irrefl _)
      · exact h
    · rintro ⟨h, hm⟩
      refine ⟨h, ?_⟩
      rintro ⟨e', v'⟩ h' (rfl : e' = e)
      rw [pairLe_iff]
      right; exact ⟨rfl, hm v' h'⟩
  · intro a; rw [pairLe_iff]; right; exact ⟨rfl, le_refl _⟩
  · intro a b c h1 h2
    rw [pairLe_iff] at *
    rcases h1 with h1 | ⟨h1, h1'⟩ <;> rcases h2 with h2 | ⟨h2, h2'⟩
    · left; omega
    · left; omega
    · left; omega
    · right; exact ⟨by omega, le_trans h1' h2'⟩
  · intro a b h1 h2
    rw [pairLe_iff] at *
    rcases h1 with h1 | ⟨h1, h1'⟩ <;> rcases h2 with h2 | ⟨h2, h2'⟩
    · omega
    · omega
    · omega
    · exact Prod.ext h1 (le_antisymm h1' h2')
  · intro a b h
    rw [pairLe_iff] at h
    rcases h with h | h
    · exact le_of_lt h
    · exact le_of_eq h.1

theorem sortedTags_strict (ind : List Int) (vals : List V) : ((sortedTags ind vals).map Prod.fst).Pairwise (· < ·) := by
  rw [List.pairwise_map]
  refine uniqueBy_strict (fun a : Int × V => a.1) _ ((sort_pairs_sorted _).imp ?_)
  intro a b h
  rw [pairLe_iff] at h
  rcases h with h | h
  · exact le_of_lt h
  · exact le_of_eq h.1

/-- C32: `sort_unique` sorts by index, keeps every index once, with the smallest of its values; arrays of
different lengths are refused. -/
theorem C32_sort_unique (ind : List Int) (vals : List V) :
    (ind.length ≠ vals.length → sortUnique ind vals = .error .lengths) ∧
    (ind.length = vals.length → ∃ i v, sortUnique ind vals = .ok (i, v) ∧ i.length = v.length ∧
      i.Pairwise (· < ·) ∧ (∀ e, e ∈ i ↔ e ∈ ind) ∧
      ∀ e x, TagOf i v e x ↔ TagOf ind vals e x ∧ ∀ y, TagOf ind vals e y → x ≤ y) := by
  constructor
  · intro h
    unfold sortUnique; rw [if_pos h]
  · intro h
    refine ⟨(sortedTags ind vals).map Prod.fst, (sortedTags ind vals).map Prod.snd, ?_, by simp, sortedTags_strict _ _, ?_, ?_⟩
    · unfold sortUnique; rw [if_neg (by simpa using h)]; rfl
    · intro e
      have hz : (ind.zip vals).map Prod.fst = ind := List.map_fst_zip (by omega)
      constructor
      · intro he
        obtain ⟨p, hp, rfl⟩ := List.mem_map.mp he
        obtain ⟨p1, p2⟩ := p
        have := ((mem_sortedTags ind vals p1 p2).mp hp).1
        exact (List.of_mem_zip this).1
      · intro he
        obtain ⟨p, hp, rfl⟩ := List.mem_map.mp (hz ▸ he)
        have hsorted := sort_pairs_sorted ((ind.zip vals))
        -- the first element with this index
        have hne : ((sort pairLe (ind.zip vals)).filter fun q => decide (q.1 = p.1)) ≠ [] := by
          intro e0
          have := List.filter_eq_nil_iff.mp e0 p ((mem_sort _ _ _).mpr hp)
          simp at this
        obtain ⟨q, rest, hq⟩ := List.exists_cons_of_ne_nil hne
        have hqm : q ∈ (sort pairLe (ind.zip vals)).filter fun q => decide (q.1 = p.1) := by rw [hq]; simp
        obtain ⟨hq1, hq2⟩ := List.mem_filter.mp hqm
        have hq2 : q.1 = p.1 := by simpa using hq2
        refine List.mem_map.mpr ⟨q, ?_, hq2⟩
        obtain ⟨q1, q2⟩ := q
        rw [mem_sortedTags]
        refine ⟨(mem_sort _ _ _).mp hq1, ?_⟩
        intro v' hv'
        have hm : (q1, v') ∈ (sort pairLe (ind.zip vals)).filter fun q => decide (q.1 = p.1) := by
          rw [List.mem_filter]; exact ⟨(mem_sort _ _ _).mpr hv', by simpa using hq2⟩
        rw [hq] at hm
        have hpw : ((q1, q2) :: rest).Pairwise fun a b => pairLe a b = true := by
          rw [← hq]; exact hsorted.sublist List.filter_sublist
        rcases List.mem_cons.mp hm with e1 | e1
        · exact le_of_eq (Prod.ext_iff.mp e1).2.symm
        · have := (List.pairwise_cons.mp hpw).1 _ e1
          rw [pairLe_iff] at this
          rcases this with h0 | ⟨_, h0⟩
          · exact absurd h0 (lt_irrefl _)
          · exact h0
    · intro e x
      rw [tagOf_map, mem_sortedTags]
      simp only [tagOf_zip]

end

/-! ### Entities by vertices -/

theorem key_eq_iff (a b : List Nat) : key a = key b ↔ a.Perm b := by
  unfold key
  constructor
  · intro h
    exact (sortNat_perm a).symm.trans (h ▸ sortNat_perm b)
  · intro h
    exact ((sortNat_perm a).trans (h.trans (sortNat_perm b).symm)).eq_of_pairwise
      (fun x y _ _ h1 h2 => Nat.le_antisymm h1 h2) (sortNat_sorted a) (sortNat_sorted b)

theorem buildKeys_ok (rows : List (List Nat)) (e : Nat) (m : List (List Nat × Nat))
    (h : (m.map Prod.fst ++ rows.map key).Nodup) :
    buildKeys rows e m = .ok (m ++ (rows.zipIdx e).map fun p => (key p.1, p.2)) := by
  induction rows generalizing e m with
  | nil => simp [buildKeys]
  | cons vs rows ih =>
    have hno : ¬ (m.lookup (key vs)).isSome = true := by
      rw [List.lookup_isSome_iff]
      rintro ⟨p, hp, hk⟩
      have hk : key vs = p.1 := by simpa using hk
      have := (List.nodup_append.mp h).2.2 p.1 (List.mem_map_of_mem hp) (key vs) (by simp)
      exact this hk.symm
    unfold buildKeys insertKey
    rw [if_neg hno]
    simp only []
    rw [ih (e + 1) (m ++ [(key vs, e)]) (by simpa using h)]
    simp

theorem buildKeys_error (rows : List (List Nat)) (e : Nat) (m : List (List Nat × Nat))
    (h : ¬ (m.map Prod.fst ++ rows.map key).Nodup) (hm : (m.map Prod.fst).Nodup) :
    buildKeys rows e m = .error .duplicateEntity := by
  induction rows generalizing e m with
  | nil => simp only [List.map_nil, List.append_nil] at h; exact absurd hm h
  | cons vs rows ih =>
    unfold buildKeys insertKey
    by_cases hs : (m.lookup (key vs)).isSome = true
    · rw [if_pos hs]
    · rw [if_neg hs]
      simp only []
      apply ih
      · simpa using h
      · rw [List.map_append, List.nodup_append]
        refine ⟨hm, by simp, ?_⟩
        intro a ha b hb hab
        simp only [List.map_cons, List.map_nil, List.mem_singleton] at hb
        obtain ⟨p, hp, hp1⟩ := List.mem_map.mp ha
        apply hs
        rw [List.lookup_isSome_iff]
        exact ⟨p, hp, by rw [hp1, hab, hb]; simp⟩

theorem lookup_mem {κ β : Type} [BEq κ] [LawfulBEq κ] (m : List (κ × β)) (h : (m.map Prod.fst).Nodup) (k : κ) (b : β) :
    m.lookup k = some b ↔ (k, b) ∈ m := by
  rw [List.lookup_eq_some_iff]
  constructor
  · rintro ⟨l1, l2, h, _⟩; rw [h]; simp
  · intro hm
    obtain ⟨l1, l2, h2⟩ := List.append_of_mem hm
    refine ⟨l1, l2, h2, ?_⟩
    intro p hp
    rw [h2, List.map_append, List.nodup_append] at h
    have := h.2.2 p.1 (List.mem_map_of_mem hp) k (by simp)
    simpa using Ne.symm this

/-- No two entities have the same vertices. -/
def DistinctEntities (etov : List (List Nat)) : Prop := etov.Pairwise fun a b => ¬ a.Perm b

theorem distinct_iff (etov : List (List Nat)) : DistinctEntities etov ↔ (etov.map key).Nodup := by
  unfold DistinctEntities List.Nodup
  rw [List.pairwise_map]
  constructor <;> intro h <;> refine h.imp ?_ <;> intro a b hab
  · exact fun e => hab ((key_eq_iff a b).mp e)
  · exact fun e => hab ((key_eq_iff a b).mpr e)

/-- C32: the index returned for a list of vertices is the entity with exactly these vertices, in any order,
and `-1` when there is none. -/
theorem C32_entities_to_index (etov queries : List (List Nat)) :
    (DistinctEntities etov → ∃ ind, entitiesToIndex etov queries = .ok ind ∧ ind.length = queries.length ∧
      ∀ (k : Nat) q, queries[k]? = some q →
        (∀ e : Nat, ind[k]? = some (e : Int) ↔ ∃ row, etov[e]? = some row ∧ row.Perm q) ∧
        (ind[k]? = some (-1) ↔ ∀ row ∈ etov, ¬ row.Perm q)) ∧
    (¬ DistinctEntities etov → entitiesToIndex etov queries = .error .duplicateEntity) := by
  rw [distinct_iff]
  constructor
  · intro hd
    have hb := buildKeys_ok etov 0 [] (by simpa using hd)
    rw [List.nil_append] at hb
    have hn : ((etov.zipIdx.map fun p => (key p.1, p.2)).map Prod.fst).Nodup := by
      rw [List.map_map]
      have : (Prod.fst ∘ fun p : List Nat × Nat => (key p.1, p.2)) = key ∘ Prod.fst := rfl
      rw [this, ← List.map_map, List.zipIdx_map_fst]
      exact hd
    have hlook : ∀ q (e : Nat), (etov.zipIdx.map fun p => (key p.1, p.2)).lookup (key q) = some e ↔
        ∃ row, etov[e]? = some row ∧ row.Perm q := by
      intro q e
      rw [lookup_mem _ hn, List.mem_map]
      constructor
      · rintro ⟨⟨row, e'⟩, hp, he⟩
        obtain ⟨h1, h2⟩ := Prod.ext_iff.mp he
        have h2 : e' = e := h2
        subst h2
        refine ⟨row, List.mk_mem_zipIdx_iff_getElem?.mp hp, (key_eq_iff _ _).mp h1⟩
      · rintro ⟨row, h1, h2⟩
        exact ⟨(row, e), List.mk_mem_zipIdx_iff_getElem?.mpr h1, by rw [(key_eq_iff _ _).mpr h2]⟩
    refine ⟨queries.map fun q => match (etov.zipIdx.map fun p : List Nat × Nat => (key p.1, p.2)).lookup (key q) with
      | some (e : Nat) => (e : Int) | none => -1, ?_, by simp, ?_⟩
    · unfold entitiesToIndex; rw [hb]; rfl
    · intro k q hq
      rw [List.getElem?_map, hq]
      simp only [Option.map_some, Option.some.injEq]
      constructor
      · intro e
        rw [← hlook]
        cases hl : (etov.zipIdx.map fun p => (key p.1, p.2)).lookup (key q) with
        | none => simp only [reduceCtorEq]
        | some e' => simp only [Option.some.injEq]; omega
      · cases hl : (etov.zipIdx.map fun p => (key p.1, p.2)).lookup (key q) with
        | none =>
          simp only [true_iff]
          intro row hrow hp
          obtain ⟨e, he⟩ := List.mem_iff_getElem?.mp hrow
          have := (hlook q e).mpr ⟨row, he, hp⟩
          rw [hl] at this
          exact absurd this (by simp)
        | some e' =>
          obtain ⟨row, h1, h2⟩ := (hlook q e').mp hl
          constructor
          · intro h; simp only at h; omega
          · intro h; exact absurd h2 (h row (List.mem_of_getElem? h1))
  · intro hd
    unfold entitiesToIndex
    rw [buildKeys_error etov 0 [] (by simpa using hd) (by simp)]

/-! ### The tags -/

section
variable {V : Type} [LinearOrder V]

/-- Value `v` was given for entity `e` by some query with the vertices of `e`. -/
def Given (etov queries : List (List Nat)) (vals : List V) (e : Nat) (v : V) : Prop :=
  ∃ (k : Nat) (q row : List Nat), queries[k]? = some q ∧ vals[k]? = some v ∧ etov[e]? = some row ∧ row.Perm q

/-- C32: `create_meshtags` tags exactly the entities that exist on the rank and were asked for, in increasing
order, every entity once with the smallest value given for it. -/
theorem C32_create (etov queries : List (List Nat)) (vals : List V) (hd : DistinctEntities etov) :
    (queries.length ≠ vals.length → createMeshtags etov queries vals = .error .duplicateTags) ∧
    (queries.length = vals.length → ∃ t, createMeshtags etov queries vals = .ok t ∧
      t.indices.length = t.values.length ∧ t.indices.Pairwise (· < ·) ∧
      ∀ (i : Int) v, TagOf t.indices t.values i v ↔
        ∃ e : Nat, i = e ∧ Given etov queries vals e v ∧ ∀ v', Given etov queries vals e v' → v ≤ v') := by
  obtain ⟨ind, hind, hlen, hspec⟩ := (C32_entities_to_index etov queries).1 hd
  constructor
  · intro h
    unfold createMeshtags
    rw [hind]
    simp only []
    rw [if_pos (by omega)]
  · intro h
    obtain ⟨i, v, hsu, hil, hist, _, htag⟩ := (C32_sort_unique ind vals).2 (by omega)
    have hlb := lowerBound_spec (fun e : Int => decide (e < 0)) i
      (partitioned_of_sorted (fun c : Int => c) _ (hist.imp fun h => le_of_lt h) 0)
    set pos := lowerBound (fun e : Int => decide (e < 0)) i with hpos
    obtain ⟨b1, b2, b3⟩ := hlb
    refine ⟨⟨i.drop pos, v.drop pos⟩, ?_, by simp [hil], hist.drop, ?_⟩
    · unfold createMeshtags
      rw [hind]
      simp only []
      rw [if_neg (by omega), hsu]
      simp only []
      unfold Tags.new
      rw [if_neg (by simp [hil]), if_neg (not_not.mpr (hist.drop.imp fun h => le_of_lt h)),
        if_neg (not_not.mpr (nodup_of_strict hist.drop))]
    · -- the given values are those at the positions of the found entities
      have hgiven : ∀ (e : Nat) x, TagOf ind vals (e : Int) x ↔ Given etov queries vals e x := by
        intro e x
        constructor
        · rintro ⟨k, hk1, hk2⟩
          obtain ⟨hk, _⟩ := List.getElem?_eq_some_iff.mp hk1
          have hq : queries[k]? = some (queries[k]'(by omega)) := List.getElem?_eq_getElem (by omega)
          obtain ⟨row, hr, hp⟩ := ((hspec k _ hq).1 e).mp hk1
          exact ⟨k, _, row, hq, hk2, hr, hp⟩
        · rintro ⟨k, q, row, hq, hv, hr, hp⟩
          exact ⟨k, ((hspec k q hq).1 e).mpr ⟨row, hr, hp⟩, hv⟩
      have hneg : ∀ (j : Int), j ∈ ind → j < 0 → j = -1 := by
        intro j hj hj0
        obtain ⟨k, hk⟩ := List.mem_iff_getElem?.mp hj
        obtain ⟨hkl, _⟩ := List.getElem?_eq_some_iff.mp hk
        have hq : queries[k]? = some (queries[k]'(by omega)) := List.getElem?_eq_getElem (by omega)
        by_contra hne
        have h1 : ¬ ind[k]? = some (-1) := by rw [hk]; simpa using hne
        rw [(hspec k _ hq).2] at h1
        push Not at h1
        obtain ⟨row, hrow, hp⟩ := h1
        obtain ⟨e, he⟩ := List.mem_iff_getElem?.mp hrow
        have := ((hspec k _ hq).1 e).mpr ⟨row, he, hp⟩
        rw [hk] at this
        have := Option.some.inj this
        omega
      intro j x
      have hdrop : TagOf (i.drop pos) (v.drop pos) j x ↔ 0 ≤ j ∧ TagOf i v j x := by
        constructor
        · rintro ⟨k, h1, h2⟩
          rw [List.getElem?_drop] at h1 h2
          refine ⟨?_, pos + k, h1, h2⟩
          obtain ⟨hl, he⟩ := List.getElem?_eq_some_iff.mp h1
          have := b3 (pos + k) hl (by omega)
          rw [he] at this
          have := of_decide_eq_false this
          omega
        · rintro ⟨h0, k, h1, h2⟩
          obtain ⟨hl, he⟩ := List.getElem?_eq_some_iff.mp h1
          have hk : pos ≤ k := by
            by_contra hlt
            have := b2 k hl (by omega)
            rw [he] at this
            have := of_decide_eq_true this
            omega
          refine ⟨k - pos, ?_, ?_⟩ <;> rw [List.getElem?_drop, Nat.add_sub_cancel' hk] <;> assumption
      rw [hdrop, htag]
      constructor
      · rintro ⟨h0, h1, h2⟩
        refine ⟨j.toNat, by omega, ?_, ?_⟩
        · rw [← hgiven, Int.toNat_of_nonneg h0]; exact h1
        · intro v' hv'
          rw [← hgiven, Int.toNat_of_nonneg h0] at hv'
          exact h2 v' hv'
      · rintro ⟨e, rfl, h1, h2⟩
        refine ⟨by omega, (hgiven e x).mpr h1, fun y hy => h2 y ((hgiven e y).mp hy)⟩

end

/-- C32: `find` lists exactly the entities with the value, in the order of the tags. -/
theorem C32_find {V : Type} [DecidableEq V] (t : Tags V)
    (hs : t.indices.Pairwise (· < ·)) (v : V) :
    (t.find v).Pairwise (· < ·) ∧ ∀ e, e ∈ t.find v ↔ TagOf t.indices t.values e v := by
  have hfind : t.find v = (List.range t.values.length).flatMap fun i =>
      if t.values[i]? = some v then (t.indices[i]?).toList else [] := by
    unfold Tags.find
    have : ∀ (l : List Nat) (acc : List Int), l.foldl (fun out i =>
        if t.values[i]? = some v then out ++ (t.indices[i]?).toList else out) acc =
        acc ++ l.flatMap fun i => if t.values[i]? = some v then (t.indices[i]?).toList else [] := by
      intro l
      induction l with
      | nil => simp
      | cons a l ih => intro acc; rw [List.foldl_cons, ih]; split <;> simp [*]
    rw [this]; simp
  constructor
  · rw [hfind, List.pairwise_flatMap]
    refine ⟨?_, ?_⟩
    · intro i _
      split
      · cases t.indices[i]? <;> simp
      · simp
    · refine List.pairwise_lt_range.imp ?_
      intro a b hab x hx y hy
      split at hx
      · split at hy
        · rw [Option.mem_toList] at hx hy
          obtain ⟨ha, ha'⟩ := List.getElem?_eq_some_iff.mp hx
          obtain ⟨hb, hb'⟩ := List.getElem?_eq_some_iff.mp hy
          rw [← ha', ← hb']
          exact List.pairwise_iff_getElem.mp hs a b ha hb hab
        · simp at hy
      · simp at hx
  · intro e
    rw [hfind, List.mem_flatMap]
    constructor
    · rintro ⟨i, _, hi⟩
      split at hi
      · exact ⟨i, by simpa using hi, by assumption⟩
      · simp at hi
    · rintro ⟨k, h1, h2⟩
      refine ⟨k, ?_, ?_⟩
      · obtain ⟨h, _⟩ := List.getElem?_eq_some_iff.mp h2
        exact List.mem_range.mpr h
      · rw [if_pos h2]; simpa using h1

/-! ### A case -/

/-- Four edges; one query is not an edge of this rank, one edge is given twice. -/
def tgEdges : List (List Nat) := [[0, 1], [2, 1], [3, 0], [2, 3]]

theorem tgEdges_distinct : DistinctEntities tgEdges := (distinct_iff _).mpr (by decide +kernel)

example : createMeshtags tgEdges [[3, 2], [7, 1], [1, 0], [0, 1]] [5, 9, 8, 4] = .ok ⟨[0, 3], [4, 5]⟩ := by
  decide +kernel

example : ∃ t, createMeshtags tgEdges [[3, 2], [7, 1], [1, 0], [0, 1]] [5, 9, 8, 4] = .ok t ∧
    TagOf t.indices t.values 3 5 := ⟨⟨[0, 3], [4, 5]⟩, by decide +kernel, 1, by decide, by decide⟩

end Verif.Props
