import Verif.Lemmas.EntitySharing
import Verif.Props.C32_MeshTags
import Mathlib.Data.List.Lex
import Mathlib.Data.List.GetD
/-!
# Matching received entities
-/
namespace Verif.EntityIndexing
open Verif.SubMap Verif.World Verif.Std Verif.Exchange Verif.Group Verif.Shared Verif.Spec Verif.Props

theorem lexCompare_eq : ∀ a b : List Nat, lexCompare a b = decide (a < b)
  | [], [] => by simp [lexCompare]
  | _ :: _, [] => by simp [lexCompare]
  | [], _ :: _ => by simp [lexCompare]
  | a :: as, b :: bs => by
    rw [lexCompare, lexCompare_eq as bs]
    by_cases h : a < b
    · simp [h, List.cons_lt_cons_iff]
    · by_cases h' : b < a
      · have : a ≠ b := by omega
        simp [h, h', List.cons_lt_cons_iff, this]
      · have : a = b := by omega
        simp [List.cons_lt_cons_iff, this]

/-! ### Adjacency lists from sorted pairs -/

theorem unique_head {α : Type} [DecidableEq α] (l : List α) : (unique l).head? = l.head? := by
  induction l with
  | nil => rfl
  | cons a l ih =>
    rw [unique]
    split
    · rfl
    · rename_i b t h
      split
      · rename_i hab; subst hab; rfl
      · rfl

theorem unique_sub {α : Type} [DecidableEq α] (l : List α) : (unique l).Sublist l := by
  induction l with
  | nil => exact List.Sublist.refl _
  | cons a l ih =>
    rw [unique]
    split
    · exact List.Sublist.cons_cons _ (List.nil_sublist _)
    · rename_i b t h
      rw [h] at ih
      split
      · exact ih.cons _
      · exact ih.cons_cons _

theorem unique_nodup {α : Type} [DecidableEq α] (le : α → α → Prop) (ha : ∀ a b, le a b → le b a → a = b) (l : List α)
    (h : l.Pairwise le) : (unique l).Nodup := by
  induction l with
  | nil => exact List.nodup_nil
  | cons a l ih =>
    obtain ⟨h1, h2⟩ := List.pairwise_cons.mp h
    have ih := ih h2
    have hh := unique_head l
    rw [unique]
    split
    · simp
    · rename_i b t hu
      rw [hu] at ih hh
      split
      · exact ih
      · rename_i hab
        refine List.nodup_cons.mpr ⟨?_, ih⟩
        intro hm
        have hml : a ∈ l := (mem_unique l a).mp (by rw [hu]; exact hm)
        cases l with
        | nil => simp at hml
        | cons c l =>
          simp only [List.head?_cons, Option.some.injEq] at hh
          subst hh
          rcases List.mem_cons.mp hml with rfl | hml
          · exact hab rfl
          · exact hab (ha a b (h1 b (by simp)) ((List.pairwise_cons.mp h2).1 a hml))

theorem lexLe_antisymm_pair (a b : Nat × Nat) (h1 : lexLe a b = true) (h2 : lexLe b a = true) : a = b := by
  simp only [lexLe, decide_eq_true_eq] at h1 h2
  apply Prod.ext <;> omega

theorem adjLinks_eq (data : List (Nat × Nat)) (size i : Nat) (hd : ∀ x ∈ data, x.1 < size) (hi : i < size) :
    adjLinks data size i = (grp Prod.fst (unique (lexSort data)) i).map Prod.snd := by
  have hfst : (unique (lexSort data)).Pairwise (fun a b => a.1 ≤ b.1) := (lexSort_fst data).sublist (unique_sub _)
  have hk : ∀ x ∈ unique (lexSort data), x.1 ∈ List.range size := fun x hx => by
    rw [mem_unique, mem_lexSort] at hx
    exact List.mem_range.mpr (hd x hx)
  have hg := sorted_eq_groups _ hfst (List.range size) List.pairwise_lt_range hk
  unfold adjLinks
  simp only []
  generalize unique (lexSort data) = u at hg hk hfst ⊢
  have hs : rowSizes (List.range size) u = (List.range size).map fun d => ((grp Prod.fst u d).map Prod.snd).length := by
    conv_lhs => rw [hg]
    rw [rowSizes_groups _ List.nodup_range _ (fun d _ x hx => ((mem_grp _ _ _ _).mp hx).2)]
    simp
  have hu : u.map Prod.snd = (List.range size).flatMap fun d => (grp Prod.fst u d).map Prod.snd := by
    conv_lhs => rw [hg]
    rw [List.map_flatMap]
  rw [hs, hu]
  exact rowOf_rows (fun d => (grp Prod.fst u d).map Prod.snd) size i hi

theorem mem_adjLinks (data : List (Nat × Nat)) (size i : Nat) (hd : ∀ x ∈ data, x.1 < size) (hi : i < size) (b : Nat) :
    b ∈ adjLinks data size i ↔ (i, b) ∈ data := by
  rw [adjLinks_eq data size i hd hi, List.mem_map]
  constructor
  · rintro ⟨x, hx, rfl⟩
    rw [mem_grp, mem_unique, mem_lexSort] at hx
    obtain ⟨h1, rfl⟩ := hx
    exact h1
  · intro h
    exact ⟨(i, b), (mem_grp _ _ _ _).mpr ⟨(mem_unique _ _).mpr ((mem_lexSort _ _).mpr h), rfl⟩, rfl⟩

theorem adjLinks_strict (data : List (Nat × Nat)) (size i : Nat) (hd : ∀ x ∈ data, x.1 < size) (hi : i < size) :
    (adjLinks data size i).Pairwise (· < ·) := by
  rw [adjLinks_eq data size i hd hi, List.pairwise_map]
  have h1 : (unique (lexSort data)).Pairwise (fun a b => lexLe a b = true ∧ a ≠ b) :=
    ((lexSort_sorted data).sublist (unique_sub _)).and
      (unique_nodup (fun a b => lexLe a b = true) lexLe_antisymm_pair _ (lexSort_sorted data))
  have h2 : (grp Prod.fst (unique (lexSort data)) i).Pairwise (fun a b => lexLe a b = true ∧ a ≠ b) :=
    h1.sublist List.filter_sublist
  refine h2.imp_of_mem ?_
  intro a b ha hb hab
  have h1 := ((mem_grp _ _ _ _).mp ha).2
  have h2 := ((mem_grp _ _ _ _).mp hb).2
  obtain ⟨h3, h4⟩ := hab
  simp only [lexLe, decide_eq_true_eq] at h3
  have : a.2 ≠ b.2 := fun h => h4 (Prod.ext (h1.trans h2.symm) h)
  omega

/-! ### Search -/

variable {I : Input}

variable (I) in
/-- What `sort_by_perm` returns: row numbers in ascending order of the vertices. -/
def OrderOk (order : Nat → List Nat) : Prop :=
  ∀ r, r < I.w.P → (order r).Perm (List.range (toLocal I r).length) ∧
    (order r).Pairwise fun i j => lexCompare (keyAt I r j) (keyAt I r i) = false

theorem mem_toLocal (r : Nat) (K : List Nat) (id : Nat) :
    (K, id) ∈ toLocal I r ↔ id < count I r ∧ hits I r id ≠ [] ∧ K = vglobal I r id := by
  unfold toLocal
  simp only [List.mem_flatMap, List.mem_range, List.mem_map, Prod.mk.injEq]
  constructor
  · rintro ⟨a, h1, q, h2, h3, rfl⟩
    exact ⟨h1, List.ne_nil_of_mem h2, h3.symm⟩
  · rintro ⟨h1, h2, h3⟩
    obtain ⟨q, hq⟩ := List.exists_mem_of_ne_nil _ h2
    exact ⟨id, h1, q, hq, h3.symm, rfl⟩

theorem uniqueBy_key_mem {κ : Type} [LinearOrder κ] (f : Nat → κ) (l : List Nat) (h : l.Pairwise fun x y => f x ≤ f y) (k : κ) :
    (∃ x ∈ MeshTags.uniqueBy (fun a b => decide (f a = f b)) l, f x = k) ↔ ∃ x ∈ l, f x = k := by
  cases l with
  | nil => simp [MeshTags.uniqueBy]
  | cons a l =>
    change (∃ x ∈ a :: MeshTags.uniqueFrom _ a l, f x = k) ↔ _
    clear h
    induction l generalizing a with
    | nil => simp [MeshTags.uniqueFrom]
    | cons b l ih =>
      rw [MeshTags.uniqueFrom]
      split
      · rename_i he
        simp only [decide_eq_true_eq] at he
        rw [ih a]
        simp only [List.mem_cons, exists_eq_or_imp]
        rw [he]; tauto
      · have := ih b
        simp only [List.mem_cons, exists_eq_or_imp] at this ⊢
        rw [this]

theorem uniqueBy_sub (eq : Nat → Nat → Bool) (l : List Nat) : (MeshTags.uniqueBy eq l).Sublist l := by
  cases l with
  | nil => exact List.Sublist.refl _
  | cons a l =>
    refine List.Sublist.cons_cons a ?_
    induction l generalizing a with
    | nil => exact List.Sublist.refl _
    | cons b l ih =>
      rw [MeshTags.uniqueFrom]
      split
      · exact (ih a).cons _
      · exact (ih b).cons_cons _

/-- The search finds the entity with the given vertices among those offered to another rank. -/
theorem find_spec (h : Core I) (order : Nat → List Nat) (ho : OrderOk I order) (r : Nat) (hr : r < I.w.P) (K : List Nat) (id : Nat) :
    find I order r K = some id ↔ id < count I r ∧ hits I r id ≠ [] ∧ K = vglobal I r id := by
  obtain ⟨hp, hs⟩ := ho r hr
  have hs' : (order r).Pairwise fun i j => keyAt I r i ≤ keyAt I r j := by
    refine hs.imp ?_
    intro i j hij
    rw [lexCompare_eq] at hij
    simpa using hij
  have hmem := uniqueBy_key_mem (keyAt I r) (order r) hs' K
  have hstr := uniqueBy_strict (keyAt I r) (order r) hs'
  have hpe : perm I order r = MeshTags.uniqueBy (fun a b => @decide (keyAt I r a = keyAt I r b) (LinearOrder.toDecidableEq _ _)) (order r) := by
    unfold perm
    congr 1
    funext a b
    rw [decide_eq_decide]
  have hperm : (perm I order r).Pairwise fun i j => keyAt I r i < keyAt I r j := by rw [hpe]; exact hstr
  rw [← hpe] at hmem
  have hpred : (fun i => lexCompare (keyAt I r i) K) = fun i => @decide (keyAt I r i < K) (LinearOrder.toDecidableLT _ _) := by
    funext i; rw [lexCompare_eq, decide_eq_decide]
  have hrow : ∀ i ∈ perm I order r, ((toLocal I r).getD i ([], 0)) ∈ toLocal I r := by
    intro i hi
    have : i ∈ order r := (uniqueBy_sub _ _).subset hi
    have := List.mem_range.mp (hp.mem_iff.mp this)
    rw [List.getD_eq_getElem _ _ this]
    exact List.getElem_mem this
  constructor
  · intro hf
    unfold find at hf
    simp only [hpred] at hf
    split at hf
    · rename_i i hi
      split at hf
      · rename_i hk
        simp only [Option.some.injEq] at hf
        have := hrow i (List.mem_of_getElem? hi)
        have hpair : ((toLocal I r).getD i ([], 0)) = (K, id) := Prod.ext hk hf
        rw [hpair] at this
        exact (mem_toLocal r K id).mp this
      · cases hf
    · cases hf
  · rintro ⟨h1, h2, rfl⟩
    have hm := (mem_toLocal (I := I) r (vglobal I r id) id).mpr ⟨h1, h2, rfl⟩
    obtain ⟨j, hj, hje⟩ := List.getElem_of_mem hm
    have hjo : j ∈ order r := hp.mem_iff.mpr (List.mem_range.mpr hj)
    have hjk : keyAt I r j = vglobal I r id := by
      unfold keyAt; rw [List.getD_eq_getElem _ _ hj, hje]
    obtain ⟨x, hx1, hx2, hx3⟩ := lowerBound_find (keyAt I r) (perm I order r) (hperm.imp le_of_lt) _ (hmem.mpr ⟨j, hjo, hjk⟩)
    unfold find
    simp only [hpred]
    rw [hx1]
    simp only []
    rw [if_pos hx2]
    have hx := hrow x hx3
    have hpair : ((toLocal I r).getD x ([], 0)) = (vglobal I r id, ((toLocal I r).getD x ([], 0)).2) := Prod.ext hx2 rfl
    rw [hpair] at hx
    obtain ⟨g1, _, g3⟩ := (mem_toLocal r _ _).mp hx
    rw [h.distinct r hr id _ h1 g1 g3]

end Verif.EntityIndexing
