import Mathlib.Data.List.TakeWhile
import Verif.Model.SharedIndices
import Verif.Lemmas.Group
import Verif.Lemmas.StdAlg
import Verif.Lemmas.Scatterer
import Verif.Lemmas.AdjacencyList
/-!
# Lemmas for messages packed from lexicographically sorted pairs
-/
namespace Verif.Shared
open Verif.Std Verif.Exchange Verif.World Verif.Group Verif.Spec

theorem lexSort_perm (l : List (Nat × Nat)) : (lexSort l).Perm l := sort_perm _ _

theorem mem_lexSort (l : List (Nat × Nat)) (x : Nat × Nat) : x ∈ lexSort l ↔ x ∈ l := mem_sort _ _ _

theorem lexSort_sorted (l : List (Nat × Nat)) : (lexSort l).Pairwise (fun a b => lexLe a b = true) :=
  sort_sorted lexLe (fun a b c h1 h2 => by simp only [lexLe, decide_eq_true_eq] at *; omega)
    (fun a b => by simp only [lexLe, Bool.or_eq_true, decide_eq_true_eq]; omega) l

theorem lexSort_fst (l : List (Nat × Nat)) : (lexSort l).Pairwise (fun a b => a.1 ≤ b.1) :=
  (lexSort_sorted l).imp (fun h => by simp only [lexLe, decide_eq_true_eq] at h; omega)

theorem sorted_eq_groups (l : List (Nat × Nat)) (hl : l.Pairwise (fun a b => a.1 ≤ b.1)) (D : List Nat)
    (hD : D.Pairwise (· < ·)) (hk : ∀ x ∈ l, x.1 ∈ D) : l = D.flatMap (grp Prod.fst l) :=
  StableSorted.unique (key := Prod.fst) (fun a b h1 h2 => Nat.le_antisymm h1 h2)
    (StableSorted.refl_of_sorted hl) (stableSorted_flatMap_keys hD hk) (fun _ => rfl)

theorem lexSort_groups (l : List (Nat × Nat)) (D : List Nat) (hD : D.Pairwise (· < ·)) (hk : ∀ x ∈ l, x.1 ∈ D) :
    lexSort l = D.flatMap (grp Prod.fst (lexSort l)) :=
  sorted_eq_groups _ (lexSort_fst l) D hD (fun x hx => hk x ((mem_lexSort l x).mp hx))

/-- Second components of one group of a sorted list without repetition increase. -/
theorem grp_strict (l : List (Nat × Nat)) (hn : l.Nodup) (k : Nat) :
    ((grp Prod.fst (lexSort l) k).map Prod.snd).Pairwise (· < ·) := by
  rw [List.pairwise_map]
  have h1 : (lexSort l).Pairwise (fun a b => lexLe a b = true ∧ a ≠ b) :=
    (lexSort_sorted l).and ((lexSort_perm l).nodup_iff.mpr hn)
  have h2 : (grp Prod.fst (lexSort l) k).Pairwise (fun a b => lexLe a b = true ∧ a ≠ b) := h1.filter _
  refine (List.pairwise_iff_forall_sublist.mpr ?_)
  intro a b hab
  have hp := List.pairwise_iff_forall_sublist.mp h2 hab
  have ha : a.1 = k := ((mem_grp _ _ _ _).mp (hab.subset (by simp))).2
  have hb : b.1 = k := ((mem_grp _ _ _ _).mp (hab.subset (by simp))).2
  have h3 := hp.1
  simp only [lexLe, decide_eq_true_eq] at h3
  have : a.2 ≠ b.2 := fun he => hp.2 (Prod.ext (ha.trans hb.symm) he)
  omega

theorem strict_ext (l m : List Nat) (hl : l.Pairwise (· < ·)) (hm : m.Pairwise (· < ·)) (h : ∀ x, x ∈ l ↔ x ∈ m) : l = m := by
  have hp : l.Perm m := (List.perm_ext_iff_of_nodup (nodup_of_strict hl) (nodup_of_strict hm)).mpr h
  exact hp.eq_of_pairwise (fun a b _ _ h1 h2 => absurd h1 (by omega)) hl hm

theorem upper_block (o : Nat) (g rest : List (Nat × Nat)) (hg : ∀ x ∈ g, x.1 = o) (hr : ∀ x ∈ rest, o < x.1) :
    lowerBound (fun e : Nat × Nat => decide (e.1 ≤ o)) (g ++ rest) = g.length := by
  apply lowerBound_eq_of
  · intro i j hi hj hij h
    by_cases h1 : i < g.length
    · have : (g ++ rest)[i].1 = o := by
        rw [List.getElem_append_left h1]; exact hg _ (List.getElem_mem h1)
      simp [this]
    · exfalso
      have h2 : ¬ j < g.length := by omega
      rw [List.getElem_append_right (by omega)] at h
      have := hr _ (List.getElem_mem (l := rest) (n := j - g.length) (by simp at hj; omega))
      simp only [decide_eq_true_eq] at h
      omega
  · simp
  · intro i hi h1
    have : (g ++ rest)[i].1 = o := by
      rw [List.getElem_append_left h1]; exact hg _ (List.getElem_mem h1)
    simp [this]
  · intro i hi h1
    rw [List.getElem_append_right (by omega)]
    have := hr _ (List.getElem_mem (l := rest) (n := i - g.length) (by simp at hi; omega))
    simp only [decide_eq_false_iff_not]
    omega

theorem sizesLoop_groups (D : List Nat) (hD : D.Pairwise (· < ·)) (g : Nat → List (Nat × Nat))
    (hg : ∀ d ∈ D, ∀ x ∈ g d, x.1 = d) : sizesLoop D (D.flatMap g) = D.map fun d => (g d).length := by
  induction D with
  | nil => rfl
  | cons d D ih =>
    have hD' := List.pairwise_cons.mp hD
    have hrest : ∀ x ∈ D.flatMap g, d < x.1 := by
      intro x hx
      obtain ⟨e, he, hx⟩ := List.mem_flatMap.mp hx
      rw [hg e (by simp [he]) x hx]
      exact hD'.1 e he
    have hgd := hg d (by simp)
    have ih' := ih hD'.2 (fun e he => hg e (by simp [he]))
    rw [List.flatMap_cons, sizesLoop, List.map_cons]
    cases hgd' : g d with
    | nil =>
      have hdw : (D.flatMap g).dropWhile (fun e => decide (e.1 ≠ d)) = [] := by
        rw [List.dropWhile_eq_nil_iff]
        intro x hx
        have := hrest x hx
        simp only [decide_eq_true_eq]; omega
      rw [List.nil_append, hdw]
      have h0 : lowerBound (fun e : Nat × Nat => decide (e.1 ≤ d)) [] = 0 := rfl
      rw [h0, if_pos rfl, ih']
      rfl
    | cons a l =>
      have ha : a.1 = d := hgd a (by rw [hgd']; simp)
      have hdw : (a :: l ++ D.flatMap g).dropWhile (fun e => decide (e.1 ≠ d)) = a :: l ++ D.flatMap g := by
        rw [List.cons_append, List.dropWhile_cons_of_neg (by simp [ha])]
      rw [hdw, ← hgd', upper_block d _ _ hgd hrest, if_neg (by rw [hgd']; simp), List.drop_left, ih']

theorem runSizesUb_groups (D : List Nat) (hD : D.Pairwise (· < ·)) (g : Nat → List (Nat × Nat))
    (hg : ∀ d ∈ D, g d ≠ [] ∧ ∀ x ∈ g d, x.1 = d) (fuel : Nat) (hf : (D.flatMap g).length ≤ fuel) :
    runSizesUb fuel (D.flatMap g) = D.map fun d => (g d).length := by
  induction D generalizing fuel with
  | nil => cases fuel <;> rfl
  | cons d D ih =>
    have hD' := List.pairwise_cons.mp hD
    have hrest : ∀ x ∈ D.flatMap g, d < x.1 := by
      intro x hx
      obtain ⟨e, he, hx⟩ := List.mem_flatMap.mp hx
      rw [(hg e (by simp [he])).2 x hx]
      exact hD'.1 e he
    obtain ⟨hne, hgd⟩ := hg d (by simp)
    rw [List.flatMap_cons] at hf ⊢
    cases hgd' : g d with
    | nil => exact absurd hgd' hne
    | cons a l =>
      have ha : a.1 = d := hgd a (by rw [hgd']; simp)
      rw [hgd'] at hf
      cases fuel with
      | zero => simp at hf
      | succ fuel =>
        rw [List.cons_append, runSizesUb]
        rw [← List.cons_append, ← hgd', ha, upper_block d _ _ hgd hrest, List.drop_left, List.map_cons]
        rw [ih hD'.2 (fun e he => hg e (by simp [he])) fuel (by simp at hf ⊢; omega)]

theorem rowSizes_groups (D : List Nat) (hD : D.Nodup) (g : Nat → List (Nat × Nat))
    (hg : ∀ d ∈ D, ∀ x ∈ g d, x.1 = d) : rowSizes D (D.flatMap g) = D.map fun d => (g d).length := by
  induction D with
  | nil => rfl
  | cons d D ih =>
    have hD' := List.nodup_cons.mp hD
    rw [List.flatMap_cons, rowSizes, List.map_cons]
    have htw : (g d ++ D.flatMap g).takeWhile (fun e => decide (e.1 = d)) = g d := by
      rw [List.takeWhile_append_of_pos (fun x hx => by simp [hg d (by simp) x hx])]
      have : (D.flatMap g).takeWhile (fun e => decide (e.1 = d)) = [] := by
        rw [List.takeWhile_eq_nil_iff]
        intro h0
        have hm := List.getElem_mem h0
        obtain ⟨e, he, hx⟩ := List.mem_flatMap.mp hm
        have := hg e (by simp [he]) _ hx
        simp only [decide_eq_true_eq, List.get_eq_getElem]
        rw [this]
        rintro rfl
        exact hD'.1 he
      rw [this, List.append_nil]
    rw [htw, List.drop_left, ih hD'.2 (fun e he => hg e (by simp [he]))]

/-- Global indices that `q` ghosts with owner `r`, as sent to `r`. -/
def ghostsOf (w : World) (q r : Nat) : List Nat := (grp Prod.fst (ownerToGhost w q) r).map Prod.snd

theorem mem_ghostsOf (w : World) (q r g : Nat) : g ∈ ghostsOf w q r ↔ (r, g) ∈ (w.owners q).zip (w.ghosts q) := by
  unfold ghostsOf ownerToGhost
  rw [List.mem_map]
  constructor
  · rintro ⟨⟨a, b⟩, h, rfl⟩
    obtain ⟨h1, rfl⟩ := (mem_grp _ _ _ _).mp h
    exact (mem_lexSort _ _).mp h1
  · intro h
    exact ⟨(r, g), (mem_grp _ _ _ _).mpr ⟨(mem_lexSort _ _).mpr h, rfl⟩, rfl⟩

theorem otg_groups (w : World) (q : Nat) :
    ownerToGhost w q = (w.src q).flatMap (grp Prod.fst (ownerToGhost w q)) := by
  unfold ownerToGhost
  apply lexSort_groups _ _ (Scatterer.src_sorted w q)
  intro x hx
  rw [Scatterer.mem_src]
  exact (List.of_mem_zip hx).1

theorem otg_grp_ne (w : World) (hw : w.Valid) (q : Nat) (hq : q < w.P) (d : Nat) (hd : d ∈ w.src q) :
    grp Prod.fst (ownerToGhost w q) d ≠ [] ∧ ∀ x ∈ grp Prod.fst (ownerToGhost w q) d, x.1 = d := by
  refine ⟨?_, fun x hx => ((mem_grp _ _ _ _).mp hx).2⟩
  rw [Scatterer.mem_src] at hd
  obtain ⟨k, hk⟩ := List.getElem?_of_mem hd
  have hkl : k < (w.ghosts q).length := by
    rw [← hw.len q hq]; exact (List.getElem?_eq_some_iff.mp hk).1
  apply List.ne_nil_of_mem (a := (d, (w.ghosts q)[k]))
  rw [mem_grp]
  refine ⟨(mem_lexSort _ _).mpr ?_, rfl⟩
  exact List.mem_of_getElem? (i := k) (List.getElem?_zip_eq_some.mpr ⟨hk, List.getElem?_eq_getElem hkl⟩)

end Verif.Shared
