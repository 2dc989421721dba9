import Verif.Model.RealDofmap
import Verif.Spec.SubMap
import Verif.Props.C10_C11_Scatter
/-!
# C43: the dof map of a real element
-/
namespace Verif.Props
open Verif.World Verif.RealDofmap Verif.Spec

variable {w : World}

theorem real_isOwner_iff (w : World) (r : Nat) : isOwner w r = 1 ↔ w.r0 r ≤ 0 ∧ 0 < w.r0 r + w.size r := by
  unfold isOwner
  split <;> omega

theorem real_isOwner_le (w : World) (r : Nat) : isOwner w r ≤ 1 := by
  unfold isOwner
  split <;> omega

/-- Some rank owns cell 0 if there is a cell. -/
theorem real_owner_exists (hne : ∃ r, r < w.P ∧ 0 < w.size r) : ∃ q, Owns w q 0 := by
  obtain ⟨r, hr, hs⟩ := hne
  induction r using Nat.strong_induction_on with
  | _ r ih =>
    by_cases h0 : w.r0 r = 0
    · exact ⟨r, hr, by omega, by omega⟩
    · cases r with
      | zero => exact absurd rfl h0
      | succ r =>
        by_contra hcon
        have hz : ∀ n, n ≤ r + 1 → w.r0 n = 0 := by
          intro n
          induction n with
          | zero => intro _; rfl
          | succ n ihn =>
            intro hn
            have h1 : w.r0 (n + 1) = w.r0 n + w.size n := Offsets.excl_succ w.size n
            have h2 := ihn (by omega)
            by_contra h3
            exact hcon (ih n (by omega) (by omega) (by omega))
        exact h0 (hz _ (Nat.le_refl _))

theorem real_fold (w : World) {q : Nat} (hq : Owns w q 0) (l : List Nat) (a : Nat × Nat)
    (ha : a = (1, q) ∨ (a.1 = 0 ∧ q ∈ l)) (hP : ∀ r ∈ l, r < w.P) :
    l.foldl (fun a r => maxloc a (isOwner w r, r)) a = (1, q) := by
  have h1 := (real_isOwner_iff w q).mpr hq.2
  have h0 : ∀ r, r ≠ q → isOwner w r = 0 := by
    intro r hr
    have := real_isOwner_le w r
    have h2 : isOwner w r ≠ 1 := fun h => hr (range_unique w ((real_isOwner_iff w r).mp h) hq.2)
    omega
  induction l generalizing a with
  | nil =>
    rcases ha with rfl | ⟨_, h⟩
    · rfl
    · simp at h
  | cons r l ih =>
    rw [List.foldl_cons]
    apply ih
    · rcases ha with rfl | ⟨ha, hm⟩
      · left
        by_cases hr : r = q
        · subst hr; simp [maxloc, h1]
        · simp [maxloc, h0 r hr]
      · by_cases hr : r = q
        · subst hr; left; simp [maxloc, h1, ha]
        · right
          refine ⟨?_, ?_⟩
          · simp only [maxloc, h0 r hr, ha]; simp
          · rcases List.mem_cons.mp hm with rfl | h
            · exact absurd rfl hr
            · exact h
    · exact fun r' hr' => hP r' (List.mem_cons_of_mem _ hr')

theorem real_ownerPair {q : Nat} (hq : Owns w q 0) : ownerPair w = (1, q) := by
  unfold ownerPair
  apply real_fold w hq
  · by_cases h : (0 : Nat) = q
    · left; subst h; rw [(real_isOwner_iff w 0).mpr hq.2]
    · right
      refine ⟨?_, List.mem_range.mpr hq.1⟩
      have := real_isOwner_le w 0
      have h2 : isOwner w 0 ≠ 1 := fun h' => h (range_unique w ((real_isOwner_iff w 0).mp h') hq.2)
      show isOwner w 0 = 0
      omega
  · intro r hr; exact List.mem_range.mp hr

theorem real_r0 {q : Nat} (hq : Owns w q 0) (r : Nat) : (realWorld w).r0 r = if q < r then 1 else 0 := by
  have h1 := (real_isOwner_iff w q).mpr hq.2
  have h0 : ∀ r, r ≠ q → isOwner w r = 0 := by
    intro r hr
    have := real_isOwner_le w r
    have h2 : isOwner w r ≠ 1 := fun h => hr (range_unique w ((real_isOwner_iff w r).mp h) hq.2)
    omega
  induction r with
  | zero => rfl
  | succ r ih =>
    have : (realWorld w).r0 (r + 1) = (realWorld w).r0 r + isOwner w r := Offsets.excl_succ (isOwner w) r
    rw [this, ih]
    by_cases hr : r = q
    · subst hr; simp [h1]
    · rw [h0 r hr]
      split <;> split <;> omega

/-- C43: on every mesh with at least one cell, distributed over any number of ranks, a real element gets a valid index
map with one global dof, owned by the rank that owns cell 0, and every cell on every rank, owned or ghost, has this dof. -/
theorem C43_real_dofmap_partial (hne : ∃ r, r < w.P ∧ 0 < w.size r) :
    (realWorld w).P = w.P ∧ (realWorld w).Valid ∧ (realWorld w).r0 w.P = 1 ∧
      (∀ q, Owns (realWorld w) q 0 ↔ Owns w q 0) ∧
      ∀ r, r < w.P → (dofmap w r).length = w.size r + (w.ghosts r).length ∧
        ∀ l ∈ dofmap w r, globalOf (realWorld w) r l = some 0 := by
  obtain ⟨q, hq⟩ := real_owner_exists hne
  have h1 := (real_isOwner_iff w q).mpr hq.2
  have hon : ∀ r, isOwner w r = 1 ↔ r = q := by
    intro r
    constructor
    · exact fun h => range_unique w ((real_isOwner_iff w r).mp h) hq.2
    · rintro rfl; exact h1
  have h0 : ∀ r, r ≠ q → isOwner w r = 0 := by
    intro r hr
    have := real_isOwner_le w r
    have h2 : isOwner w r ≠ 1 := fun h => hr ((hon r).mp h)
    omega
  have hown : Owns (realWorld w) q 0 := by
    refine ⟨hq.1, ?_, ?_⟩
    · rw [real_r0 hq]; simp
    · show 0 < (realWorld w).r0 q + isOwner w q
      omega
  refine ⟨rfl, ⟨?_, ?_, ?_⟩, ?_, ?_, ?_⟩
  · intro r _; simp [realWorld]
  · intro r _
    simp only [realWorld]
    by_cases hr : r = q
    · subst hr; rw [h1]; exact List.nodup_nil
    · rw [h0 r hr]; simp
  · intro r _ k p g hp hg
    simp only [realWorld] at hp hg
    rw [real_ownerPair hq] at hp
    by_cases hr : r = q
    · subst hr; rw [h1] at hp; simp at hp
    · rw [List.getElem?_replicate] at hp hg
      rw [h0 r hr] at hp hg
      split at hp
      · rename_i hk
        rw [if_pos hk] at hg
        obtain rfl := Option.some.inj hp
        obtain rfl := Option.some.inj hg
        exact ⟨hq.1, fun h => hr h.symm, hown.2.1, hown.2.2⟩
      · cases hp
  · rw [real_r0 hq, if_pos hq.1]
  · intro p
    constructor
    · intro hp
      obtain rfl := range_unique (realWorld w) hp.2 hown.2
      exact hq
    · intro hp
      obtain rfl := range_unique w hp.2 hq.2
      exact hown
  · intro r _
    refine ⟨by simp [dofmap], ?_⟩
    intro l hl
    obtain rfl : l = 0 := List.eq_of_mem_replicate hl
    unfold globalOf
    by_cases hr : r = q
    · subst hr
      have : 0 < (realWorld w).size r := by show 0 < isOwner w r; omega
      rw [if_pos this, real_r0 hq]; simp
    · have : ¬ 0 < (realWorld w).size r := by show ¬ 0 < isOwner w r; rw [h0 r hr]; omega
      rw [if_neg this]
      simp [realWorld, h0 r hr]

/-- Three ranks; the first owns no cell, the second owns cell 0, the third has it as a ghost. -/
private def realExWorld : World where
  P := 3
  size r := [0, 2, 1].getD r 0
  ghosts r := [[], [2], [0]].getD r []
  owners r := [[], [2], [1]].getD r []

example : (realWorld realExWorld).ghosts 0 = [0] ∧ (realWorld realExWorld).owners 0 = [1] ∧
    (realWorld realExWorld).size 1 = 1 ∧ dofmap realExWorld 2 = [0, 0] := by decide

example := C43_real_dofmap_partial (w := realExWorld) ⟨1, by decide, by decide⟩

/-- Without the hypothesis the claim fails: on a mesh without cells no rank owns the dof, and rank 0 declares itself the
owner of its own ghost, on every communicator. -/
theorem C43_refuted_no_cells (P : Nat) (hP : 0 < P) (w : World) (hw : w.P = P) (h : ∀ r, w.size r = 0) :
    ¬ (realWorld w).Valid ∧ (realWorld w).ghosts 0 = [0] ∧ (realWorld w).owners 0 = [0] ∧ ∀ r, (realWorld w).size r = 0 := by
  have h0 : ∀ r, isOwner w r = 0 := by
    intro r; unfold isOwner; rw [if_neg]; rw [h r]; omega
  have hfold : ∀ l : List Nat, l.foldl (fun a r => maxloc a (isOwner w r, r)) (0, 0) = (0, 0) := by
    intro l
    induction l with
    | nil => rfl
    | cons r l ih => rw [List.foldl_cons, h0 r]; simpa [maxloc] using ih
  have hp : ownerPair w = (0, 0) := by unfold ownerPair; rw [h0 0]; exact hfold _
  have hg : (realWorld w).ghosts 0 = [0] := by simp [realWorld, h0]
  have ho : (realWorld w).owners 0 = [0] := by simp [realWorld, h0, hp]
  refine ⟨?_, hg, ho, h0⟩
  intro hv
  have := hv.owner 0 (by show 0 < w.P; omega) 0 0 0 (by rw [ho]; rfl) (by rw [hg]; rfl)
  exact this.2.1 rfl

end Verif.Props
