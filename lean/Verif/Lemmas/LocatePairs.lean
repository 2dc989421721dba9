import Verif.Prelude
import Verif.Spec.LocatePairs
import Verif.Lemmas.StdAlg
import Verif.Props.C48_LocateDofs
/-! Pairs of lists that are sorted, filtered and made unique in step. -/
namespace Verif.LocPairs
open Verif.Std Verif.World Verif.Locate Verif.Spec Verif.Spec.LocPairs

/-- Removing repetitions commutes with a map that is injective on the list. -/
theorem unique_map_inj {α β : Type} [DecidableEq α] [DecidableEq β] (f : α → β) (l : List α) (h : ∀ a ∈ l, ∀ b ∈ l, f a = f b → a = b) :
    unique (l.map f) = (unique l).map f := by
  induction l with
  | nil => rfl
  | cons a l ih =>
    have ih := ih fun x hx y hy => h x (List.mem_cons_of_mem _ hx) y (List.mem_cons_of_mem _ hy)
    rw [List.map_cons, unique, ih, unique]
    cases hu : unique l with
    | nil => simp
    | cons b r =>
      have hb : b ∈ l := (mem_unique l b).mp (by rw [hu]; simp)
      simp only [List.map_cons]
      by_cases hab : a = b
      · rw [if_pos hab, if_pos (congrArg f hab)]; rfl
      · rw [if_neg hab, if_neg fun he => hab (h a List.mem_cons_self b (List.mem_cons_of_mem _ hb) he)]; rfl

/-- The list of pairs is one-to-one. -/
def OneOne (L : List (Nat × Nat)) : Prop := ∀ a ∈ L, ∀ b ∈ L, (a.1 = b.1 ↔ a.2 = b.2)

theorem sortPairs_ok (L : List (Nat × Nat)) (h : OneOne L) :
    ∃ U : List (Nat × Nat), sortPairs (L.map Prod.fst) (L.map Prod.snd) = (U.map Prod.fst, U.map Prod.snd) ∧ (U.map Prod.fst).Pairwise (· < ·) ∧ ∀ x, x ∈ U ↔ x ∈ L := by
  obtain ⟨perm, hperm⟩ : ∃ p, p = sort (fun i j => decide ((L.map Prod.fst).getD i 0 ≤ (L.map Prod.fst).getD j 0)) (List.range (L.map Prod.fst).length) := ⟨_, rfl⟩
  have hp : perm.Perm (List.range L.length) := by rw [hperm]; simpa using sort_perm _ (List.range (L.map Prod.fst).length)
  have hget0 : ∀ i, (L.map Prod.fst).getD i 0 = (L.getD i (0, 0)).1 := by
    intro i; simp only [List.getD_eq_getElem?_getD, List.getElem?_map]; cases L[i]? <;> rfl
  have hget1 : ∀ i, (L.map Prod.snd).getD i 0 = (L.getD i (0, 0)).2 := by
    intro i; simp only [List.getD_eq_getElem?_getD, List.getElem?_map]; cases L[i]? <;> rfl
  obtain ⟨M, hM⟩ : ∃ M, M = perm.map fun i => L.getD i (0, 0) := ⟨_, rfl⟩
  have hmem : ∀ x, x ∈ M ↔ x ∈ L := by
    intro x
    rw [hM, List.mem_map]
    constructor
    · rintro ⟨i, hi, rfl⟩
      have := List.mem_range.mp (hp.mem_iff.mp hi)
      rw [List.getD_eq_getElem?_getD, List.getElem?_eq_getElem this]
      exact List.getElem_mem _
    · intro hx
      obtain ⟨i, hi, rfl⟩ := List.getElem_of_mem hx
      exact ⟨i, hp.mem_iff.mpr (List.mem_range.mpr hi), by rw [List.getD_eq_getElem?_getD, List.getElem?_eq_getElem hi]; rfl⟩
  have h0 : unique (M.map Prod.fst) = (unique M).map Prod.fst := unique_map_inj _ _ fun a ha b hb e =>
    Prod.ext e ((h a ((hmem a).mp ha) b ((hmem b).mp hb)).mp e)
  have h1 : unique (M.map Prod.snd) = (unique M).map Prod.snd := unique_map_inj _ _ fun a ha b hb e =>
    Prod.ext ((h a ((hmem a).mp ha) b ((hmem b).mp hb)).mpr e) e
  refine ⟨unique M, ?_, ?_, fun x => by rw [mem_unique, hmem]⟩
  · unfold sortPairs
    simp only
    rw [← hperm, ← h0, ← h1, hM, List.map_map, List.map_map]
    refine Prod.ext ?_ ?_ <;> refine congrArg unique (List.map_congr_left fun i _ => ?_)
    · exact hget0 i
    · exact hget1 i
  · rw [← h0]
    refine unique_sorted _ ?_
    rw [hM, List.map_map]
    have hs := sort_sorted (fun i j => decide ((L.map Prod.fst).getD i 0 ≤ (L.map Prod.fst).getD j 0))
      (fun a b c h1 h2 => by simp only [decide_eq_true_eq] at *; exact le_trans h1 h2)
      (fun a b => by simp only [Bool.or_eq_true, decide_eq_true_eq]; exact le_total _ _) (List.range (L.map Prod.fst).length)
    rw [← hperm] at hs
    rw [List.pairwise_map]
    refine hs.imp ?_
    intro a b hab
    simp only [decide_eq_true_eq, hget0] at hab
    exact hab

/-- Filtering in step. -/
def both (f g : Nat → Option Nat) (x : Nat × Nat) : Option (Nat × Nat) := (f x.1).bind fun a => (g x.2).map fun b => (a, b)

theorem filterMap_both (f g : Nat → Option Nat) (L : List (Nat × Nat)) (h : ∀ x ∈ L, (f x.1).isSome = (g x.2).isSome) :
    (L.map Prod.fst).filterMap f = (L.filterMap (both f g)).map Prod.fst ∧ (L.map Prod.snd).filterMap g = (L.filterMap (both f g)).map Prod.snd := by
  induction L with
  | nil => exact ⟨rfl, rfl⟩
  | cons x L ih =>
    obtain ⟨ih0, ih1⟩ := ih fun y hy => h y (List.mem_cons_of_mem _ hy)
    have hx := h x List.mem_cons_self
    cases hf : f x.1 with
    | none =>
      cases hg : g x.2 with
      | none => simp only [List.map_cons, List.filterMap_cons, hf, hg, both, Option.bind_none]; exact ⟨ih0, ih1⟩
      | some b => rw [hf, hg] at hx; cases hx
    | some a =>
      cases hg : g x.2 with
      | none => rw [hf, hg] at hx; cases hx
      | some b =>
        simp only [List.map_cons, List.filterMap_cons, hf, hg, both, Option.bind_some, Option.map_some]
        exact ⟨congrArg _ ih0, congrArg _ ih1⟩

/-- The global number that is sent for a dof. -/
def sent (w : World) (B p d : Nat) : Nat := if B = 1 then ((w.map p).localToGlobal d).getD 0 else B * ((w.map p).localToGlobal (d / B)).getD 0 + d % B

theorem sent_eq (w : World) (B p d G : Nat) (h : GDof w B p d G) : sent w B p d = G := by
  obtain ⟨J, hJ, rfl⟩ := h
  unfold sent
  by_cases h1 : B = 1
  · rw [if_pos h1]; subst h1
    rw [Nat.div_one] at hJ
    rw [SubMap.localToGlobal_map, hJ, Nat.mod_one]; simp
  · rw [if_neg h1, SubMap.localToGlobal_map, hJ]; rfl

theorem toLocal_gdof (w : World) (hw : w.Valid) (B : Nat) (hB : 0 < B) (p q : Nat) (hq : q < w.P) (d G : Nat) (hd : GDof w B p d G) (e : Nat) :
    toLocal w B q G = some e ↔ GDof w B q e G := by
  obtain ⟨J, _, rfl⟩ := hd
  have hk := Nat.mod_lt d hB
  rw [Props.toLocal_iff w hw q hq B J (d % B) e hk]
  constructor
  · rintro ⟨i, hi, rfl⟩
    obtain ⟨h1, h2⟩ := Props.div_block B i (d % B) hk
    exact ⟨J, by rw [h1]; exact hi, by rw [h2]⟩
  · rintro ⟨J', hJ', he⟩
    have hk' := Nat.mod_lt e hB
    obtain ⟨h1, h2⟩ := Props.div_block B J (d % B) hk
    obtain ⟨h3, h4⟩ := Props.div_block B J' (e % B) hk'
    have hJJ : J = J' := by rw [← h1, he, h3]
    have hkk : d % B = e % B := by rw [← h2, he, h4]
    subst hJJ
    exact ⟨e / B, hJ', by rw [hkk, Nat.div_add_mod]⟩

theorem gdof_inj (w : World) (hw : w.Valid) (B : Nat) (hB : 0 < B) (q : Nat) (hq : q < w.P) (d e G : Nat) (hd : GDof w B q d G) (he : GDof w B q e G) : d = e :=
  Option.some.inj (((toLocal_gdof w hw B hB q q hq d G hd d).mpr hd).symm.trans ((toLocal_gdof w hw B hB q q hq d G hd e).mpr he))

theorem gdof_fun (w : World) (B q d G G' : Nat) (hd : GDof w B q d G) (he : GDof w B q d G') : G = G' := by
  obtain ⟨J, hJ, rfl⟩ := hd
  obtain ⟨J', hJ', rfl⟩ := he
  rw [Option.some.inj (hJ.symm.trans hJ')]

theorem remoteVia_eq (ns : List Nat) (w : World) (B : Nat) (loc : Nat → List Nat) (q : Nat) :
    remoteVia ns w B loc q = (ns.flatMap fun p => (loc p).map (sent w B p)).filterMap (toLocal w B q) := by
  unfold remoteVia
  by_cases h : ns = []
  · rw [if_pos h, h]; rfl
  · rw [if_neg h]; rfl

end Verif.LocPairs
