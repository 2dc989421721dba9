import Verif.Model.PostOffice
import Verif.Lemmas.Group
import Verif.Lemmas.BucketFill
import Verif.Lemmas.ArrayFold
import Verif.Props.C01_C02_LocalRange
namespace Verif.PostOffice
open Verif.Std Verif.Exchange Verif.Group Verif.Offsets Verif.LocalRange Verif.ArrayFold

variable {α : Type}

theorem mem_toSend (P r n N : Nat) (off : Int) (d i : Nat) :
    (d, i) ∈ toSend P r n N off ↔ i < n ∧ d = indexOwner P ((i : Int) + off).toNat N ∧ d ≠ r := by
  unfold toSend
  rw [List.mem_filterMap]
  constructor
  · rintro ⟨j, hj, h⟩
    simp only at h
    split at h
    · rename_i hne
      simp only [Option.some.injEq, Prod.mk.injEq] at h
      obtain ⟨h1, h2⟩ := h
      subst h2
      exact ⟨List.mem_range.mp hj, h1.symm, h1 ▸ hne⟩
    · cases h
  · rintro ⟨hi, hd, hne⟩
    refine ⟨i, List.mem_range.mpr hi, ?_⟩
    simp only
    rw [if_pos (by rw [← hd]; exact hne), ← hd]

theorem planRuns_eq (P r n N : Nat) (off : Int) :
    planRuns P r n N off =
      (keys Prod.fst (toSend P r n N off)).map fun k => (k, grp Prod.fst (toSend P r n N off) k) := by
  unfold planRuns; rw [runs_sortBy]

theorem planDest_eq (P r n N : Nat) (off : Int) : planDest P r n N off = keys Prod.fst (toSend P r n N off) := by
  unfold planDest; rw [planRuns_eq, List.map_map]
  exact List.map_id' _

theorem planNum_eq (P r n N : Nat) (off : Int) :
    planNum P r n N off = (keys Prod.fst (toSend P r n N off)).map fun k => (grp Prod.fst (toSend P r n N off) k).length := by
  unfold planNum; rw [planRuns_eq, List.map_map]
  rfl

theorem foldl_flat {γ δ ε : Type} (l : List γ) (f : γ → List δ) (step : ε → δ → ε) (m : ε) :
    l.foldl (fun m p => (f p).foldl step m) m = (l.flatMap f).foldl step m := by
  induction l generalizing m with
  | nil => rfl
  | cons a l ih => simp [List.flatMap_cons, List.foldl_append, ih]

/-- Array of destination positions. -/
theorem planPos_get (P r n N : Nat) (off : Int) (i : Nat) (hi : i < n) :
    (planPos P r n N off).getD i none =
      if indexOwner P ((i : Int) + off).toNat N ≠ r then
        some ((planDest P r n N off).idxOf (indexOwner P ((i : Int) + off).toNat N)) else none := by
  set T := toSend P r n N off with hT
  set D := planDest P r n N off with hD
  have hDk : D = keys Prod.fst T := planDest_eq P r n N off
  have hDn : D.Nodup := by rw [hDk]; exact keys_nodup _ _
  have hfold : planPos P r n N off =
      ((planRuns P r n N off).zipIdx.flatMap fun p => p.1.2.map fun e => (e.2, p.2)).foldl
        (fun m e => m.set e.1 (some e.2)) (List.replicate n none) := by
    unfold planPos
    rw [← foldl_flat]
    congr 1
    funext m p
    rw [List.foldl_map]
  have hmem : ∀ k b, (k, b) ∈ ((planRuns P r n N off).zipIdx.flatMap fun p => p.1.2.map fun e => (e.2, p.2)) ↔
      ∃ d, D[b]? = some d ∧ (d, k) ∈ T := by
    intro k b
    rw [List.mem_flatMap]
    constructor
    · rintro ⟨⟨⟨d, g⟩, b'⟩, hp, he⟩
      rw [List.mem_map] at he
      obtain ⟨e, he, heq⟩ := he
      simp only [Prod.mk.injEq] at heq
      obtain ⟨h1, h2⟩ := heq
      have h3 := List.mem_zipIdx_iff_getElem?.mp hp
      simp only at h3 he h2
      subst h2
      rw [planRuns_eq, List.getElem?_map, Option.map_eq_some_iff] at h3
      obtain ⟨k', hk', h3⟩ := h3
      simp only [Prod.mk.injEq] at h3
      obtain ⟨h4, h5⟩ := h3
      subst h4
      refine ⟨k', ?_, ?_⟩
      · rw [hDk]; exact hk'
      · rw [← h5] at he
        obtain ⟨he1, he2⟩ := (mem_grp _ _ _ _).mp he
        rw [← h1, ← he2]
        exact he1
    · rintro ⟨d, hb, hk⟩
      refine ⟨((d, grp Prod.fst T d), b), ?_, ?_⟩
      · rw [List.mem_zipIdx_iff_getElem?]
        simp only
        rw [planRuns_eq, List.getElem?_map, ← hT, ← hDk, hb]
        rfl
      · rw [List.mem_map]
        exact ⟨(d, k), (mem_grp _ _ _ _).mpr ⟨hk, rfl⟩, rfl⟩
  rw [hfold]
  by_cases hne : indexOwner P ((i : Int) + off).toNat N ≠ r
  · rw [if_pos hne]
    set d := indexOwner P ((i : Int) + off).toNat N
    have hdT : (d, i) ∈ T := (mem_toSend _ _ _ _ _ _ _).mpr ⟨hi, rfl, hne⟩
    have hdD : d ∈ D := by rw [hDk, mem_keys]; exact ⟨(d, i), hdT, rfl⟩
    have := set_written ((planRuns P r n N off).zipIdx.flatMap fun p => p.1.2.map fun e => (e.2, p.2))
      (List.replicate n none) i (D.idxOf d) (by simpa using hi)
      ((hmem _ _).mpr ⟨d, by rw [List.getElem?_idxOf hdD], hdT⟩)
      (by
        intro b' hb'
        obtain ⟨d', h1, h2⟩ := (hmem _ _).mp hb'
        have : d' = d := ((mem_toSend _ _ _ _ _ _ _).mp h2).2.1
        subst this
        obtain ⟨hlt, hget⟩ := List.getElem?_eq_some_iff.mp h1
        rw [← hget, hDn.idxOf_getElem])
    rw [List.getD_eq_getElem?_getD, this]; rfl
  · rw [if_neg hne]
    rw [List.getD_eq_getElem?_getD, set_untouched]
    · simp [hi]
    · intro b hb
      obtain ⟨d', h1, h2⟩ := (hmem _ _).mp hb
      have := (mem_toSend _ _ _ _ _ _ _).mp h2
      exact hne (this.2.1 ▸ this.2.2)

theorem map_range_getElem {γ δ : Type} (l : List γ) (f : γ → List δ) (g : Nat → List δ)
    (h : ∀ (b : Nat) (d : γ), l[b]? = some d → g b = f d) : (List.range l.length).flatMap g = l.flatMap f := by
  induction l generalizing g with
  | nil => rfl
  | cons a l ih =>
    rw [List.length_cons, List.range_succ_eq_map, List.flatMap_cons, List.flatMap_map, List.flatMap_cons,
      h 0 a rfl, ih (fun b => g (b + 1)) (fun b d hb => h (b + 1) d (by simpa using hb))]

/-- The packed buffer is the concatenation, over the destinations, of the rows for each. -/
theorem packRows_eq [Inhabited α] (P r n N : Nat) (off : Int) (val : Nat → α) :
    packRows (planNum P r n N off) (planPos P r n N off) n val =
      (planDest P r n N off).flatMap fun d => (grp Prod.fst (toSend P r n N off) d).map fun e => val e.2 := by
  set T := toSend P r n N off with hT
  set D := planDest P r n N off with hD
  have hDk : D = keys Prod.fst T := planDest_eq P r n N off
  have hDn : D.Nodup := by rw [hDk]; exact keys_nodup _ _
  have hitems : ((List.range n).filterMap fun i => ((planPos P r n N off).getD i none).map fun b => (b, i)) =
      T.map fun e => (D.idxOf e.1, e.2) := by
    rw [hT]; unfold toSend
    rw [List.map_filterMap]
    apply List.filterMap_congr
    intro i hi
    rw [planPos_get P r n N off i (List.mem_range.mp hi)]
    simp only [ne_eq, ite_not]
    split <;> rfl
  set I := T.map fun e => (D.idxOf e.1, e.2) with hI
  have hidx : ∀ e ∈ T, e.1 ∈ D := by
    intro e he; rw [hDk, mem_keys]; exact ⟨e, he, rfl⟩
  have hfil : ∀ (b d : Nat), D[b]? = some d → I.filter (fun x => x.1 == b) = (grp Prod.fst T d).map fun e => (b, e.2) := by
    intro b d hb
    obtain ⟨hlt, hget⟩ := List.getElem?_eq_some_iff.mp hb
    rw [hI, List.filter_map, grp]
    have : T.filter ((fun x : Nat × Nat => x.1 == b) ∘ fun e => (D.idxOf e.1, e.2)) = T.filter fun x => decide (x.1 = d) := by
      apply List.filter_congr
      intro e he
      simp only [Function.comp]
      rw [Bool.eq_iff_iff]
      simp only [beq_iff_eq, decide_eq_true_eq]
      constructor
      · intro h
        have h1 := List.getElem?_idxOf (hidx e he)
        rw [h, hb] at h1
        exact (Option.some.inj h1).symm
      · intro h
        rw [h, ← hget, hDn.idxOf_getElem]
    rw [this]
    apply List.map_congr_left
    intro e he
    have : e.1 = d := by simpa using (List.mem_filter.mp he).2
    rw [this, ← hget, hDn.idxOf_getElem]
  have hcnt : ∀ b, cnt Prod.fst I b = (planNum P r n N off).getD b 0 := by
    intro b
    rw [cnt_eq_length, planNum_eq, ← hT, ← hDk, List.getD_eq_getElem?_getD, List.getElem?_map]
    cases hb : D[b]? with
    | none =>
      simp only [Option.map_none, Option.getD_none, List.length_eq_zero_iff, List.filter_eq_nil_iff]
      intro x hx
      rw [hI, List.mem_map] at hx
      obtain ⟨e, he, rfl⟩ := hx
      have h1 := List.idxOf_lt_length_of_mem (hidx e he)
      have h2 := List.getElem?_eq_none_iff.mp hb
      simp; omega
    | some d => rw [hfil b d hb]; simp
  have hnumlen : (planNum P r n N off).length = D.length := by rw [planNum_eq, hDk]; simp [hT]
  have htake : ∀ (l : List Nat) (b : Nat), (l.take b).sum = excl (fun b => l.getD b 0) b := by
    intro l b
    induction b with
    | zero => simp
    | succ b ih =>
      rw [excl_succ, ← ih, List.take_succ, List.sum_append, List.getD_eq_getElem?_getD]
      cases l[b]? <;> simp
  have hcur : (fun b => ((planNum P r n N off).take b).sum) = excl (cnt Prod.fst I) := by
    funext b
    rw [htake]
    apply excl_congr
    intro i _; exact (hcnt i).symm
  have hkey : ∀ x ∈ I, x.1 < D.length := by
    intro x hx
    rw [hI, List.mem_map] at hx
    obtain ⟨e, he, rfl⟩ := hx
    exact List.idxOf_lt_length_of_mem (hidx e he)
  have hsum : (planNum P r n N off).sum = I.length := by
    have h1 := congrFun hcur D.length
    rw [excl_cnt_total _ _ _ hkey, ← hnumlen, List.take_length] at h1
    exact h1
  unfold packRows
  simp only
  rw [hitems, hcur, hsum, fill_eq_buckets _ _ _ _ D.length hkey (by simp)]
  apply map_range_getElem
  intro b d hb
  rw [hfil b d hb, List.map_map]
  rfl

end Verif.PostOffice
