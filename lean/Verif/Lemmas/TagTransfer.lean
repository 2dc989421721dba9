import Verif.Model.TagTransfer
import Verif.Lemmas.StdAlg
import Verif.Lemmas.DualGraphLocal
import Verif.Lemmas.MatMulFetch
/-! Transfer of tags: children of parents, and sorted pairs. -/
namespace Verif.TagTransfer
open Verif.Offsets Verif.Std

/-- `order` returns positions that sort keys. -/
abbrev Sorts (order : List Nat → List Nat) : Prop :=
  ∀ l : List Nat, (order l).Perm (List.range l.length) ∧ ((order l).map fun i => l.getD i 0).Pairwise (· ≤ ·)

theorem children_eq (l : List (Nat × Nat)) (n p : Nat) (hk : ∀ x ∈ l, x.1 < n) (hp : p < n) :
    children l n p = (l.filter fun x => x.1 == p).map Prod.snd := by
  have hget : ∀ b ≤ n, ((List.range (n + 1)).map (excl (cnt Prod.fst l))).getD b 0 = excl (cnt Prod.fst l) b := by
    intro b hb
    rw [List.getD_eq_getElem?_getD, List.getElem?_map, List.getElem?_range (by omega)]
    rfl
  unfold children
  dsimp only
  rw [hget n (le_refl _), hget p (by omega), hget (p + 1) (by omega),
    MatMul.fill_congr_lt Prod.fst Prod.snd n _ (excl (cnt Prod.fst l)) (fun j hj => hget j (by omega)) l hk]
  exact DualGraph.fill_rows Prod.fst Prod.snd l n p hk hp

theorem setAll_length (A : List (Nat × Nat)) (m : List Nat) : (A.foldl (fun a p => a.set p.1 p.2) m).length = m.length := by
  induction A generalizing m with
  | nil => rfl
  | cons p A ih => rw [List.foldl_cons, ih, List.length_set]

theorem setAll_other (A : List (Nat × Nat)) (m : List Nat) (k : Nat) (h : ∀ b, (k, b) ∉ A) :
    (A.foldl (fun a p => a.set p.1 p.2) m)[k]? = m[k]? := by
  induction A generalizing m with
  | nil => rfl
  | cons p A ih =>
    rw [List.foldl_cons, ih _ fun b hb => h b (List.mem_cons_of_mem _ hb), List.getElem?_set_ne]
    rintro rfl
    exact h p.2 (List.mem_cons_self ..)

theorem setAll_get (A : List (Nat × Nat)) (m : List Nat) (hnd : (A.map Prod.fst).Nodup) (k b : Nat) (h : (k, b) ∈ A) (hk : k < m.length) :
    (A.foldl (fun a p => a.set p.1 p.2) m)[k]? = some b := by
  induction A generalizing m with
  | nil => cases h
  | cons p A ih =>
    rw [List.map_cons, List.nodup_cons] at hnd
    rw [List.foldl_cons]
    rcases List.mem_cons.mp h with rfl | h
    · rw [setAll_other _ _ _ fun b hb => hnd.1 (List.mem_map.mpr ⟨_, hb, rfl⟩), List.getElem?_set_self hk]
    · exact ih _ hnd.2 h (by rw [List.length_set]; exact hk)

theorem foldlM_sets (A : List (Int × Nat)) (off : Int) (n : Nat) (h : ∀ p ∈ A, off ≤ p.1 ∧ p.1 - off < n) (m : List Nat) :
    A.foldlM (fun a p => if off ≤ p.1 ∧ p.1 - off < (n : Int) then some (a.set (p.1 - off).toNat p.2) else none) m =
      some ((A.map fun p => ((p.1 - off).toNat, p.2)).foldl (fun a p => a.set p.1 p.2) m) := by
  induction A generalizing m with
  | nil => rfl
  | cons p A ih =>
    rw [List.foldlM_cons, if_pos (h p (List.mem_cons_self ..))]
    exact ih (fun q hq => h q (List.mem_cons_of_mem _ hq)) _

/-- The cells of the refined mesh are those that the rank has passed on. -/
theorem localIndex_spec (orig : List Int) (off : Int) (h : orig.Perm ((List.range orig.length).map fun (c : Nat) => off + (c : Int))) :
    ∃ loc, localIndex orig off = some loc ∧ loc.length = orig.length ∧
      ∀ i c : Nat, loc[c]? = some i ↔ orig[i]? = some (off + (c : Int)) := by
  have hin : ∀ x ∈ orig, ∃ c < orig.length, x = off + (c : Int) := by
    intro x hx
    obtain ⟨c, hc, rfl⟩ := List.mem_map.mp (h.mem_iff.mp hx)
    exact ⟨c, List.mem_range.mp hc, rfl⟩
  have hnd : orig.Nodup := by
    refine h.nodup_iff.mpr (List.Nodup.map (fun a b hab => ?_) List.nodup_range)
    have : off + (a : Int) = off + b := hab
    omega
  have hA : ∀ p ∈ orig.zipIdx, off ≤ p.1 ∧ p.1 - off < orig.length := by
    intro p hp
    obtain ⟨c, hc, he⟩ := hin p.1 (List.mem_of_getElem? (List.mem_zipIdx_iff_getElem?.mp hp))
    omega
  have hkeys : ((orig.zipIdx.map fun p => ((p.1 - off).toNat, p.2)).map Prod.fst).Nodup := by
    have : (orig.zipIdx.map fun p => ((p.1 - off).toNat, p.2)).map Prod.fst = orig.map fun x => (x - off).toNat := by
      rw [List.map_map]
      have : (fun x : Int => (x - off).toNat) ∘ Prod.fst = (Prod.fst ∘ fun p : Int × Nat => ((p.1 - off).toNat, p.2)) := rfl
      rw [← this, ← List.map_map, List.zipIdx_map_fst]
    rw [this]
    refine List.Nodup.map_on (fun a ha b hb hab => ?_) hnd
    obtain ⟨c, _, rfl⟩ := hin a ha
    obtain ⟨c', _, rfl⟩ := hin b hb
    omega
  refine ⟨_, foldlM_sets _ off _ hA _, ?_, ?_⟩
  · rw [setAll_length, List.length_replicate]
  · have key : ∀ i c : Nat, orig[i]? = some (off + (c : Int)) →
        ((orig.zipIdx.map fun p => ((p.1 - off).toNat, p.2)).foldl (fun a p => a.set p.1 p.2) (List.replicate orig.length 0))[c]? = some i := by
      intro i c hi
      obtain ⟨c', hc', he⟩ := hin _ (List.mem_of_getElem? hi)
      refine setAll_get _ _ hkeys c i (List.mem_map.mpr ⟨(off + (c : Int), i), List.mem_zipIdx_iff_getElem?.mpr hi, ?_⟩) (by rw [List.length_replicate]; omega)
      simp
    intro i c
    constructor
    · intro hc
      have hlt : c < orig.length := by
        have := (List.getElem?_eq_some_iff.mp hc).1
        rw [setAll_length, List.length_replicate] at this
        exact this
      have hmem : off + (c : Int) ∈ orig := h.mem_iff.mpr (List.mem_map.mpr ⟨c, List.mem_range.mpr hlt, rfl⟩)
      obtain ⟨i', hi'⟩ := List.mem_iff_getElem?.mp hmem
      have := key i' c hi'
      rw [hc] at this
      cases this
      exact hi'
    · exact key i c

theorem sortPairs_spec (order : List Nat → List Nat) (ho : Sorts order) (pairs : List (Nat × Int)) (hnd : (pairs.map Prod.fst).Nodup) :
    ((sortPairs order pairs).map Prod.fst).Pairwise (· < ·) ∧ ∀ x, x ∈ sortPairs order pairs ↔ x ∈ pairs := by
  obtain ⟨h1, h2⟩ := ho (pairs.map Prod.fst)
  have hget : ∀ i, (pairs.getD i (0, 0)).1 = (pairs.map Prod.fst).getD i 0 := by
    intro i
    rw [List.getD_eq_getElem?_getD, List.getD_eq_getElem?_getD, List.getElem?_map]
    cases pairs[i]? <;> rfl
  have hperm : (sortPairs order pairs).Perm pairs := by
    unfold sortPairs
    refine (h1.map _).trans ?_
    rw [List.length_map]
    refine List.Perm.of_eq ?_
    refine List.ext_getElem (by simp) fun i h1 h2 => ?_
    simp [h2]
  have hfst : (sortPairs order pairs).map Prod.fst = (order (pairs.map Prod.fst)).map fun i => (pairs.map Prod.fst).getD i 0 := by
    unfold sortPairs
    rw [List.map_map]
    exact List.map_congr_left fun i _ => hget i
  refine ⟨?_, fun x => hperm.mem_iff⟩
  have hn2 : ((sortPairs order pairs).map Prod.fst).Nodup := (hperm.map _).nodup_iff.mpr hnd
  rw [hfst] at hn2 ⊢
  exact (h2.and hn2).imp fun h => lt_of_le_of_ne h.1 h.2

theorem keys_nodup (tags : List (Nat × Int)) (row : Nat → List Nat) (ht : (tags.map Prod.fst).Nodup) (hr : ∀ t ∈ tags, (row t.1).Nodup)
    (hd : ∀ t ∈ tags, ∀ t' ∈ tags, ∀ x ∈ row t.1, x ∈ row t'.1 → t.1 = t'.1) :
    ((tags.flatMap fun t => (row t.1).map fun c => (c, t.2)).map Prod.fst).Nodup := by
  rw [List.map_flatMap]
  have : (tags.flatMap fun t => ((row t.1).map fun c => (c, t.2)).map Prod.fst) = tags.flatMap fun t => row t.1 := by
    refine List.flatMap_congr fun t _ => ?_
    rw [List.map_map]
    simp [Function.comp_def]
  rw [this, List.nodup_flatMap]
  refine ⟨hr, ?_⟩
  have hp : tags.Pairwise fun t t' => t.1 ≠ t'.1 := List.pairwise_map.mp ht
  refine hp.imp_of_mem fun {t t'} h1 h2 hne => ?_
  rw [Function.onFun, List.disjoint_left]
  exact fun x hx hx' => hne (hd t h1 t' h2 x hx hx')

end Verif.TagTransfer
