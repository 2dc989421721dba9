import Verif.Prelude
import Verif.Model.InterpolateOther
import Verif.Spec.InterpolateOther
import Verif.Lemmas.PointOwnership
import Verif.Lemmas.LexSend
import Verif.Lemmas.Interpolate
/-! Exchange of rows of values between ranks: buffers in terms of rows. -/
namespace Verif.InterpOther
open Verif.Std Verif.Exchange Verif.Offsets Verif.Interp Verif.PointOwn Verif.Spec.InterpOther Verif.Group

variable {T : Type} [CommRing T]

/-- An occurrence of `a` is at its place among the occurrences. -/
theorem occ_get {α : Type} [BEq α] [LawfulBEq α] (a : α) : ∀ (l : List α) (s k i : Nat), NthOcc l a k i →
    ((l.zipIdx s).filter fun x => x.1 == a)[k]? = some (a, s + i) := by
  intro l
  induction l with
  | nil => rintro s k i ⟨h, _⟩; simp at h
  | cons b l ih =>
    rintro s k i ⟨h, hk⟩
    rw [List.zipIdx_cons, List.filter_cons]
    cases i with
    | zero =>
      simp only [List.getElem?_cons_zero, Option.some.injEq] at h
      subst h
      simp only [List.take_zero, List.count_nil] at hk
      subst hk
      simp
    | succ i =>
      simp only [List.getElem?_cons_succ] at h
      simp only [List.take_succ_cons, List.count_cons] at hk
      by_cases hb : b = a
      · subst hb
        simp only [beq_self_eq_true, if_true] at hk ⊢
        obtain ⟨k', rfl⟩ : ∃ k', k = k' + 1 := ⟨k - 1, by omega⟩
        rw [List.getElem?_cons_succ, ih (s + 1) k' i ⟨h, by omega⟩]
        congr 2
        omega
      · have hb' : (b == a) = false := by simpa using hb
        simp only [hb', Bool.false_eq_true, if_false] at hk ⊢
        rw [ih (s + 1) k i ⟨h, by omega⟩]
        congr 2
        omega

theorem occ_count {α : Type} [BEq α] [LawfulBEq α] (a : α) (l : List α) (s : Nat) : ((l.zipIdx s).filter fun x => x.1 == a).length = l.count a := by
  induction l generalizing s with
  | nil => rfl
  | cons b l ih =>
    rw [List.zipIdx_cons, List.filter_cons, List.count_cons]
    by_cases hb : b = a
    · subst hb; simp [ih]
    · have hb' : (b == a) = false := by simpa using hb
      simp [hb', ih]

/-- Rows of an array. -/
def row (bs : Nat) (f : List T) (n : Nat) : List T := (List.range bs).map fun m => f.getD (n * bs + m) 0

theorem row_len (bs : Nat) (f : List T) (n : Nat) : (row bs f n).length = bs := by simp [row]

theorem rows_eq (bs : Nat) (f : List T) (N : Nat) (h : f.length = N * bs) : f = (List.range N).flatMap (row bs f) := by
  induction N generalizing f with
  | zero => simpa using h
  | succ N ih =>
    have h1 : (f.drop bs).length = N * bs := by rw [List.length_drop, h]; rw [Nat.succ_mul]; omega
    have h2 : f.take bs = row bs f 0 := by
      apply List.ext_getElem?
      intro m
      by_cases hm : m < bs
      · have : m < f.length := by rw [h, Nat.succ_mul]; omega
        simp [row, List.getElem?_take, hm, List.getD_eq_getElem?_getD, List.getElem?_eq_getElem this]
      · rw [List.getElem?_eq_none (by simp; omega), List.getElem?_eq_none (by rw [row_len]; omega)]
    have h3 : ∀ n, row bs (f.drop bs) n = row bs f (n + 1) := by
      intro n
      unfold row
      apply List.map_congr_left
      intro m _
      rw [List.getD_eq_getElem?_getD, List.getD_eq_getElem?_getD, List.getElem?_drop]
      congr 2
      ring
    calc f = f.take bs ++ f.drop bs := (List.take_append_drop bs f).symm
      _ = row bs f 0 ++ (List.range N).flatMap (row bs (f.drop bs)) := by rw [h2, ← ih _ h1]
      _ = _ := by
        rw [List.range_succ_eq_map, List.flatMap_cons, List.flatMap_map]
        congr 1
        exact List.flatMap_congr fun n _ => h3 n

theorem copySeg_rows {α : Type} (bs : Nat) (L : List α) (f : α → List T) (hf : ∀ a ∈ L, (f a).length = bs) (i : Nat) (a : α) (ha : L[i]? = some a) :
    copySeg (L.flatMap f) (i * bs) bs = some (f a) := by
  have hi := (List.getElem?_eq_some_iff.mp ha).1
  unfold copySeg
  rw [length_flatMap_const L f bs hf, if_pos (by nlinarith)]
  congr 1
  induction L generalizing i with
  | nil => simp at ha
  | cons b L ih =>
    rw [List.flatMap_cons]
    have hb := hf b (by simp)
    cases i with
    | zero =>
      simp only [List.getElem?_cons_zero, Option.some.injEq] at ha
      subst ha
      rw [Nat.zero_mul, List.drop_zero, List.take_left' hb]
    | succ i =>
      simp only [List.getElem?_cons_succ] at ha
      rw [show (i + 1) * bs = (f b).length + i * bs by rw [hb]; ring, List.drop_append, List.drop_eq_nil_of_le (by omega), List.nil_append, Nat.add_sub_cancel_left]
      exact ih (fun a h => hf a (List.mem_cons_of_mem _ h)) i ha (List.getElem?_eq_some_iff.mp ha).1

theorem outRanks_sorted {src : List Nat} (h : src.Pairwise (· ≤ ·)) : (outRanks src).Pairwise (· < ·) := unique_sorted src h

theorem inRanks_sorted (dest : List (Option Nat)) : (inRanks dest).Pairwise (· < ·) := unique_sortNat_sorted _

theorem mem_inRanks (dest : List (Option Nat)) (r : Nat) : r ∈ inRanks dest ↔ some r ∈ dest := by
  unfold inRanks
  rw [mem_unique_sortNat]
  simp

/-- Rows of `src` with rank `q`. -/
def srcRows (src : List Nat) (q : Nat) : List Nat := (src.zipIdx.filter fun x => x.1 == q).map (·.2)

/-- Rows of `dest` with rank `r`. -/
def destRows (dest : List (Option Nat)) (r : Nat) : List Nat := (dest.zipIdx.filter fun x => x.1 == some r).map (·.2)

theorem zipIdx_snd (l : List α) : l.zipIdx.map (·.2) = List.range l.length := by
  rw [List.zipIdx_map_snd]; exact (List.range_eq_range').symm

theorem zipIdx_fst_sorted {src : List Nat} (h : src.Pairwise (· ≤ ·)) : src.zipIdx.Pairwise fun a b => a.1 ≤ b.1 := by
  rw [← List.pairwise_map (f := Prod.fst) (R := (· ≤ ·))]
  rwa [List.zipIdx_map_fst]

/-- The values sent, block by block. -/
theorem blocks_eq (bs : Nat) {src : List Nat} (h : src.Pairwise (· ≤ ·)) (send : List T) (hs : send.length = src.length * bs) :
    chunks (sendSizes bs src) send = (outRanks src).map fun q => (srcRows src q).flatMap (row bs send) := by
  have hg : src.zipIdx = (outRanks src).flatMap (grp Prod.fst src.zipIdx) := by
    apply Shared.sorted_eq_groups _ (zipIdx_fst_sorted h) _ (outRanks_sorted h)
    intro x hx
    unfold outRanks
    rw [mem_unique]
    have := List.mem_map_of_mem (f := Prod.fst) hx
    rwa [List.zipIdx_map_fst] at this
  have h1 : send = (outRanks src).flatMap fun q => (srcRows src q).flatMap (row bs send) := by
    calc send = (List.range src.length).flatMap (row bs send) := rows_eq bs send _ hs
      _ = (src.zipIdx.map (·.2)).flatMap (row bs send) := by rw [zipIdx_snd]
      _ = ((outRanks src).flatMap (grp Prod.fst src.zipIdx)).flatMap fun x => row bs send x.2 := by rw [← hg, List.flatMap_map]
      _ = _ := by
        rw [List.flatMap_assoc]
        apply List.flatMap_congr
        intro q _
        unfold srcRows grp
        rw [List.flatMap_map]
        congr 1
  have h2 : sendSizes bs src = (outRanks src).map fun q => ((srcRows src q).flatMap (row bs send)).length := by
    unfold sendSizes
    have hl : ∀ q, ((srcRows src q).flatMap (row bs send)).length = src.count q * bs := by
      intro q
      rw [length_flatMap_const _ _ bs (fun _ _ => row_len bs send _)]
      unfold srcRows
      rw [List.length_map, occ_count]
    apply List.ext_getElem?
    intro k
    by_cases hk : k < (outRanks src).length
    · rw [List.getElem?_map, List.getElem?_map, List.getElem?_range hk, List.getElem?_eq_getElem hk]
      simp only [Option.map_some, hl]
      congr 2
      unfold cnt
      rw [List.count]
      apply List.countP_congr
      intro a ha
      have ha' : a ∈ outRanks src := by unfold outRanks; rwa [mem_unique]
      have hnd := nodup_of_strict (outRanks_sorted h)
      simp only [beq_iff_eq]
      constructor
      · intro e
        subst e
        simp
      · intro e
        subst e
        exact hnd.idxOf_getElem k hk
    · rw [List.getElem?_eq_none (by simpa using hk), List.getElem?_eq_none (by simpa using hk)]
  calc chunks (sendSizes bs src) send = chunks (sendSizes bs src) ((outRanks src).flatMap fun q => (srcRows src q).flatMap (row bs send)) := by rw [← h1]
    _ = _ := chunks_flatMap _ _ _ h2

/-- The values received. -/
theorem recvValues_eq (bs : Nat) (src : Nat → List Nat) (dest : Nat → List (Option Nat)) (send : Nat → List T) (q : Nat)
    (h : ∀ r ∈ inRanks (dest q), (src r).Pairwise (· ≤ ·) ∧ (send r).length = (src r).length * bs ∧ q ∈ src r) :
    recvValues bs src dest send q = ((inRanks (dest q)).flatMap fun r => (srcRows (src r) q).map fun n => (r, n)).flatMap fun x => row bs (send x.1) x.2 := by
  unfold recvValues
  rw [neighborAlltoallv_eq (fun r => outRanks (src r)) (fun q => inRanks (dest q)) _ (fun r q => (srcRows (src r) q).flatMap (row bs (send r))) q]
  · rw [List.flatMap_assoc]
    apply List.flatMap_congr
    intro r _
    rw [List.flatMap_map]
  · intro r hr
    exact blocks_eq bs (h r hr).1 _ (h r hr).2.1
  · intro r hr
    unfold outRanks
    rw [mem_unique]
    exact (h r hr).2.2

theorem items_filter (dest : List (Option Nat)) (r : Nat) : ((items dest).filter fun x => x.1 == r).map (·.2) = destRows dest r := by
  unfold items destRows
  generalize dest.zipIdx = L
  induction L with
  | nil => rfl
  | cons x L ih =>
    obtain ⟨a, i⟩ := x
    cases a with
    | none => simpa [List.filterMap_cons, List.filter_cons] using ih
    | some r' =>
      rw [List.filterMap_cons, List.filter_cons]
      simp only [Option.map_some, List.filter_cons]
      by_cases e : r' = r
      · subst e
        simp only [beq_self_eq_true, if_true, List.map_cons, ih]
      · have e' : (r' == r) = false := by simpa using e
        have e2 : (some r' == some r) = false := by simpa using e
        simp only [e', e2, Bool.false_eq_true, if_false, ih]

theorem commToOutput_eq (bs : Nat) (dest : List (Option Nat)) : commToOutput bs dest = (inRanks dest).flatMap fun r => (destRows dest r).map (· * bs) := by
  have hmem : ∀ x ∈ items dest, x.1 ∈ inRanks dest := by
    intro x hx
    unfold items at hx
    rw [List.mem_filterMap] at hx
    obtain ⟨⟨a, i⟩, hy, e⟩ := hx
    rw [Option.map_eq_some_iff] at e
    obtain ⟨r, hr, e⟩ := e
    subst e
    rw [mem_inRanks, ← hr]
    have := List.mem_map_of_mem (f := Prod.fst) hy
    rwa [List.zipIdx_map_fst] at this
  have hkey : ∀ x ∈ items dest, itemKey dest x < (inRanks dest).length := fun x hx => List.idxOf_lt_length_of_mem (hmem x hx)
  unfold commToOutput
  rw [fill_eq_buckets _ _ _ _ (inRanks dest).length hkey (by rw [List.length_replicate]; exact excl_cnt_total _ _ _ hkey)]
  have hnd := nodup_of_strict (inRanks_sorted dest)
  rw [flatMap_idxOf (inRanks dest) hnd (fun b => ((items dest).filter fun x => itemKey dest x == b).map fun x => x.2 * bs)]
  apply List.flatMap_congr
  intro r hr
  rw [← items_filter, List.map_map]
  rw [List.filter_congr (q := fun x => x.1 == r)]
  · rfl
  · intro x hx
    unfold itemKey
    by_cases e : x.1 = r
    · simp [e]
    · have : (inRanks dest).idxOf x.1 ≠ (inRanks dest).idxOf r := fun h => e ((List.idxOf_inj (hmem x hx)).mp h)
      rw [beq_eq_false_iff_ne.mpr this, beq_eq_false_iff_ne.mpr e]

end Verif.InterpOther
