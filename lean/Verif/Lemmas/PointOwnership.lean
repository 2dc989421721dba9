import Verif.Prelude
import Verif.Model.PointOwnership
import Verif.Lemmas.StdAlg
import Verif.Lemmas.Exchange
import Verif.Lemmas.BucketFill
/-! Point ownership: buffers in terms of the points each rank gets. -/
namespace Verif.PointOwn
open Verif.Std Verif.Exchange Verif.Offsets

variable {X K : Type}

/-- Points of rank `q` that go to rank `p`. -/
def pts (I : Input X K) (q p : Nat) : List Nat := (List.range (I.npts q)).filter fun i => decide (p ∈ I.coll q i)

/-- Collisions are lists of different ranks. -/
structure Good (I : Input X K) : Prop where
  nodup : ∀ q i, (I.coll q i).Nodup
  lt : ∀ q i, ∀ p ∈ I.coll q i, p < I.P

theorem mem_outs (I : Input X K) (q p : Nat) : p ∈ outs I q ↔ ∃ i, i < I.npts q ∧ p ∈ I.coll q i := by
  unfold outs
  rw [mem_unique_sortNat, List.mem_flatMap]
  simp

theorem outs_sorted (I : Input X K) (q : Nat) : (outs I q).Pairwise (· < ·) := unique_sortNat_sorted _

theorem outs_nodup (I : Input X K) (q : Nat) : (outs I q).Nodup := nodup_of_strict (outs_sorted I q)

theorem mem_ins (I : Input X K) (q r : Nat) : q ∈ ins I r ↔ q < I.P ∧ r ∈ outs I q := by
  unfold ins; simp

theorem mem_pts (I : Input X K) (q p i : Nat) : i ∈ pts I q p ↔ i < I.npts q ∧ p ∈ I.coll q i := by
  unfold pts; simp

theorem pts_nodup (I : Input X K) (q p : Nat) : (pts I q p).Nodup := List.nodup_range.filter _

theorem filter_pairs (I : Input X K) (hg : Good I) (q p : Nat) :
    ((pairs I q).filter fun x => x.1 == p).map (·.2) = pts I q p := by
  unfold pairs pts
  rw [List.filter_flatMap, List.map_flatMap]
  induction List.range (I.npts q) with
  | nil => rfl
  | cons i l ih =>
    rw [List.flatMap_cons, ih, List.filter_cons]
    have h1 : ((List.map (fun p => (p, i)) (I.coll q i)).filter fun x => x.1 == p).map (·.2) =
        if p ∈ I.coll q i then [i] else [] := by
      rw [List.filter_map, List.map_map]
      have hc : ((fun x : Nat × Nat => x.1 == p) ∘ fun p => (p, i)) = fun y => y == p := rfl
      rw [hc]
      have hn := hg.nodup q i
      generalize I.coll q i = L at hn
      induction L with
      | nil => rfl
      | cons a l ih' =>
        rw [List.nodup_cons] at hn
        rw [List.filter_cons]
        by_cases ha : a = p
        · subst ha
          have : l.filter (fun y => y == a) = [] := by
            rw [List.filter_eq_nil_iff]
            intro y hy hya
            exact hn.1 (by rw [← (by simpa using hya : y = a)]; exact hy)
          simp [this]
        · have : ¬ (a == p) = true := by simpa using ha
          rw [if_neg this, ih' hn.2]
          simp [List.mem_cons, Ne.symm ha]
    rw [h1]
    by_cases h : p ∈ I.coll q i <;> simp [h]

theorem flatMap_idxOf {β : Type} (l : List Nat) (hn : l.Nodup) (f : Nat → List β) :
    (List.range l.length).flatMap f = l.flatMap fun p => f (l.idxOf p) := by
  have : l.map (fun p => l.idxOf p) = List.range l.length := by
    apply List.ext_getElem (by simp)
    intro i h1 h2
    simp [List.Nodup.idxOf_getElem hn]
  rw [← this, List.flatMap_map]

theorem mem_pairs_outs (I : Input X K) (q : Nat) (x : Nat × Nat) (hx : x ∈ pairs I q) : x.1 ∈ outs I q := by
  unfold pairs at hx
  obtain ⟨i, hi, hx⟩ := List.mem_flatMap.mp hx
  obtain ⟨p, hp, rfl⟩ := List.mem_map.mp hx
  exact (mem_outs I q p).mpr ⟨i, List.mem_range.mp hi, hp⟩

theorem filter_key (I : Input X K) (q p : Nat) (hp : p ∈ outs I q) :
    ((pairs I q).filter fun x => key I q x == (outs I q).idxOf p) = (pairs I q).filter fun x => x.1 == p := by
  apply List.filter_congr
  intro x hx
  have hm := mem_pairs_outs I q x hx
  unfold key
  by_cases h : x.1 = p
  · rw [h]; simp
  · have : (outs I q).idxOf x.1 ≠ (outs I q).idxOf p := fun he => h ((List.idxOf_inj hm).mp he)
    rw [beq_eq_false_iff_ne.mpr this, beq_eq_false_iff_ne.mpr h]

theorem key_lt (I : Input X K) (q : Nat) (x : Nat × Nat) (hx : x ∈ pairs I q) : key I q x < (outs I q).length :=
  List.idxOf_lt_length_of_mem (mem_pairs_outs I q x hx)

theorem packed_eq {β : Type} (I : Input X K) (hg : Good I) (q : Nat) (dflt : β) (val : Nat → β) :
    packed I q dflt val = (outs I q).flatMap fun p => (pts I q p).map val := by
  unfold packed
  rw [fill_eq_buckets (key I q) (fun x => val x.2) _ (pairs I q) (outs I q).length (key_lt I q)
    (by rw [List.length_replicate]; exact excl_cnt_total _ _ _ (key_lt I q))]
  rw [flatMap_idxOf _ (outs_nodup I q)]
  refine List.flatMap_congr fun p hp => ?_
  rw [filter_key I q p hp, ← filter_pairs I hg q p, List.map_map]
  rfl

theorem sizes_eq (I : Input X K) (hg : Good I) (q : Nat) : sizes I q = (outs I q).map fun p => (pts I q p).length := by
  unfold sizes
  apply List.ext_getElem (by simp)
  intro i h1 h2
  simp only [List.length_map, List.length_range] at h1
  rw [List.getElem_map, List.getElem_map, List.getElem_range, cnt_eq_length]
  have hm : (outs I q)[i] ∈ outs I q := List.getElem_mem _
  have h3 := filter_key I q _ hm
  rw [List.Nodup.idxOf_getElem (outs_nodup I q)] at h3
  rw [h3, ← filter_pairs I hg q, List.length_map]

theorem recvSizes_eq (I : Input X K) (hg : Good I) (r : Nat) : recvSizes I r = (ins I r).map fun q => (pts I q r).length := by
  unfold recvSizes neighborAlltoall
  rw [neighborAlltoallv_eq (outs I) (ins I) _ (fun q p => [(pts I q p).length]) r
    (fun q _ => by rw [sizes_eq I hg, List.map_map]; rfl) (fun q hq => ((mem_ins I q r).mp hq).2)]
  rw [List.map_eq_flatMap]

theorem forward_eq {β : Type} (I : Input X K) (hg : Good I) (data : Nat → List β) (f : Nat → Nat → List β)
    (hlen : ∀ q p, (f q p).length = (pts I q p).length) (hd : ∀ q, data q = (outs I q).flatMap (f q)) (r : Nat) :
    forward I data r = (ins I r).flatMap fun q => f q r := by
  unfold forward
  refine neighborAlltoallv_eq (outs I) (ins I) _ f r (fun q _ => ?_) (fun q hq => ((mem_ins I q r).mp hq).2)
  rw [hd]
  refine chunks_flatMap _ _ _ ?_
  rw [sizes_eq I hg]
  exact List.map_congr_left fun p _ => (hlen q p).symm

theorem reverse_eq {β : Type} (I : Input X K) (hg : Good I) (data : Nat → List β) (f : Nat → Nat → List β)
    (hlen : ∀ r q, (f r q).length = (pts I q r).length) (hd : ∀ r, data r = (ins I r).flatMap (f r)) (q : Nat) (hq : q < I.P) :
    reverse I data q = (outs I q).flatMap fun r => f r q := by
  unfold reverse
  refine neighborAlltoallv_eq (ins I) (outs I) _ f q (fun r _ => ?_) (fun r hr => (mem_ins I q r).mpr ⟨hq, hr⟩)
  rw [hd]
  refine chunks_flatMap _ _ _ ?_
  rw [recvSizes_eq I hg]
  exact List.map_congr_left fun p _ => (hlen r p).symm

theorem unpack_eq (I : Input X K) (hg : Good I) (q : Nat) : unpack I q = (outs I q).flatMap fun p => pts I q p := by
  unfold unpack; rw [packed_eq I hg]
  exact List.flatMap_congr fun p _ => List.map_id _

theorem received_eq (I : Input X K) (hg : Good I) (dflt : X) (r : Nat) :
    received I dflt r = (ins I r).flatMap fun q => (pts I q r).map (I.point q) := by
  unfold received
  exact forward_eq I hg _ (fun q p => (pts I q p).map (I.point q)) (fun q p => List.length_map _) (fun q => packed_eq I hg q _ _) r

variable [LinearOrder K] [Zero K]

/-- What rank `r` says about point `x`. -/
def verdict (I : Input X K) (r : Nat) (x : X) : Option Nat := if (firstCell I r x).isSome then some r else none

omit [Zero K] in
theorem recvRanks_eq (I : Input X K) (hg : Good I) (dflt : X) (q : Nat) (hq : q < I.P) :
    reverse I (indicator I dflt) q = (outs I q).flatMap fun r => (pts I q r).map fun i => verdict I r (I.point q i) := by
  refine reverse_eq I hg _ (fun r q => (pts I q r).map fun i => verdict I r (I.point q i)) (fun r q => List.length_map _) (fun r => ?_) q hq
  unfold indicator
  rw [received_eq I hg, List.map_flatMap]
  refine List.flatMap_congr fun q _ => ?_
  rw [List.map_map]
  rfl

theorem filter_block {β : Type} (l : List Nat) (hn : l.Nodup) (i : Nat) (f : Nat → β) :
    ((l.map fun j => (j, f j)).filter fun x => x.1 == i) = if i ∈ l then [(i, f i)] else [] := by
  induction l with
  | nil => rfl
  | cons a l ih =>
    rw [List.nodup_cons] at hn
    rw [List.map_cons, List.filter_cons, ih hn.2]
    by_cases ha : a = i
    · subst ha; simp [hn.1]
    · have h1 : ¬ ((a, f a).1 == i) = true := by simpa using ha
      rw [if_neg h1]
      simp [List.mem_cons, Ne.symm ha]

/-- Ranks a point was sent to, in the order of the buffers. -/
def sentTo (I : Input X K) (q i : Nat) : List Nat := (outs I q).filter fun r => decide (i ∈ pts I q r)

omit [LinearOrder K] [Zero K] in
theorem mem_sentTo (I : Input X K) (q i r : Nat) (hi : i < I.npts q) : r ∈ sentTo I q i ↔ r ∈ I.coll q i := by
  unfold sentTo
  rw [List.mem_filter, mem_outs]
  simp only [decide_eq_true_eq, mem_pts]
  constructor
  · rintro ⟨_, _, h⟩; exact h
  · intro h; exact ⟨⟨i, hi, h⟩, hi, h⟩

omit [LinearOrder K] [Zero K] in
theorem sentTo_sorted (I : Input X K) (q i : Nat) : (sentTo I q i).Pairwise (· < ·) := (outs_sorted I q).filter _

omit [LinearOrder K] [Zero K] in
theorem filter_blocks {β : Type} (I : Input X K) (q i : Nat) (f : Nat → Nat → β) :
    (((outs I q).flatMap fun r => (pts I q r).map fun j => (j, f r j)).filter fun x => x.1 == i) =
      (sentTo I q i).map fun r => (i, f r i) := by
  unfold sentTo
  rw [List.filter_flatMap]
  induction outs I q with
  | nil => rfl
  | cons r l ih =>
    rw [List.flatMap_cons, ih, filter_block _ (pts_nodup I q r), List.filter_cons]
    by_cases h : i ∈ pts I q r <;> simp [h]

omit [Zero K] in
theorem firstFold (l : List (Nat × Option Nat)) (s : Nat → Option Nat) (i : Nat) :
    (l.foldl (fun s x => if x.2.isSome ∧ s x.1 = none then fun j => if j = x.1 then x.2 else s j else s) s) i =
      match s i with
      | some o => some o
      | none => (l.filter fun x => x.1 == i).findSome? (·.2) := by
  induction l generalizing s with
  | nil => cases h : s i <;> simp [h]
  | cons x l ih =>
    rw [List.foldl_cons, ih, List.filter_cons]
    by_cases hx : x.1 = i
    · have hb : (x.1 == i) = true := by simpa using hx
      rw [if_pos hb]
      subst hx
      cases hs : s x.1 with
      | some o =>
        rw [if_neg (by simp)]
        simp [hs]
      | none =>
        cases hv : x.2 with
        | none => simp [hs, hv]
        | some o => simp [hv]
    · have hb : ¬ (x.1 == i) = true := by simpa using hx
      rw [if_neg hb]
      have : (if x.2.isSome = true ∧ s x.1 = none then fun j => if j = x.1 then x.2 else s j else s) i = s i := by
        split
        · simp [Ne.symm hx]
        · rfl
      rw [this]

omit [Zero K] in
theorem owners0_eq (I : Input X K) (hg : Good I) (dflt : X) (q : Nat) (hq : q < I.P) (i : Nat) :
    owners0 I dflt q i = (sentTo I q i).findSome? fun r => verdict I r (I.point q i) := by
  unfold owners0
  rw [unpack_eq I hg, recvRanks_eq I hg dflt q hq, zip_flatMap _ _ _ (fun r _ => (List.length_map _).symm), firstFold]
  have h : ((outs I q).flatMap fun r => (pts I q r).zip ((pts I q r).map fun i => verdict I r (I.point q i))) =
      (outs I q).flatMap fun r => (pts I q r).map fun j => (j, verdict I r (I.point q j)) := by
    refine List.flatMap_congr fun r _ => ?_
    conv_lhs => rw [show pts I q r = (pts I q r).map id from (List.map_id _).symm]
    rw [List.map_map, zip_map_same]
    rfl
  rw [h, filter_blocks]
  simp only [List.findSome?_map]
  rfl

omit [Zero K] in
theorem destExtrapolate_eq (I : Input X K) (hg : Good I) (dflt : X) (r : Nat) :
    destExtrapolate I dflt r = (ins I r).flatMap fun q => (pts I q r).map fun i => (owners0 I dflt q i).isNone := by
  unfold destExtrapolate
  refine forward_eq I hg _ (fun q p => (pts I q p).map fun i => (owners0 I dflt q i).isNone) (fun q p => List.length_map _) (fun q => ?_) r
  rw [unpack_eq I hg, List.map_flatMap]

/-- Cell and distance that rank `r` holds for point `i` of rank `q`. -/
def answer (I : Input X K) (dflt : X) (r q i : Nat) : Option Nat × Option K :=
  if (owners0 I dflt q i).isNone = true then ((closestOf I r (I.point q i)).2, some (closestOf I r (I.point q i)).1)
  else (firstCell I r (I.point q i), none)

omit [Zero K] in
theorem localResult_eq (I : Input X K) (hg : Good I) (dflt : X) (r : Nat) :
    localResult I dflt r = (ins I r).flatMap fun q => (pts I q r).map fun i => answer I dflt r q i := by
  unfold localResult
  rw [received_eq I hg, destExtrapolate_eq I hg, zip_flatMap _ _ _ (fun q _ => by simp), List.map_flatMap]
  refine List.flatMap_congr fun q _ => ?_
  rw [zip_map_same, List.map_map]
  rfl

omit [Zero K] in
theorem recvDist_eq (I : Input X K) (hg : Good I) (dflt : X) (q : Nat) (hq : q < I.P) :
    reverse I (fun r => (localResult I dflt r).map (·.2)) q =
      (outs I q).flatMap fun r => (pts I q r).map fun i => (answer I dflt r q i).2 := by
  refine reverse_eq I hg _ (fun r q => (pts I q r).map fun i => (answer I dflt r q i).2) (fun r q => List.length_map _) (fun r => ?_) q hq
  rw [localResult_eq I hg, List.map_flatMap]
  refine List.flatMap_congr fun q _ => ?_
  rw [List.map_map]
  rfl

/-- One update seen at one point. -/
def updateAt (s : K × Option Nat) (r : Nat) (x : Option K) : K × Option Nat :=
  match x with
  | none => s
  | some d => if 0 < d ∧ d < s.1 then (d, some r) else s

theorem update_at (r : Nat) (s : Nat → K × Option Nat) (x : Nat × Option K) (i : Nat) :
    update r s x i = if x.1 = i then updateAt (s i) r x.2 else s i := by
  unfold update updateAt
  obtain ⟨j, v⟩ := x
  cases v with
  | none => simp
  | some d =>
    simp only
    by_cases hj : j = i
    · subst hj
      rw [if_pos rfl]
      split <;> simp
    · rw [if_neg hj]
      split
      · simp [Ne.symm hj]
      · rfl

theorem update_block (r : Nat) (l : List Nat) (hn : l.Nodup) (f : Nat → Option K) (s : Nat → K × Option Nat) (i : Nat) :
    ((l.map fun j => (j, f j)).foldl (update r) s) i = if i ∈ l then updateAt (s i) r (f i) else s i := by
  induction l generalizing s with
  | nil => simp
  | cons a l ih =>
    rw [List.nodup_cons] at hn
    rw [List.map_cons, List.foldl_cons, ih hn.2, update_at]
    by_cases ha : a = i
    · subst ha; simp [hn.1]
    · simp [ha, Ne.symm ha]

theorem zip_map_self (l : List Nat) (f : Nat → β) : l.zip (l.map f) = l.map fun a => (a, f a) := by
  induction l with
  | nil => rfl
  | cons a l ih => simp [ih]

theorem owners_eq (I : Input X K) (hg : Good I) (dflt : X) (q : Nat) (hq : q < I.P) (i : Nat) :
    owners I dflt q i = ((sentTo I q i).foldl (fun s r => updateAt s r (answer I dflt r q i).2) (I.maxVal, owners0 I dflt q i)).2 := by
  unfold owners
  rw [recvDist_eq I hg dflt q hq, unpack_eq I hg, zip_flatMap _ _ _ (fun r _ => (List.length_map _).symm),
    chunks_flatMap _ _ _ (by
      rw [sizes_eq I hg]
      refine List.map_congr_left fun r _ => ?_
      rw [zip_map_self, List.length_map])]
  congr 1
  unfold sentTo
  generalize hs0 : (fun j => (I.maxVal, owners0 I dflt q j) : Nat → K × Option Nat) = s0
  have h0 : (I.maxVal, owners0 I dflt q i) = s0 i := by rw [← hs0]
  rw [h0]
  clear hs0 h0
  induction outs I q generalizing s0 with
  | nil => rfl
  | cons r l ih =>
    rw [List.map_cons, List.zip_cons_cons, List.foldl_cons, ih, List.filter_cons, zip_map_self]
    simp only
    rw [update_block r _ (pts_nodup I q r)]
    by_cases h : i ∈ pts I q r <;> simp [h]

theorem dest_eq (I : Input X K) (hg : Good I) (dflt : X) (r : Nat) :
    dest I dflt r = (ins I r).flatMap fun q => ((pts I q r).filter fun i => decide (owners I dflt q i = some r)).map fun i =>
      (q, I.point q i, (answer I dflt r q i).1) := by
  have hdr : destRanks I dflt r = (ins I r).flatMap fun q => (pts I q r).map fun i => owners I dflt q i := by
    unfold destRanks
    exact forward_eq I hg _ (fun q p => (pts I q p).map fun i => owners I dflt q i) (fun q p => List.length_map _)
      (fun q => packed_eq I hg q _ _) r
  have hlr : (localResult I dflt r).map (·.1) = (ins I r).flatMap fun q => (pts I q r).map fun i => (answer I dflt r q i).1 := by
    rw [localResult_eq I hg, List.map_flatMap]
    refine List.flatMap_congr fun q _ => ?_
    rw [List.map_map]
    rfl
  unfold dest
  rw [hdr, hlr, received_eq I hg, zip_flatMap _ _ _ (fun q _ => by simp), zip_flatMap _ _ _ (fun q _ => by simp)]
  rw [chunks_flatMap _ _ _ (by
    rw [recvSizes_eq I hg]
    refine List.map_congr_left fun q _ => ?_
    simp)]
  induction ins I r with
  | nil => rfl
  | cons q l ih =>
    rw [List.map_cons, List.zip_cons_cons, List.flatMap_cons, List.flatMap_cons, ih]
    congr 1
    rw [zip_map_same, zip_map_same, List.filter_map, List.map_map]
    rfl

omit [Zero K] in
/-- Folding with a strict comparison finds the first smallest element. -/
theorem argmin_fold {α : Type} (g : α → Prop) [DecidablePred g] (v : α → K) (lab : α → Nat) (l : List α) (s : K × Option Nat) :
    let r := l.foldl (fun s c => if g c ∧ v c < s.1 then (v c, some (lab c)) else s) s
    (r = s ∧ ∀ c ∈ l, g c → s.1 ≤ v c) ∨
    ∃ l1 c l2, l = l1 ++ c :: l2 ∧ g c ∧ r = (v c, some (lab c)) ∧ v c < s.1 ∧ (∀ c' ∈ l1, g c' → v c < v c') ∧
      ∀ c' ∈ l2, g c' → v c ≤ v c' := by
  induction l using List.reverseRecOn with
  | nil => exact Or.inl ⟨rfl, by simp⟩
  | append_singleton l a ih =>
    simp only at ih
    simp only [List.foldl_append, List.foldl_cons, List.foldl_nil]
    generalize l.foldl (fun s c => if g c ∧ v c < s.1 then (v c, some (lab c)) else s) s = r at ih
    by_cases hlt : g a ∧ v a < r.1
    · rw [if_pos hlt]
      right
      refine ⟨l, a, [], by simp, hlt.1, rfl, ?_, ?_, by simp⟩
      · rcases ih with ⟨rfl, _⟩ | ⟨_, _, _, _, _, rfl, h, _⟩
        · exact hlt.2
        · exact hlt.2.trans h
      · intro c' hc' hg'
        rcases ih with ⟨rfl, h⟩ | ⟨l1, c, l2, rfl, hgc, rfl, _, h1, h2⟩
        · exact lt_of_lt_of_le hlt.2 (h c' hc' hg')
        · rcases List.mem_append.mp hc' with h | h
          · exact hlt.2.trans (h1 c' h hg')
          · rcases List.mem_cons.mp h with rfl | h
            · exact hlt.2
            · exact lt_of_lt_of_le hlt.2 (h2 c' h hg')
    · rw [if_neg hlt]
      rcases ih with ⟨rfl, h⟩ | ⟨l1, c, l2, rfl, hgc, rfl, h3, h1, h2⟩
      · left
        refine ⟨rfl, ?_⟩
        intro c hc hgc
        rcases List.mem_append.mp hc with hc | hc
        · exact h c hc hgc
        · rw [List.mem_singleton.mp hc] at hgc ⊢
          by_contra hx
          exact hlt ⟨hgc, not_le.mp hx⟩
      · right
        refine ⟨l1, c, l2 ++ [a], by simp, hgc, rfl, h3, h1, ?_⟩
        intro c' hc' hg'
        rcases List.mem_append.mp hc' with hc' | hc'
        · exact h2 c' hc' hg'
        · rw [List.mem_singleton.mp hc'] at hg' ⊢
          by_contra hx
          exact hlt ⟨hg', not_le.mp hx⟩

end Verif.PointOwn
