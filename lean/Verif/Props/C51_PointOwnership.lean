import Verif.Lemmas.PointOwnership
import Verif.Spec.PointOwnership
/-!
# C51: ownership of points

`determine_point_ownership` gives every point the lowest rank that has a cell touching it, or, if no cell touches it, the
rank with the closest candidate cell; the destination lists of the ranks are exactly the points they own.
-/
namespace Verif.Props
open Verif.PointOwn Verif.Spec.PointOwn Verif.Std

variable {X K : Type} [LinearOrder K] [Zero K]

omit [Zero K] in
theorem firstCell_spec (I : Input X K) (r : Nat) (x : X) :
    (firstCell I r x = none ∧ ¬ Collides I r x) ∨ ∃ c, firstCell I r x = some c ∧ FirstTouched I r x c ∧ Collides I r x := by
  unfold firstCell
  cases h : (I.cand r x).find? fun c => decide (I.dist r c x < I.tol) with
  | none =>
    left
    refine ⟨rfl, ?_⟩
    rintro ⟨c, hc, hd⟩
    rw [List.find?_eq_none] at h
    exact h c hc (decide_eq_true hd)
  | some c =>
    right
    obtain ⟨hd, l1, l2, hl, hb⟩ := List.find?_eq_some_iff_append.mp h
    refine ⟨c, rfl, ⟨l1, l2, hl, of_decide_eq_true hd, ?_⟩, c, by rw [hl]; simp, of_decide_eq_true hd⟩
    intro c' hc'
    have := hb c' hc'
    simpa using this

omit [Zero K] in
theorem verdict_some (I : Input X K) (r o : Nat) (x : X) : verdict I r x = some o ↔ o = r ∧ Collides I r x := by
  unfold verdict
  rcases firstCell_spec I r x with ⟨h, hn⟩ | ⟨c, h, _, hc⟩ <;> rw [h]
  · simp [hn]
  · simp [hc, eq_comm]

omit [Zero K] in
theorem owners0_spec (I : Input X K) (hg : Good I) (dflt : X) (q : Nat) (hq : q < I.P) (i : Nat) (hi : i < I.npts q) :
    (owners0 I dflt q i = none ∧ ¬ Inside I q i) ∨ ∃ r, owners0 I dflt q i = some r ∧ LowestColliding I q i r := by
  rw [owners0_eq I hg dflt q hq]
  cases h : (sentTo I q i).findSome? fun r => verdict I r (I.point q i) with
  | none =>
    left
    refine ⟨rfl, ?_⟩
    rintro ⟨r, hr, hc⟩
    rw [List.findSome?_eq_none_iff] at h
    have h1 := h r ((mem_sentTo I q i r hi).mpr hr)
    rw [(verdict_some I r r _).mpr ⟨rfl, hc⟩] at h1
    cases h1
  | some o =>
    right
    obtain ⟨l1, a, l2, hl, ha, hb⟩ := List.findSome?_eq_some_iff.mp h
    obtain ⟨rfl, hc⟩ := (verdict_some I a o _).mp ha
    refine ⟨o, rfl, (mem_sentTo I q i o hi).mp (by rw [hl]; simp), hc, ?_⟩
    intro r' hr' hc'
    have hm := (mem_sentTo I q i r' hi).mpr hr'
    have hs := sentTo_sorted I q i
    rw [hl] at hm hs
    rcases List.mem_append.mp hm with hm | hm
    · have := hb r' hm
      rw [(verdict_some I r' r' _).mpr ⟨rfl, hc'⟩] at this
      cases this
    · rcases List.mem_cons.mp hm with rfl | hm
      · exact le_rfl
      · exact le_of_lt ((List.pairwise_cons.mp (List.pairwise_append.mp hs).2.1).1 r' hm)

omit [Zero K] in
theorem closestOf_spec (I : Input X K) (r : Nat) (x : X) :
    (closestOf I r x = (I.maxVal, none) ∧ ∀ c ∈ I.cand r x, I.maxVal ≤ I.dist r c x) ∨
    ∃ c, closestOf I r x = (I.dist r c x, some c) ∧ I.dist r c x < I.maxVal ∧ FirstClosest I r x c := by
  have h := argmin_fold (fun _ : Nat => True) (fun c => I.dist r c x) id (I.cand r x) (I.maxVal, none)
  simp only [true_and, id] at h
  rcases h with ⟨h1, h2⟩ | ⟨l1, c, l2, hl, h1, h2, h3, h4⟩
  · exact Or.inl ⟨h1, fun c hc => h2 c hc trivial⟩
  · exact Or.inr ⟨c, h1, h2, l1, l2, hl, fun c' hc' => h3 c' hc' trivial, fun c' hc' => h4 c' hc' trivial⟩

omit [Zero K] in
theorem firstClosest_le (I : Input X K) (r : Nat) (x : X) (c : Nat) (h : FirstClosest I r x c) :
    c ∈ I.cand r x ∧ ∀ c' ∈ I.cand r x, I.dist r c x ≤ I.dist r c' x := by
  obtain ⟨l1, l2, hl, h1, h2⟩ := h
  rw [hl]
  refine ⟨by simp, ?_⟩
  intro c' hc'
  rcases List.mem_append.mp hc' with h | h
  · exact le_of_lt (h1 c' h)
  · rcases List.mem_cons.mp h with rfl | h
    · exact le_rfl
    · exact h2 c' h

theorem updateAt_foldl_none (l : List Nat) (s : K × Option Nat) :
    l.foldl (fun s r => updateAt s r (none : Option K)) s = s := by
  induction l with
  | nil => rfl
  | cons a l ih => rw [List.foldl_cons]; exact ih

theorem owners_spec (I : Input X K) (hg : Good I) (ht : 0 < I.tol) (hmax : I.tol ≤ I.maxVal) (dflt : X) (q : Nat) (hq : q < I.P)
    (i : Nat) (hi : i < I.npts q) :
    (Inside I q i ∧ ∃ r, owners I dflt q i = some r ∧ LowestColliding I q i r) ∨
    (¬ Inside I q i ∧ ((∃ r, owners I dflt q i = some r ∧ LowestClosest I q i r) ∨
      (owners I dflt q i = none ∧ ∀ r ∈ I.coll q i, ∀ c ∈ I.cand r (I.point q i), I.maxVal ≤ I.dist r c (I.point q i)))) := by
  rw [owners_eq I hg dflt q hq]
  rcases owners0_spec I hg dflt q hq i hi with ⟨h0, hn⟩ | ⟨r, h0, hlow⟩
  · right
    refine ⟨hn, ?_⟩
    have hans : ∀ r, (answer I dflt r q i).2 = some (closestOf I r (I.point q i)).1 := by
      intro r; unfold answer; rw [h0]; simp
    have hpos : ∀ r ∈ I.coll q i, 0 < (closestOf I r (I.point q i)).1 := by
      intro r hr
      rcases closestOf_spec I r (I.point q i) with ⟨h, _⟩ | ⟨c, h, _, hc⟩
      · rw [h]; exact lt_of_lt_of_le ht hmax
      · rw [h]
        refine lt_of_lt_of_le ht ?_
        by_contra hlt
        exact hn ⟨r, hr, c, (firstClosest_le I r _ c hc).1, not_le.mp hlt⟩
    simp only [hans, h0]
    have hstep : (fun (s : K × Option Nat) r => updateAt s r (some (closestOf I r (I.point q i)).1)) =
        fun s r => if 0 < (closestOf I r (I.point q i)).1 ∧ (closestOf I r (I.point q i)).1 < s.1
          then ((closestOf I r (I.point q i)).1, some (id r)) else s := by
      funext s r; rfl
    rw [hstep]
    have h := argmin_fold (fun r => 0 < (closestOf I r (I.point q i)).1) (fun r => (closestOf I r (I.point q i)).1) id
      (sentTo I q i) (I.maxVal, none)
    simp only at h
    rcases h with ⟨h1, h2⟩ | ⟨l1, r, l2, hl, _, h1, h2, h3, h4⟩
    · right
      refine ⟨by rw [h1], ?_⟩
      intro r hr c hc
      have := h2 r ((mem_sentTo I q i r hi).mpr hr) (hpos r hr)
      rcases closestOf_spec I r (I.point q i) with ⟨_, h⟩ | ⟨c', h, h', _⟩
      · exact h c hc
      · rw [h] at this
        exact absurd this (not_le.mpr h')
    · left
      have hr : r ∈ I.coll q i := (mem_sentTo I q i r hi).mp (by rw [hl]; simp)
      refine ⟨r, by rw [h1]; rfl, hr, ?_⟩
      rcases closestOf_spec I r (I.point q i) with ⟨h, _⟩ | ⟨c, h, hmx, hc⟩
      · rw [h] at h2; exact absurd h2 (lt_irrefl _)
      · rw [h] at h3 h4
        refine ⟨c, (firstClosest_le I r _ c hc).1, hmx, ?_⟩
        intro r' hr' c' hc'
        have hv : ∀ r'', (closestOf I r'' (I.point q i)).1 ≤ I.maxVal ∧
            ∀ c'' ∈ I.cand r'' (I.point q i), (closestOf I r'' (I.point q i)).1 ≤ I.dist r'' c'' (I.point q i) := by
          intro r''
          rcases closestOf_spec I r'' (I.point q i) with ⟨h, h'⟩ | ⟨d, h, h', hd⟩
          · rw [h]; exact ⟨le_rfl, h'⟩
          · rw [h]; exact ⟨le_of_lt h', (firstClosest_le I r'' _ d hd).2⟩
        have hm := (mem_sentTo I q i r' hi).mpr hr'
        have hs := sentTo_sorted I q i
        rw [hl] at hm hs
        rcases List.mem_append.mp hm with hm | hm
        · have := lt_of_lt_of_le (h3 r' hm (hpos r' hr')) ((hv r').2 c' hc')
          exact ⟨le_of_lt this, fun _ => this⟩
        · rcases List.mem_cons.mp hm with rfl | hm
          · refine ⟨?_, fun hh => absurd hh (lt_irrefl _)⟩
            have := (hv r').2 c' hc'
            rw [h] at this
            exact this
          · refine ⟨(h4 r' hm (hpos r' hr')).trans ((hv r').2 c' hc'), ?_⟩
            intro hlt
            have := (List.pairwise_cons.mp (List.pairwise_append.mp hs).2.1).1 r' hm
            omega
  · left
    refine ⟨⟨r, hlow.1, hlow.2.1⟩, r, ?_, hlow⟩
    have hans : ∀ r', (answer I dflt r' q i).2 = (none : Option K) := by
      intro r'; unfold answer; rw [h0]; simp
    simp only [hans, updateAt_foldl_none, h0]

/-- C51.  A point that touches a cell of some candidate rank is owned by the lowest such rank. -/
theorem C51_owner_inside (I : Input X K) (hg : Good I) (ht : 0 < I.tol) (hmax : I.tol ≤ I.maxVal) (dflt : X) (q : Nat)
    (hq : q < I.P) (i : Nat) (hi : i < I.npts q) (hin : Inside I q i) (r : Nat) :
    owners I dflt q i = some r ↔ LowestColliding I q i r := by
  rcases owners_spec I hg ht hmax dflt q hq i hi with ⟨_, r', h, hl⟩ | ⟨hn, _⟩
  · rw [h]
    constructor
    · intro h; rw [← Option.some.inj h]; exact hl
    · intro h
      rw [le_antisymm (hl.2.2 r h.1 h.2.1) (h.2.2 r' hl.1 hl.2.1)]
  · exact absurd hin hn

/-- C51.  A point that touches no cell is owned by the lowest rank among those with the closest candidate cell. -/
theorem C51_owner_outside (I : Input X K) (hg : Good I) (ht : 0 < I.tol) (hmax : I.tol ≤ I.maxVal) (dflt : X) (q : Nat)
    (hq : q < I.P) (i : Nat) (hi : i < I.npts q) (hout : ¬ Inside I q i) (r : Nat) :
    owners I dflt q i = some r ↔ LowestClosest I q i r := by
  rcases owners_spec I hg ht hmax dflt q hq i hi with ⟨h, _⟩ | ⟨_, ⟨r', h, hr1, c1, hc1, hm1, hl⟩ | ⟨h, hn⟩⟩
  · exact absurd h hout
  · rw [h]
    constructor
    · intro h; rw [← Option.some.inj h]; exact ⟨hr1, c1, hc1, hm1, hl⟩
    · rintro ⟨hr2, c2, hc2, hm2, hl2⟩
      congr 1
      rcases lt_trichotomy r' r with hlt | heq | hgt
      · exact absurd ((hl2 r' hr1 c1 hc1).2 hlt) (not_lt.mpr (hl r hr2 c2 hc2).1)
      · exact heq
      · exact absurd ((hl r hr2 c2 hc2).2 hgt) (not_lt.mpr (hl2 r' hr1 c1 hc1).1)
  · rw [h]
    constructor
    · intro h; cases h
    · rintro ⟨hr2, c2, hc2, hm2, _⟩
      exact absurd hm2 (not_lt.mpr (hn r hr2 c2 hc2))

/-- C51.  A point has no owner exactly if no candidate cell of a candidate rank is at a finite distance. -/
theorem C51_owner_none (I : Input X K) (hg : Good I) (ht : 0 < I.tol) (hmax : I.tol ≤ I.maxVal) (dflt : X) (q : Nat)
    (hq : q < I.P) (i : Nat) (hi : i < I.npts q) :
    owners I dflt q i = none ↔ ∀ r ∈ I.coll q i, ∀ c ∈ I.cand r (I.point q i), I.maxVal ≤ I.dist r c (I.point q i) := by
  rcases owners_spec I hg ht hmax dflt q hq i hi with ⟨_, r, h, hr, ⟨c, hc, hd⟩, _⟩ | ⟨_, ⟨r, h, hr, c, hc, hd, _⟩ | ⟨h, hn⟩⟩
  · rw [h]
    constructor
    · intro h; cases h
    · intro hall
      exact absurd (hall r hr c hc) (not_le.mpr (lt_of_lt_of_le hd hmax))
  · rw [h]
    constructor
    · intro h; cases h
    · intro hall
      exact absurd (hall r hr c hc) (not_le.mpr hd)
  · exact ⟨fun _ => hn, fun _ => h⟩

/-- C51.  The destination data of rank `r` lists, by source rank and then in the order of the points, exactly the points
that `r` owns; each comes with the first cell touched, or with the first closest cell if the point touches no cell. -/
theorem C51_dest (I : Input X K) (hg : Good I) (ht : 0 < I.tol) (hmax : I.tol ≤ I.maxVal) (dflt : X) (r : Nat) :
    ∃ cell : Nat → Nat → Nat,
      dest I dflt r = ((List.range I.P).flatMap fun q =>
        ((List.range (I.npts q)).filter fun i => decide (owners I dflt q i = some r)).map fun i => (q, I.point q i, some (cell q i))) ∧
      ∀ q i, q < I.P → i < I.npts q → owners I dflt q i = some r →
        (Inside I q i → FirstTouched I r (I.point q i) (cell q i)) ∧
        (¬ Inside I q i → FirstClosest I r (I.point q i) (cell q i)) := by
  have hcell : ∀ q i, q < I.P → i < I.npts q → owners I dflt q i = some r →
      ∃ c, (answer I dflt r q i).1 = some c ∧ (Inside I q i → FirstTouched I r (I.point q i) c) ∧
        (¬ Inside I q i → FirstClosest I r (I.point q i) c) := by
    intro q i hq hi ho
    by_cases hin : Inside I q i
    · have hl := (C51_owner_inside I hg ht hmax dflt q hq i hi hin r).mp ho
      rcases owners0_spec I hg dflt q hq i hi with ⟨_, hn⟩ | ⟨r', h0, _⟩
      · exact absurd hin hn
      · rcases firstCell_spec I r (I.point q i) with ⟨_, hn⟩ | ⟨c, hc, hf, _⟩
        · exact absurd hl.2.1 hn
        · exact ⟨c, by unfold answer; rw [h0]; simp [hc], fun _ => hf, fun hn => absurd hin hn⟩
    · have hl := (C51_owner_outside I hg ht hmax dflt q hq i hi hin r).mp ho
      rcases owners0_spec I hg dflt q hq i hi with ⟨h0, _⟩ | ⟨r', _, hl'⟩
      · rcases closestOf_spec I r (I.point q i) with ⟨_, hn⟩ | ⟨c, hc, _, hf⟩
        · obtain ⟨_, c, hc, hd, _⟩ := hl
          exact absurd (hn c hc) (not_le.mpr hd)
        · exact ⟨c, by unfold answer; rw [h0]; simp [hc], fun h => absurd h hin, fun _ => hf⟩
      · exact absurd ⟨r', hl'.1, hl'.2.1⟩ hin
  have hcoll : ∀ q i, q < I.P → i < I.npts q → owners I dflt q i = some r → r ∈ I.coll q i := by
    intro q i hq hi ho
    by_cases hin : Inside I q i
    · exact ((C51_owner_inside I hg ht hmax dflt q hq i hi hin r).mp ho).1
    · exact ((C51_owner_outside I hg ht hmax dflt q hq i hi hin r).mp ho).1
  refine ⟨fun q i => ((answer I dflt r q i).1).getD 0, ?_, ?_⟩
  · rw [dest_eq I hg]
    unfold ins
    have key : ∀ q, q < I.P → (((pts I q r).filter fun i => decide (owners I dflt q i = some r)).map fun i =>
        (q, I.point q i, (answer I dflt r q i).1)) =
        ((List.range (I.npts q)).filter fun i => decide (owners I dflt q i = some r)).map fun i =>
          (q, I.point q i, some (((answer I dflt r q i).1).getD 0)) := by
      intro q hq
      have h1 : ((pts I q r).filter fun i => decide (owners I dflt q i = some r)) =
          (List.range (I.npts q)).filter fun i => decide (owners I dflt q i = some r) := by
        unfold pts
        rw [List.filter_filter]
        refine List.filter_congr fun i hi => ?_
        by_cases ho : owners I dflt q i = some r
        · simp [ho, hcoll q i hq (List.mem_range.mp hi) ho]
        · simp [ho]
      rw [h1]
      refine List.map_congr_left fun i hi => ?_
      obtain ⟨hi, ho⟩ := List.mem_filter.mp hi
      obtain ⟨c, hc, _⟩ := hcell q i hq (List.mem_range.mp hi) (of_decide_eq_true ho)
      rw [hc]; rfl
    have hzero : ∀ q, q < I.P → r ∉ outs I q →
        ((List.range (I.npts q)).filter fun i => decide (owners I dflt q i = some r)) = [] := by
      intro q hq hr
      rw [List.filter_eq_nil_iff]
      intro i hi ho
      exact hr ((mem_outs I q r).mpr ⟨i, List.mem_range.mp hi, hcoll q i hq (List.mem_range.mp hi) (of_decide_eq_true ho)⟩)
    have hl : ∀ q ∈ List.range I.P, q < I.P := fun q hq => List.mem_range.mp hq
    generalize List.range I.P = L at hl
    induction L with
    | nil => rfl
    | cons q L ih =>
      have hq := hl q (by simp)
      have ih' := ih fun q' hq' => hl q' (by simp [hq'])
      rw [List.filter_cons, List.flatMap_cons, ← ih']
      by_cases hr : r ∈ outs I q
      · rw [if_pos (decide_eq_true hr), List.flatMap_cons, key q hq]
      · rw [if_neg (by simpa using hr), hzero q hq hr]
        rfl
  · intro q i hq hi ho
    obtain ⟨c, hc, h⟩ := hcell q i hq hi ho
    simp only [hc, Option.getD_some]
    exact h

/-- C51.  The destination data of rank `r` that comes from rank `q` is, in order, the points of `q` whose `src_owner` is `r`:
values computed at the destination points can be sent back by rank and order alone. -/
theorem C51_scatter (I : Input X K) (hg : Good I) (ht : 0 < I.tol) (hmax : I.tol ≤ I.maxVal) (dflt : X) (q r : Nat) (hq : q < I.P) :
    (((dest I dflt r).filter fun x => x.1 == q).map fun x => x.2.1) =
      (((srcOwner I dflt q).zipIdx.filter fun x => x.1 == some r).map fun x => I.point q x.2) := by
  obtain ⟨cell, hd, _⟩ := C51_dest I hg ht hmax dflt r
  rw [hd, List.filter_flatMap, List.map_flatMap]
  have h1 : ∀ q', ((((List.range (I.npts q')).filter fun i => decide (owners I dflt q' i = some r)).map fun i =>
      (q', I.point q' i, some (cell q' i))).filter fun x => x.1 == q) =
      if q' = q then (((List.range (I.npts q')).filter fun i => decide (owners I dflt q' i = some r)).map fun i =>
      (q', I.point q' i, some (cell q' i))) else [] := by
    intro q'
    rw [List.filter_map]
    by_cases h : q' = q
    · subst h
      simp [Function.comp_def]
    · rw [if_neg h]
      have : (((fun x : Nat × X × Option Nat => x.1 == q) ∘ fun i => (q', I.point q' i, some (cell q' i)))) = fun _ => false := by
        funext i
        simp [h]
      rw [this]
      simp
  simp only [h1]
  have h2 : ∀ (L : List Nat), L.Nodup → q ∈ L → (L.flatMap fun q' => ((if q' = q then
      (((List.range (I.npts q')).filter fun i => decide (owners I dflt q' i = some r)).map fun i =>
      (q', I.point q' i, some (cell q' i))) else [])).map fun x => x.2.1) =
      ((List.range (I.npts q)).filter fun i => decide (owners I dflt q i = some r)).map (I.point q) := by
    intro L hn hm
    induction L with
    | nil => cases hm
    | cons a L ih =>
      rw [List.nodup_cons] at hn
      rw [List.flatMap_cons]
      by_cases ha : a = q
      · subst ha
        rw [if_pos rfl, List.map_map]
        have : (L.flatMap fun q' => ((if q' = a then
          (((List.range (I.npts q')).filter fun i => decide (owners I dflt q' i = some r)).map fun i =>
          (q', I.point q' i, some (cell q' i))) else [])).map fun x => x.2.1) = [] := by
          rw [List.flatMap_eq_nil_iff]
          intro b hb
          rw [if_neg (fun h => hn.1 (by rw [← h]; exact hb))]
          rfl
        rw [this, List.append_nil]
        rfl
      · rw [if_neg ha, ih hn.2 ((List.mem_cons.mp hm).resolve_left (Ne.symm ha))]
        rfl
  rw [h2 _ List.nodup_range (List.mem_range.mpr hq)]
  unfold srcOwner
  rw [List.zipIdx_map, List.filter_map, List.map_map]
  have h3 : (List.range (I.npts q)).zipIdx = (List.range (I.npts q)).map fun i => (i, i) := by
    apply List.ext_getElem (by simp)
    intro i h1 h2
    simp
  rw [h3, List.filter_map, List.map_map]
  congr 1
  refine List.filter_congr fun i _ => ?_
  simp only [Function.comp, Prod.map]
  by_cases h : owners I dflt q i = some r <;> simp [h]

/-- Two ranks; rank 0 has the cell `[0,10]` twice, rank 1 the cell `[10,20]`; boxes are padded by 5. -/
def ownInput : Input Nat Nat where
  P := 2
  npts := fun q => if q = 0 then 3 else 1
  point := fun q i => if q = 0 then (if i = 0 then 23 else if i = 1 then 10 else 40) else 3
  coll := fun q i => if q = 0 then (if i = 0 then [1] else if i = 1 then [1, 0] else []) else [0]
  cand := fun r x => if r = 0 then (if x ≤ 15 then [7, 4] else []) else (if 5 ≤ x ∧ x ≤ 25 then [2] else [])
  dist := fun r _ x => if r = 0 then (x - 10) * (x - 10) else (x - 20) * (x - 20) + (10 - x) * (10 - x)
  tol := 1
  maxVal := 1000

theorem ownInput_good : Good ownInput := by
  constructor
  · intro q i
    simp only [ownInput]
    split
    · split
      · decide
      · split <;> decide
    · decide
  · intro q i p
    simp only [ownInput]
    split
    · split
      · intro h; simp at h; omega
      · split
        · intro h; simp at h; omega
        · intro h; simp at h
    · intro h; simp at h; omega

example : 0 < ownInput.tol ∧ ownInput.tol ≤ ownInput.maxVal ∧ 0 < ownInput.P ∧ 1 < ownInput.npts 0 := by decide
example : Inside ownInput 0 1 := ⟨1, by decide, 2, by decide, by decide⟩
example : srcOwner ownInput 0 0 = [some 1, some 0, none] ∧ srcOwner ownInput 0 1 = [some 0] := by decide +kernel
example : dest ownInput 0 0 = [(0, 10, some 7), (1, 3, some 7)] ∧ dest ownInput 0 1 = [(0, 23, some 2)] := by decide +kernel

end Verif.Props
