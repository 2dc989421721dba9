import Verif.Prelude
import Mathlib.Logic.Relation
import Verif.Model.Ordering
namespace Verif.Rcm
open Verif.Std Relation

/-- Edge of the graph. -/
def Edge (g : Graph) (a b : Nat) : Prop := b ∈ links g a

/-- Reachability. -/
def Reach (g : Graph) : Nat → Nat → Prop := ReflTransGen (Edge g)

/-- Links name existing nodes. -/
def InBounds (g : Graph) : Prop := ∀ a b, Edge g a b → b < g.length

theorem visit_fold (l : List Nat) (st : (Nat → Bool) × List Nat) :
    ∃ N, (l.foldl visit st).2 = st.2 ++ N ∧ N.Nodup ∧ (∀ w, w ∈ N ↔ w ∈ l ∧ st.1 w = false) ∧
      ∀ w, (l.foldl visit st).1 w = (st.1 w || decide (w ∈ l)) := by
  induction l generalizing st with
  | nil => exact ⟨[], by simp⟩
  | cons a l ih =>
    rw [List.foldl_cons]
    by_cases ha : st.1 a
    · have : visit st a = st := by simp [visit, ha]
      rw [this]
      obtain ⟨N, h1, h2, h3, h4⟩ := ih st
      refine ⟨N, h1, h2, ?_, ?_⟩
      · intro w; rw [h3]; simp only [List.mem_cons]
        constructor
        · rintro ⟨x, y⟩; exact ⟨Or.inr x, y⟩
        · rintro ⟨rfl | x, y⟩
          · rw [ha] at y; cases y
          · exact ⟨x, y⟩
      · intro w; rw [h4]
        by_cases hw : w = a
        · subst hw; simp [ha]
        · simp [hw]
    · have hv : visit st a = (fun x => if x = a then true else st.1 x, st.2 ++ [a]) := by simp [visit, ha]
      rw [hv]
      obtain ⟨N, h1, h2, h3, h4⟩ := ih (fun x => if x = a then true else st.1 x, st.2 ++ [a])
      refine ⟨a :: N, by rw [h1]; simp, ?_, ?_, ?_⟩
      · rw [List.nodup_cons]
        refine ⟨?_, h2⟩
        intro hm; have := (h3 a).mp hm; simp at this
      · intro w
        rw [List.mem_cons, h3, List.mem_cons]
        by_cases hw : w = a
        · subst hw; simp [Bool.not_eq_true _ ▸ ha]
        · simp [hw]
      · intro w
        rw [h4]
        by_cases hw : w = a
        · subst hw; simp
        · simp [hw]

/-- Invariant: the labelled nodes are exactly the listed ones. -/
structure Tracks (st : (Nat → Bool) × List Nat) : Prop where
  iff : ∀ w, st.1 w = true ↔ w ∈ st.2
  nodup : st.2.Nodup

theorem scan_spec (g : Graph) (st : (Nat → Bool) × List Nat) (h : Tracks st) (a : Nat) :
    Tracks (scan g st a) ∧ st.2 <+: (scan g st a).2 ∧ ∀ w, w ∈ (scan g st a).2 ↔ w ∈ st.2 ∨ Edge g a w := by
  obtain ⟨N, h1, h2, h3, h4⟩ := visit_fold (links g a) st
  change (scan g st a).2 = _ at h1
  change ∀ w, (scan g st a).1 w = _ at h4
  have hm : ∀ w, w ∈ (scan g st a).2 ↔ w ∈ st.2 ∨ Edge g a w := by
    intro w
    rw [h1, List.mem_append, h3, ← h.iff]
    unfold Edge
    cases st.1 w <;> simp
  refine ⟨⟨?_, ?_⟩, ?_, hm⟩
  · intro w; rw [h4, hm, Bool.or_eq_true, h.iff, decide_eq_true_eq]; rfl
  · rw [h1, List.nodup_append]
    refine ⟨h.nodup, h2, ?_⟩
    rintro x hx y hy rfl
    have := ((h3 x).mp hy).2
    rw [(h.iff x).mpr hx] at this; cases this
  · rw [h1]; exact List.prefix_append _ _

theorem scans_spec (g : Graph) (l : List Nat) (st : (Nat → Bool) × List Nat) (h : Tracks st) :
    Tracks (l.foldl (scan g) st) ∧ st.2 <+: (l.foldl (scan g) st).2 ∧
    ∀ w, w ∈ (l.foldl (scan g) st).2 ↔ w ∈ st.2 ∨ ∃ a ∈ l, Edge g a w := by
  induction l generalizing st with
  | nil => exact ⟨h, List.prefix_rfl, by simp⟩
  | cons a l ih =>
    rw [List.foldl_cons]
    obtain ⟨h1, h2, h3⟩ := scan_spec g st h a
    obtain ⟨i1, i2, i3⟩ := ih _ h1
    refine ⟨i1, h2.trans i2, ?_⟩
    intro w
    rw [i3, h3]
    simp only [List.mem_cons, exists_eq_or_imp]
    tauto

theorem length_le (n : Nat) (l : List Nat) (hn : l.Nodup) (hb : ∀ x ∈ l, x < n) : l.length ≤ n := by
  have h := List.subperm_of_subset hn (l₂ := List.range n) (fun x hx => List.mem_range.mpr (hb x hx))
  simpa using h.length_le

/-- What the level structure rooted at `s` guarantees. -/
structure LevelsOk (g : Graph) (s : Nat) (lv : List Nat × List Nat) : Prop where
  reach : ∀ w ∈ lv.1, Reach g s w
  bound : numLevels lv ≤ g.length
  pos : 1 ≤ numLevels lv
  last : level lv (numLevels lv - 1) ≠ []

theorem levelLoop_spec (g : Graph) (hg : InBounds g) (s : Nat) (fuel : Nat) (st : (Nat → Bool) × List Nat)
    (offsets : List Nat) (k last : Nat) (hT : Tracks st) (hs : ∀ w ∈ st.2, Reach g s w ∧ w < g.length)
    (hlen : offsets.length = k + 1) (hlast : offsets.getLast? = some last) (hle : last ≤ st.2.length)
    (hk : last < st.2.length → k + 1 ≤ st.2.length) (hk' : k ≤ st.2.length)
    (hfin : k ≠ 0 → offsets.getD (k - 1) 0 < last)
    (h0 : k = 0 → last < st.2.length) (hfuel : g.length + 1 ≤ fuel + k) :
    ∃ lv, levelLoop g fuel st offsets = some lv ∧ LevelsOk g s lv := by
  have hln := length_le g.length st.2 hT.nodup (fun x hx => (hs x hx).2)
  induction fuel generalizing st offsets k last with
  | zero => omega
  | succ fuel ih =>
    unfold levelLoop
    rw [hlast]
    simp only
    split
    · rename_i hgt
      obtain ⟨h1, h2, h3⟩ := scans_spec g ((st.2.drop last).take (st.2.length - last)) st hT
      have hs' : ∀ w ∈ (((st.2.drop last).take (st.2.length - last)).foldl (scan g) st).2, Reach g s w ∧ w < g.length := by
        intro w hw
        rcases (h3 w).mp hw with h | ⟨a, ha, he⟩
        · exact hs w h
        · have ham : a ∈ st.2 := List.mem_of_mem_drop (List.mem_of_mem_take ha)
          exact ⟨ReflTransGen.tail (hs a ham).1 he, hg a w he⟩
      have hle2 := h2.length_le
      have hk1 := hk hgt
      refine ih _ _ (k + 1) st.2.length h1 hs' (by simp [hlen]) (by simp) hle2 (by intro; omega) (by omega)
        ?_ (by omega) (by omega) (length_le g.length _ h1.nodup (fun x hx => (hs' x hx).2))
      intro _
      rw [Nat.add_sub_cancel, List.getD_eq_getElem?_getD, List.getElem?_append_left (by omega)]
      rw [List.getLast?_eq_getElem?, hlen, Nat.add_sub_cancel] at hlast
      rw [hlast]; exact hgt
    · rename_i hng
      have hkne : k ≠ 0 := by intro h; exact hng (h0 h)
      refine ⟨_, rfl, ⟨fun w hw => (hs w hw).1, ?_, ?_, ?_⟩⟩
      · simp only [numLevels, hlen]; omega
      · simp only [numLevels, hlen]; omega
      · have hf := hfin hkne
        rw [List.getLast?_eq_getElem?, hlen, Nat.add_sub_cancel] at hlast
        have hl : offsets.getD k 0 = last := by rw [List.getD_eq_getElem?_getD, hlast]; rfl
        simp only [level, numLevels, hlen, Nat.add_sub_cancel]
        rw [show k - 1 + 1 = k by omega, hl]
        intro hnil
        have := congrArg List.length hnil
        simp only [List.length_take, List.length_drop, List.length_nil] at this
        omega

theorem levelStructure_spec (g : Graph) (hg : InBounds g) (s : Nat) (hs : s < g.length) :
    ∃ lv, levelStructure g s = some lv ∧ LevelsOk g s lv := by
  refine levelLoop_spec g hg s _ _ _ 0 0 ⟨by intro w; simp, by simp⟩ ?_ rfl rfl (by simp) (by simp) (by simp)
    (by simp) (by simp) (by omega)
  intro w hw
  simp at hw; subst hw
  exact ⟨ReflTransGen.refl, hs⟩

theorem minDegree_mem (g : Graph) (l : List Nat) (h : l ≠ []) : ∃ s, minDegree g l = some s ∧ s ∈ l := by
  cases l with
  | nil => exact absurd rfl h
  | cons a l =>
    refine ⟨_, rfl, ?_⟩
    have : ∀ (l : List Nat) (m : Nat), l.foldl (fun m x => if degree g x < degree g m then x else m) m = m ∨
        l.foldl (fun m x => if degree g x < degree g m then x else m) m ∈ l := by
      intro l
      induction l with
      | nil => intro m; left; rfl
      | cons b l ih =>
        intro m
        rw [List.foldl_cons]
        rcases ih (if degree g b < degree g m then b else m) with h | h
        · rw [h]; split <;> simp
        · right; simp [h]
    rcases this l a with h | h
    · rw [h]; simp
    · simp [h]

theorem reach_lt (g : Graph) (hg : InBounds g) {a b : Nat} (ha : a < g.length) (h : Reach g a b) : b < g.length := by
  induction h with
  | refl => exact ha
  | tail _ he _ => exact hg _ _ he

theorem rootLoop_spec (g : Graph) (hg : InBounds g) (v0 : Nat) (hv0 : v0 < g.length) (fuel v : Nat)
    (lv : List Nat × List Nat) (hv : Reach g v0 v) (hlv : LevelsOk g v lv) (hf : g.length + 1 ≤ fuel + numLevels lv) :
    ∃ v', rootLoop g fuel v lv = some v' ∧ Reach g v0 v' := by
  induction fuel generalizing v lv with
  | zero => have := hlv.bound; omega
  | succ fuel ih =>
    unfold rootLoop
    obtain ⟨s, hs, hm⟩ := minDegree_mem g _ hlv.last
    rw [hs]
    simp only
    have hsr : Reach g v0 s := by
      have : s ∈ lv.1 := List.mem_of_mem_drop (List.mem_of_mem_take hm)
      exact ReflTransGen.trans hv (hlv.reach s this)
    obtain ⟨lt, h1, h2⟩ := levelStructure_spec g hg s (reach_lt g hg hv0 hsr)
    rw [h1]
    simp only
    split
    · exact ih s lt hsr h2 (by omega)
    · exact ⟨v, rfl, hv⟩

/-- Breadth-first numbering visits exactly the reachable nodes, once each. -/
theorem bfs_spec (g : Graph) (hg : InBounds g) (srt : List Nat → List Nat) (hsrt : ∀ l, (srt l).Perm l)
    (v : Nat) (fuel : Nat) (labelled : Nat → Bool) (rv : List Nat) (cur : Nat)
    (hT : Tracks (labelled, rv)) (hr : ∀ w ∈ rv, Reach g v w ∧ w < g.length) (hv : v ∈ rv) (hcur : cur ≤ rv.length)
    (hdone : ∀ a ∈ rv.take cur, ∀ b, Edge g a b → b ∈ rv) (hf : g.length + 1 ≤ fuel + cur) :
    ∃ out, bfs g srt fuel labelled rv cur = some out ∧ out.Nodup ∧ ∀ w, w ∈ out ↔ Reach g v w := by
  have hln := length_le g.length rv hT.nodup (fun x hx => (hr x hx).2)
  induction fuel generalizing labelled rv cur with
  | zero => omega
  | succ fuel ih =>
    unfold bfs
    cases hn : rv[cur]? with
    | none =>
      simp only
      have hc : rv.length ≤ cur := List.getElem?_eq_none_iff.mp hn
      rw [List.take_of_length_le hc] at hdone
      refine ⟨rv, rfl, hT.nodup, fun w => ⟨fun h => (hr w h).1, fun h => ?_⟩⟩
      induction h with
      | refl => exact hv
      | tail _ he ih2 => exact hdone _ ih2 _ he
    | some node =>
      simp only
      obtain ⟨hcl, hnode⟩ := List.getElem?_eq_some_iff.mp hn
      obtain ⟨N, h1, h2, h3, h4⟩ := visit_fold (links g node) (labelled, [])
      change (scan g (labelled, []) node).2 = _ at h1
      change ∀ w, (scan g (labelled, []) node).1 w = _ at h4
      rw [List.nil_append] at h1
      rw [h1]
      simp only at h3 h4
      have hmemS : ∀ w, w ∈ srt N ↔ w ∈ N := fun w => (hsrt N).mem_iff
      have hm : ∀ w, w ∈ rv ++ srt N ↔ w ∈ rv ∨ Edge g node w := by
        intro w
        have := hT.iff w
        simp only at this
        rw [List.mem_append, hmemS, h3, ← this]
        unfold Edge
        cases labelled w <;> simp
      have hT' : Tracks ((scan g (labelled, []) node).1, rv ++ srt N) := by
        refine ⟨?_, ?_⟩
        · intro w
          simp only
          have := hT.iff w
          simp only at this
          rw [h4, hm, Bool.or_eq_true, this, decide_eq_true_eq]; rfl
        · rw [List.nodup_append]
          refine ⟨hT.nodup, (hsrt N).nodup_iff.mpr h2, ?_⟩
          rintro x hx y hy rfl
          have h5 := ((h3 x).mp ((hmemS x).mp hy)).2
          have := (hT.iff x).mpr hx
          simp only at this
          rw [this] at h5; cases h5
      have hnr : Reach g v node := (hr node (List.mem_of_getElem? hn)).1
      have hr' : ∀ w ∈ rv ++ srt N, Reach g v w ∧ w < g.length := by
        intro w hw
        rcases (hm w).mp hw with h | h
        · exact hr w h
        · exact ⟨ReflTransGen.tail hnr h, hg _ _ h⟩
      refine ih _ _ (cur + 1) hT' hr' (by simp [hv]) (by rw [List.length_append]; omega) ?_ (by omega)
        (length_le g.length _ hT'.nodup (fun x hx => (hr' x hx).2))
      intro a ha b hab
      rw [List.take_append_of_le_length (by omega), List.take_succ_eq_append_getElem hcl, List.mem_append] at ha
      rw [hm]
      rcases ha with ha | ha
      · exact Or.inl (hdone a ha b hab)
      · simp at ha; subst ha; rw [hnode] at hab; exact Or.inr hab

theorem pickNode_spec (g : Graph) (r : List Int) (h : ∃ i, i < g.length ∧ r.getD i 0 = -1) :
    pickNode g r < g.length ∧ r.getD (pickNode g r) 0 = -1 := by
  have key : ∀ n ≤ g.length,
      let s := (List.range n).foldl (fun (s : Nat × Option Nat) i =>
        if r.getD i 0 = -1 ∧ below (degree g i) s.2 = true
        then (i, some (degree g i)) else s) (0, none)
      (s.2 = none → ∀ i, i < n → r.getD i 0 ≠ -1) ∧ (s.2 ≠ none → s.1 < g.length ∧ r.getD s.1 0 = -1) := by
    intro n
    induction n with
    | zero => intro _; simp
    | succ n ih =>
      intro hn
      obtain ⟨i1, i2⟩ := ih (by omega)
      rw [List.range_succ, List.foldl_append]
      simp only [List.foldl_cons, List.foldl_nil]
      set s := (List.range n).foldl (fun (s : Nat × Option Nat) i =>
        if r.getD i 0 = -1 ∧ below (degree g i) s.2 = true
        then (i, some (degree g i)) else s) (0, none) with hs
      split
      · rename_i hc
        exact ⟨by simp, fun _ => ⟨by simp only; omega, hc.1⟩⟩
      · rename_i hc
        refine ⟨?_, i2⟩
        intro hnone i hi
        rcases Nat.lt_or_ge i n with h' | h'
        · exact i1 hnone i h'
        · have : i = n := by omega
          subst this
          intro hr
          apply hc
          refine ⟨hr, ?_⟩
          rw [hnone]
          rfl
  obtain ⟨k1, k2⟩ := key g.length (le_refl _)
  obtain ⟨i, hi, hr⟩ := h
  exact k2 (fun hn => k1 hn i hi hr)

theorem rcmUnlabelled_spec (g : Graph) (hg : InBounds g) (srt : List Nat → List Nat) (hsrt : ∀ l, (srt l).Perm l)
    (r : List Int) (h : ∃ i, i < g.length ∧ r.getD i 0 = -1) :
    ∃ v0 v rv, v0 < g.length ∧ r.getD v0 0 = -1 ∧ Reach g v0 v ∧ rcmUnlabelled g srt r = some rv ∧ rv.Nodup ∧
      ∀ w, w ∈ rv ↔ Reach g v w := by
  obtain ⟨p1, p2⟩ := pickNode_spec g r h
  obtain ⟨lv, l1, l2⟩ := levelStructure_spec g hg _ p1
  obtain ⟨v, v1, v2⟩ := rootLoop_spec g hg _ p1 (g.length + 1) _ lv ReflTransGen.refl l2 (by omega)
  have hvl := reach_lt g hg p1 v2
  obtain ⟨out, b1, b2, b3⟩ := bfs_spec g hg srt hsrt v (g.length + 1) (fun x => decide (x = v)) [v] 0
    ⟨by intro w; simp, by simp⟩ (by intro w hw; simp at hw; subst hw; exact ⟨ReflTransGen.refl, hvl⟩) (by simp)
    (by simp) (by simp) (by omega)
  refine ⟨_, v, out.reverse, p1, p2, v2, ?_, List.nodup_reverse.mpr b2, by simp [b3]⟩
  simp [rcmUnlabelled, l1, v1, b1]

theorem label_fold (rv : List Nat) (s : List Int × Nat) :
    (rv.foldl label s).1.length = s.1.length ∧ (rv.foldl label s).2 = s.2 + rv.length ∧
    (rv.Nodup → (∀ q ∈ rv, q < s.1.length) →
      (∀ q, q ∉ rv → (rv.foldl label s).1[q]? = s.1[q]?) ∧
      ∀ (k q : Nat), rv[k]? = some q → (rv.foldl label s).1[q]? = some ((s.2 + k : Nat) : Int)) := by
  induction rv generalizing s with
  | nil => simp
  | cons a rv ih =>
    rw [List.foldl_cons]
    obtain ⟨h1, h2, h3⟩ := ih (label s a)
    refine ⟨by rw [h1]; simp [label], by rw [h2]; simp [label]; omega, ?_⟩
    intro hn hb
    rw [List.nodup_cons] at hn
    obtain ⟨g1, g2⟩ := h3 hn.2 (by intro q hq; simp [label]; exact hb q (by simp [hq]))
    constructor
    · intro q hq
      rw [List.mem_cons, not_or] at hq
      rw [g1 q hq.2]
      simp only [label]
      rw [List.getElem?_set_ne (fun h => hq.1 h.symm)]
    · intro k q hk
      cases k with
      | zero =>
        simp only [List.getElem?_cons_zero, Option.some.injEq] at hk
        subst hk
        rw [g1 _ hn.1]
        simp only [label, Nat.add_zero]
        rw [List.getElem?_set_self (hb _ (by simp))]
      | succ k =>
        simp only [List.getElem?_cons_succ] at hk
        rw [g2 k q hk]
        simp only [label]
        congr 2; omega

/-- State of the outer loop: `order` lists the nodes numbered so far. -/
structure Numbered (g : Graph) (s : List Int × Nat) (order : List Nat) : Prop where
  len : s.1.length = g.length
  count : s.2 = order.length
  nodup : order.Nodup
  bound : ∀ q ∈ order, q < g.length
  val : ∀ (k q : Nat), order[k]? = some q → s.1[q]? = some (k : Int)
  rest : ∀ q, q < g.length → q ∉ order → s.1[q]? = some (-1)
  closed : ∀ a b, a ∈ order → Edge g a b → b ∈ order

theorem rcmLoop_spec (g : Graph) (hg : InBounds g) (hsym : ∀ a b, Edge g a b → Edge g b a)
    (srt : List Nat → List Nat) (hsrt : ∀ l, (srt l).Perm l) (fuel : Nat) (s : List Int × Nat) (order : List Nat)
    (h : Numbered g s order) (hf : g.length + 1 ≤ fuel + order.length) :
    ∃ r order', rcmLoop g srt fuel s = some r ∧ Numbered g (r, g.length) order' := by
  have hln := length_le g.length order h.nodup h.bound
  induction fuel generalizing s order with
  | zero => omega
  | succ fuel ih =>
    unfold rcmLoop
    split
    · rename_i hlt
      have hex : ∃ i, i < g.length ∧ i ∉ order := by
        by_contra hcon
        push Not at hcon
        have hsub := List.subperm_of_subset (List.nodup_range (n := g.length)) (l₂ := order)
          (fun x hx => hcon x (List.mem_range.mp hx))
        have := hsub.length_le
        rw [List.length_range] at this
        have := h.count
        omega
      obtain ⟨i, hi, hio⟩ := hex
      obtain ⟨v0, v, rv, hv0, hr0, hreach, hrv, hnd, hmem⟩ := rcmUnlabelled_spec g hg srt hsrt s.1
        ⟨i, hi, by rw [List.getD_eq_getElem?_getD, h.rest i hi hio]; rfl⟩
      rw [hrv]
      simp only
      have hv0o : v0 ∉ order := by
        intro hm
        obtain ⟨k, hk⟩ := List.getElem?_of_mem hm
        rw [List.getD_eq_getElem?_getD, h.val k v0 hk] at hr0
        simp at hr0
      -- reachable in a symmetric graph is symmetric
      have hsymR : ∀ a b, Reach g a b → Reach g b a := by
        intro a b hab
        induction hab with
        | refl => exact ReflTransGen.refl
        | tail _ he ih2 => exact ReflTransGen.head (hsym _ _ he) ih2
      have hdisj : ∀ q ∈ rv, q ∉ order := by
        intro q hq hqo
        have hq1 : Reach g q v0 := ReflTransGen.trans (hsymR _ _ ((hmem q).mp hq)) (hsymR _ _ hreach)
        have hcl : ∀ b, Reach g q b → b ∈ order := by
          intro b hb
          induction hb with
          | refl => exact hqo
          | tail _ he ih2 => exact h.closed _ _ ih2 he
        exact hv0o (hcl v0 hq1)
      have hbv : ∀ q ∈ rv, q < g.length := fun q hq =>
        reach_lt g hg (reach_lt g hg hv0 hreach) ((hmem q).mp hq)
      obtain ⟨f1, f2, f3⟩ := label_fold rv s
      obtain ⟨f3, f4⟩ := f3 hnd (fun q hq => by rw [h.len]; exact hbv q hq)
      have hnd' : (order ++ rv).Nodup := by
        rw [List.nodup_append]
        refine ⟨h.nodup, hnd, ?_⟩
        rintro x hx y hy rfl
        exact hdisj x hy hx
      have hb' : ∀ q ∈ order ++ rv, q < g.length := by
        intro q hq
        rcases List.mem_append.mp hq with h' | h'
        · exact h.bound q h'
        · exact hbv q h'
      have hpos : 1 ≤ rv.length := by
        have : v ∈ rv := (hmem v).mpr ReflTransGen.refl
        exact List.length_pos_of_mem this
      refine ih (rv.foldl label s) (order ++ rv) ⟨by rw [f1, h.len], by rw [f2, h.count]; simp, hnd', hb', ?_, ?_, ?_⟩
        (by rw [List.length_append]; omega) (length_le _ _ hnd' hb')
      · intro k q hk
        rw [List.getElem?_append] at hk
        split at hk
        · rw [f3 q (fun hq => hdisj q hq (List.mem_of_getElem? hk)), h.val k q hk]
        · rw [f4 _ q hk]
          congr 2
          have := h.count
          omega
      · intro q hq hqn
        rw [List.mem_append, not_or] at hqn
        rw [f3 q hqn.2, h.rest q hq hqn.1]
      · intro a b ha hab
        rw [List.mem_append] at ha ⊢
        rcases ha with ha | ha
        · exact Or.inl (h.closed a b ha hab)
        · exact Or.inr ((hmem b).mpr (ReflTransGen.tail ((hmem a).mp ha) hab))
    · rename_i hge
      have hc := h.count
      refine ⟨s.1, order, rfl, ⟨h.len, by simp only; omega, h.nodup, h.bound, h.val, h.rest, h.closed⟩⟩

end Verif.Rcm
