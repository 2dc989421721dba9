import Verif.Prelude
import Verif.Spec.BBTree
/-! Bounding box trees: representation invariant and the searches. -/
namespace Verif.BB
open Verif.Spec.BB

section build
variable {K : Type}

/-- Node `i` of the arrays is the root of a tree with leaves `l`; `P b x`: what inner boxes satisfy for leaf boxes. -/
inductive Rep (t : Tree K) (P : Box K → Box K → Prop) : Nat → List (Box K × Nat) → Prop
  | leaf (i : Nat) (b : Box K) (e : Nat) (hn : t.nodes[i]? = some (e, e)) (hb : t.boxes[i]? = some b) : Rep t P i [(b, e)]
  | node (i a c : Nat) (b : Box K) (l1 l2 : List (Box K × Nat)) (hn : t.nodes[i]? = some (a, c)) (hb : t.boxes[i]? = some b)
      (hne : a ≠ c) (ha : a < i) (hc : c < i) (h1 : Rep t P a l1) (h2 : Rep t P c l2)
      (hP : ∀ x ∈ l1 ++ l2, P b x.1) : Rep t P i (l1 ++ l2)

theorem Rep.ne_nil {t : Tree K} {P : Box K → Box K → Prop} {i : Nat} {l : List (Box K × Nat)} (h : Rep t P i l) : l ≠ [] := by
  induction h with
  | leaf => simp
  | node _ _ _ _ _ _ _ _ _ _ _ _ _ _ ih1 _ => intro h; exact ih1 (List.append_eq_nil_iff.mp h).1

theorem Rep.box {t : Tree K} {P : Box K → Box K → Prop} (hrefl : ∀ b, P b b) {i : Nat} {l : List (Box K × Nat)} (h : Rep t P i l) :
    ∃ b, t.boxes[i]? = some b ∧ ∀ x ∈ l, P b x.1 := by
  cases h with
  | leaf _ b e hn hb => exact ⟨b, hb, by simp [hrefl]⟩
  | node _ a c b l1 l2 hn hb hne ha hc h1 h2 hP => exact ⟨b, hb, hP⟩

theorem Rep.extend {t t' : Tree K} {P : Box K → Box K → Prop} (hn : t.nodes <+: t'.nodes) (hb : t.boxes <+: t'.boxes)
    {i : Nat} {l : List (Box K × Nat)} (h : Rep t P i l) : Rep t' P i l := by
  have key : ∀ {α : Type} {u v : List α} (hp : u <+: v) {j : Nat} {x : α}, u[j]? = some x → v[j]? = some x := by
    intro α u v hp j x hx
    obtain ⟨w, rfl⟩ := hp
    rw [List.getElem?_append_left (List.getElem?_eq_some_iff.mp hx).1]; exact hx
  induction h with
  | leaf i b e h1 h2 => exact .leaf i b e (key hn h1) (key hb h2)
  | node i a c b l1 l2 h1 h2 hne ha hc _ _ hP ih1 ih2 => exact .node i a c b l1 l2 (key hn h1) (key hb h2) hne ha hc ih1 ih2 hP

/-- The common shape of `build` and `buildPoints`. -/
def buildG {α : Type} (nth : List α → List α) (leaf : α → Box K × Nat) (top : α → List α → Box K) :
    Nat → List α → Tree K → Option (Nat × Tree K)
  | 0, _, _ => none
  | _ + 1, [], _ => none
  | _ + 1, [x], t => some (t.nodes.length, t.push ((leaf x).2, (leaf x).2) (leaf x).1)
  | f + 1, x :: y :: l, t =>
    (buildG nth leaf top f ((nth (x :: y :: l)).take ((nth (x :: y :: l)).length / 2)) t).bind fun r0 =>
    (buildG nth leaf top f ((nth (x :: y :: l)).drop ((nth (x :: y :: l)).length / 2)) r0.2).bind fun r1 =>
      some (r1.2.nodes.length, r1.2.push (r0.1, r1.1) (top x (y :: l)))

theorem build_eq [LinearOrder K] (nth : List (Box K × Nat) → List (Box K × Nat)) (f : Nat) (l : List (Box K × Nat)) (t : Tree K) :
    build nth f l t = buildG nth id (fun x l => hull x.1 (x :: l)) f l t := by
  induction f generalizing l t with
  | zero => rfl
  | succ f ih =>
    rcases l with _ | ⟨x, _ | ⟨y, l⟩⟩
    · rfl
    · rfl
    · simp only [build, buildG, ih]

theorem buildPoints_eq [LinearOrder K] (nth : List ((Nat → K) × Nat) → List ((Nat → K) × Nat)) (f : Nat)
    (l : List ((Nat → K) × Nat)) (t : Tree K) :
    buildPoints nth f l t = buildG nth (fun x => (⟨x.1, x.1⟩, x.2)) (fun x l => ⟨(minElement x l).1, (maxElement x l).1⟩) f l t := by
  induction f generalizing l t with
  | zero => rfl
  | succ f ih =>
    rcases l with _ | ⟨x, _ | ⟨y, l⟩⟩
    · rfl
    · rfl
    · simp only [buildPoints, buildG, ih]

theorem push_nodes (t : Tree K) (c : Nat × Nat) (b : Box K) : t.nodes <+: (t.push c b).nodes ∧ t.boxes <+: (t.push c b).boxes :=
  ⟨List.prefix_append _ _, List.prefix_append _ _⟩

theorem buildG_spec {α : Type} (nth : List α → List α) (hnth : ∀ l, (nth l).Perm l) (leaf : α → Box K × Nat)
    (top : α → List α → Box K) (P : Box K → Box K → Prop) (htop : ∀ x l, ∀ y ∈ x :: l, P (top x l) (leaf y).1)
    (f : Nat) (l : List α) (t : Tree K) (hne : l ≠ []) (hf : l.length ≤ f) (ht : t.nodes.length = t.boxes.length) :
    ∃ i t', buildG nth leaf top f l t = some (i, t') ∧ t.nodes <+: t'.nodes ∧ t.boxes <+: t'.boxes ∧
      t'.nodes.length = i + 1 ∧ t'.nodes.length = t'.boxes.length ∧ t'.nodes.length + 1 = t.nodes.length + 2 * l.length ∧
      (∃ x ∈ l, t'.nodes[t.nodes.length]? = some ((leaf x).2, (leaf x).2) ∧ t'.boxes[t.nodes.length]? = some (leaf x).1) ∧
      ∃ l', l'.Perm (l.map leaf) ∧ Rep t' P i l' := by
  induction f generalizing l t with
  | zero => exact absurd (List.eq_nil_of_length_eq_zero (Nat.le_zero.mp hf)) hne
  | succ f ih =>
    rcases l with _ | ⟨x, _ | ⟨y, l⟩⟩
    · exact absurd rfl hne
    · refine ⟨_, _, rfl, (push_nodes t _ _).1, (push_nodes t _ _).2, by simp [Tree.push], by simp [Tree.push, ht],
        by simp [Tree.push], ⟨x, by simp, ?_, ?_⟩, [leaf x], by simp, ?_⟩
      · simp [Tree.push]
      · simp [Tree.push, ht]
      · exact .leaf _ (leaf x).1 (leaf x).2 (by simp [Tree.push]) (by simp [Tree.push, ht])
    · have hp := hnth (x :: y :: l)
      have hlen := hp.length_eq
      have hlen2 : (nth (x :: y :: l)).length = l.length + 2 := by rw [hlen]; rfl
      generalize hm : nth (x :: y :: l) = m at hp hlen hlen2
      have hf' : l.length + 2 ≤ f + 1 := hf
      obtain ⟨i0, t0, e0, n0, b0, k0, q0, s0, f0, l0, p0, r0⟩ := ih (m.take (m.length / 2)) t
        (by intro h; have := congrArg List.length h; rw [List.length_take, List.length_nil] at this; omega) (by rw [List.length_take]; omega) ht
      obtain ⟨i1, t1, e1, n1, b1, k1, q1, s1, f1, l1, p1, r1⟩ := ih (m.drop (m.length / 2)) t0
        (by intro h; have := congrArg List.length h; rw [List.length_drop, List.length_nil] at this; omega) (by rw [List.length_drop]; omega) q0
      have hl0 : (m.take (m.length / 2)).length = m.length / 2 := by simp; omega
      have hl1 : (m.drop (m.length / 2)).length = m.length - m.length / 2 := by simp
      rw [hl0] at s0; rw [hl1] at s1
      have hperm : (l0 ++ l1).Perm ((x :: y :: l).map leaf) := by
        refine (p0.append p1).trans ?_
        rw [← List.map_append, List.take_append_drop]
        exact hp.map leaf
      refine ⟨t1.nodes.length, t1.push (i0, i1) (top x (y :: l)), ?_, n0.trans (n1.trans (push_nodes _ _ _).1),
        b0.trans (b1.trans (push_nodes _ _ _).2), by simp [Tree.push], by simp [Tree.push, q1], ?_, ?_, l0 ++ l1, hperm, ?_⟩
      · simp only [buildG, hm, e0, e1, Option.bind_some]
      · simp only [Tree.push, List.length_append, List.length_cons, List.length_nil]
        omega
      · obtain ⟨z, hz, hz1, hz2⟩ := f0
        have hzm : z ∈ x :: y :: l := by rw [← hp.mem_iff]; exact List.mem_of_mem_take hz
        refine ⟨z, hzm, ?_, ?_⟩
        · obtain ⟨u, hu⟩ := n1.trans (push_nodes t1 (i0, i1) (top x (y :: l))).1
          rw [← hu, List.getElem?_append_left (by omega)]; exact hz1
        · obtain ⟨u, hu⟩ := b1.trans (push_nodes t1 (i0, i1) (top x (y :: l))).2
          rw [← hu, List.getElem?_append_left (by omega)]; exact hz2
      · refine .node _ i0 i1 (top x (y :: l)) l0 l1 (by simp [Tree.push]) (by simp [Tree.push, q1]) ?_ ?_ ?_ ?_ ?_ ?_
        · omega
        · omega
        · omega
        · exact r0.extend (n1.trans (push_nodes _ _ _).1) (b1.trans (push_nodes _ _ _).2)
        · exact r1.extend (push_nodes _ _ _).1 (push_nodes _ _ _).2
        · intro z hz
          obtain ⟨w, hw, rfl⟩ := List.mem_map.mp (hperm.mem_iff.mp hz)
          exact htop x (y :: l) w hw

end build

section order
variable {K : Type} [LinearOrder K]

theorem hull_fold (b : Box K) (l : List (Box K × Nat)) (j : Nat) : (hull b l).lo j ≤ b.lo j ∧ b.hi j ≤ (hull b l).hi j := by
  unfold hull
  induction l generalizing b with
  | nil => exact ⟨le_refl _, le_refl _⟩
  | cons x l ih =>
    rw [List.foldl_cons]
    have := ih (⟨fun j => min (x.1.lo j) (b.lo j), fun j => max (x.1.hi j) (b.hi j)⟩ : Box K)
    exact ⟨this.1.trans (min_le_right _ _), (le_max_right _ _).trans this.2⟩

theorem hull_inside (b : Box K) (l : List (Box K × Nat)) (x : Box K × Nat) (hx : x ∈ l) : Inside (hull b l) x.1 := by
  intro j _
  unfold hull
  induction l generalizing b with
  | nil => cases hx
  | cons y l ih =>
    rw [List.foldl_cons]
    rcases List.mem_cons.mp hx with rfl | hx
    · have := hull_fold (⟨fun j => min (x.1.lo j) (b.lo j), fun j => max (x.1.hi j) (b.hi j)⟩ : Box K) l j
      unfold hull at this
      exact ⟨this.1.trans (min_le_left _ _), (le_max_left _ _).trans this.2⟩
    · exact ih _ hx

theorem pointIn_iff (F : Fl K) (b : Box K) (p : Nat → K) : pointIn F b p = true ↔ Near F b p := by
  simp [pointIn, Near, List.all_eq_true]

theorem boxIn_iff (F : Fl K) (a b : Box K) : boxIn F a b = true ↔ Overlap F a b := by
  simp [boxIn, Overlap, List.all_eq_true]

theorem widen_mono {F : Fl K} (hF : Mono F) {a b c d : K} (h1 : a ≤ c) (h2 : d ≤ b) :
    F.sub a (F.mul F.rtol (F.sub b a)) ≤ F.sub c (F.mul F.rtol (F.sub d c)) ∧
    F.add d (F.mul F.rtol (F.sub d c)) ≤ F.add b (F.mul F.rtol (F.sub b a)) := by
  have h3 : F.mul F.rtol (F.sub d c) ≤ F.mul F.rtol (F.sub b a) := hF.mul _ _ (hF.sub _ _ _ _ h2 h1)
  exact ⟨hF.sub _ _ _ _ h1 h3, hF.add _ _ _ _ h2 h3⟩

theorem near_mono {F : Fl K} (hF : Mono F) {b x : Box K} (h : Inside b x) (p : Nat → K) (hp : Near F x p) : Near F b p := by
  intro j hj
  have := widen_mono hF (h j hj).1 (h j hj).2
  exact ⟨this.1.trans (hp j hj).1, (hp j hj).2.trans this.2⟩

theorem overlap_mono {F : Fl K} (hF : Mono F) {a b x y : Box K} (ha : Inside a x) (hb : Inside b y) (h : Overlap F x y) :
    Overlap F a b := by
  intro j hj
  have := widen_mono hF (hb j hj).1 (hb j hj).2
  exact ⟨(this.1.trans (h j hj).1).trans (ha j hj).2, ((ha j hj).1.trans (h j hj).2).trans this.2⟩

theorem inside_refl (b : Box K) : Inside b b := fun _ _ => ⟨le_refl _, le_refl _⟩

/-- The leaves hit by a point. -/
def hits (F : Fl K) (p : Nat → K) (l : List (Box K × Nat)) : List Nat :=
  (l.filter fun x => pointIn F x.1 p).map (·.2)

theorem hits_append (F : Fl K) (p : Nat → K) (l l' : List (Box K × Nat)) : hits F p (l ++ l') = hits F p l ++ hits F p l' := by
  simp [hits]

theorem hits_nil {F : Fl K} (hF : Mono F) (p : Nat → K) {b : Box K} (hb : ¬ pointIn F b p = true) (l : List (Box K × Nat))
    (h : ∀ x ∈ l, Inside b x.1) : hits F p l = [] := by
  unfold hits
  rw [List.map_eq_nil_iff, List.filter_eq_nil_iff]
  intro x hx hp
  exact hb ((pointIn_iff F b p).mpr (near_mono hF (h x hx) p ((pointIn_iff F x.1 p).mp hp)))

/-- Continue with the top of the stack. -/
def contPoint (F : Fl K) (t : Tree K) (p : Nat → K) (f : Nat) (stack out : List Nat) : Option (List Nat) :=
  pointLoop F t p f stack.head? stack.tail out

theorem pointLoop_rep {F : Fl K} (hF : Mono F) (t : Tree K) (p : Nat → K) {i : Nat} {l : List (Box K × Nat)} (h : Rep t Inside i l)
    (hok : 2 ≤ l.length ∨ ∀ b, t.boxes[i]? = some b → pointIn F b p = true) :
    ∃ n, n + 1 ≤ 2 * l.length ∧ ∀ f stack out, pointLoop F t p (n + f) (some i) stack out = contPoint F t p f stack (out ++ hits F p l) := by
  induction h with
  | leaf i b e hn hb =>
    have hin : pointIn F b p = true := by
      rcases hok with h | h
      · simp at h
      · exact h b hb
    refine ⟨1, by simp, ?_⟩
    intro f stack out
    rw [Nat.add_comm, pointLoop, hn, hb]
    simp only [Option.bind_some, true_and, hin, if_true]
    have : hits F p [(b, e)] = [e] := by simp [hits, hin]
    rw [this]
    rfl
  | node i a c b l1 l2 hn hb hne ha hc h1 h2 hP ih1 ih2 =>
    obtain ⟨ba, hba, hia⟩ := h1.box inside_refl
    obtain ⟨bc, hbc, hic⟩ := h2.box inside_refl
    have hl1 : 0 < l1.length := List.length_pos_iff.mpr h1.ne_nil
    have hl2 : 0 < l2.length := List.length_pos_iff.mpr h2.ne_nil
    have step : ∀ f stack out, pointLoop F t p (f + 1) (some i) stack out =
        if pointIn F ba p = true then
          pointLoop F t p f (some a) (if pointIn F bc p = true then c :: stack else stack) out
        else if pointIn F bc p = true then pointLoop F t p f (some c) stack out
        else contPoint F t p f stack out := by
      intro f stack out
      rw [pointLoop, hn, hb]
      simp only [Option.bind_some, hne, false_and, if_false, hba, hbc]
      rfl
    rw [hits_append]
    by_cases hA : pointIn F ba p = true
    · obtain ⟨n1, hn1, e1⟩ := ih1 (Or.inr fun b' hb' => by rw [hba] at hb'; cases hb'; exact hA)
      by_cases hC : pointIn F bc p = true
      · obtain ⟨n2, hn2, e2⟩ := ih2 (Or.inr fun b' hb' => by rw [hbc] at hb'; cases hb'; exact hC)
        refine ⟨n1 + n2 + 1, by rw [List.length_append]; omega, ?_⟩
        intro f stack out
        have : n1 + n2 + 1 + f = (n1 + (n2 + f)) + 1 := by omega
        rw [this, step, if_pos hA, if_pos hC, e1]
        change pointLoop F t p (n2 + f) (some c) stack _ = _
        rw [e2, List.append_assoc]
      · refine ⟨n1 + 1, by rw [List.length_append]; omega, ?_⟩
        intro f stack out
        have : n1 + 1 + f = (n1 + f) + 1 := by omega
        rw [this, step, if_pos hA, if_neg hC, e1, hits_nil hF p hC l2 hic, List.append_nil]
    · by_cases hC : pointIn F bc p = true
      · obtain ⟨n2, hn2, e2⟩ := ih2 (Or.inr fun b' hb' => by rw [hbc] at hb'; cases hb'; exact hC)
        refine ⟨n2 + 1, by rw [List.length_append]; omega, ?_⟩
        intro f stack out
        have : n2 + 1 + f = (n2 + f) + 1 := by omega
        rw [this, step, if_neg hA, if_pos hC, e2, hits_nil hF p hA l1 hia, List.nil_append]
      · refine ⟨1, by rw [List.length_append]; omega, ?_⟩
        intro f stack out
        rw [Nat.add_comm, step, if_neg hA, if_neg hC, hits_nil hF p hA l1 hia, hits_nil hF p hC l2 hic]
        simp

/-- The pairs of overlapping leaves. -/
def pairs (F : Fl K) (la lb : List (Box K × Nat)) : List (Nat × Nat) :=
  la.flatMap fun x => (lb.filter fun y => boxIn F x.1 y.1).map fun y => (x.2, y.2)

theorem pairs_append_left (F : Fl K) (l l' lb : List (Box K × Nat)) : pairs F (l ++ l') lb = pairs F l lb ++ pairs F l' lb := by
  simp [pairs]

theorem pairs_append_right (F : Fl K) (la l l' : List (Box K × Nat)) :
    (pairs F la l ++ pairs F la l').Perm (pairs F la (l ++ l')) := by
  unfold pairs
  refine (List.flatMap_append_perm la _ _).trans (List.Perm.of_eq ?_)
  simp

theorem pairs_nil {F : Fl K} (hF : Mono F) {a b : Box K} (h : ¬ boxIn F a b = true) (la lb : List (Box K × Nat))
    (ha : ∀ x ∈ la, Inside a x.1) (hb : ∀ x ∈ lb, Inside b x.1) : pairs F la lb = [] := by
  unfold pairs
  rw [List.flatMap_eq_nil_iff]
  intro x hx
  rw [List.map_eq_nil_iff, List.filter_eq_nil_iff]
  intro y hy hxy
  exact h ((boxIn_iff F a b).mpr (overlap_mono hF (ha x hx) (hb y hy) ((boxIn_iff F x.1 y.1).mp hxy)))

theorem treeRec_rep {F : Fl K} (hF : Mono F) (A B : Tree K) (f a b : Nat) (la lb : List (Box K × Nat)) (ha : Rep A Inside a la)
    (hb : Rep B Inside b lb) (hf : a + b + 1 ≤ f) : ∃ r, treeRec F A B f a b = some r ∧ r.Perm (pairs F la lb) := by
  induction f generalizing a b la lb with
  | zero => omega
  | succ f ih =>
    obtain ⟨ba, hba, hia⟩ := ha.box inside_refl
    obtain ⟨bb, hbb, hib⟩ := hb.box inside_refl
    rw [treeRec, hba, hbb]
    simp only [Option.bind_some]
    by_cases hin : boxIn F ba bb = true
    · rw [if_pos hin]
      have hA : ∀ a1 a2 l1 l2, Rep A Inside a1 l1 → Rep A Inside a2 l2 → a1 < a → a2 < a →
          ∃ r, ((treeRec F A B f a1 b).bind fun l0 => (treeRec F A B f a2 b).bind fun l1 => some (l0 ++ l1)) = some r ∧
            r.Perm (pairs F (l1 ++ l2) lb) := by
        intro a1 a2 l1 l2 h1 h2 hlt1 hlt2
        obtain ⟨r1, e1, p1⟩ := ih a1 b l1 lb h1 hb (by omega)
        obtain ⟨r2, e2, p2⟩ := ih a2 b l2 lb h2 hb (by omega)
        exact ⟨r1 ++ r2, by rw [e1, e2]; rfl, by rw [pairs_append_left]; exact p1.append p2⟩
      have hB : ∀ b1 b2 l1 l2, Rep B Inside b1 l1 → Rep B Inside b2 l2 → b1 < b → b2 < b →
          ∃ r, ((treeRec F A B f a b1).bind fun l0 => (treeRec F A B f a b2).bind fun l1 => some (l0 ++ l1)) = some r ∧
            r.Perm (pairs F la (l1 ++ l2)) := by
        intro b1 b2 l1 l2 h1 h2 hlt1 hlt2
        obtain ⟨r1, e1, p1⟩ := ih a b1 la l1 ha h1 (by omega)
        obtain ⟨r2, e2, p2⟩ := ih a b2 la l2 ha h2 (by omega)
        exact ⟨r1 ++ r2, by rw [e1, e2]; rfl, (p1.append p2).trans (pairs_append_right F la l1 l2)⟩
      cases ha with
      | leaf _ b' e hn hb' =>
        rw [hba] at hb'; cases hb'
        cases hb with
        | leaf _ c' e' hn' hc' =>
          rw [hbb] at hc'; cases hc'
          rw [hn, hn']
          exact ⟨[(e, e')], by simp, by simp [pairs, hin]⟩
        | node _ x y c' l1 l2 hn' hc' hne hx hy h1 h2 hP =>
          rw [hn, hn']
          simp only [Option.bind_some, hne, and_false, if_false, if_true]
          exact hB x y l1 l2 h1 h2 hx hy
      | node _ x y b' l1 l2 hn hb' hne hx hy h1 h2 hP =>
        cases hb with
        | leaf _ c' e' hn' hc' =>
          rw [hn, hn']
          simp only [Option.bind_some, hne, false_and, if_false, if_true]
          exact hA x y l1 l2 h1 h2 hx hy
        | node _ x' y' c' l1' l2' hn' hc' hne' hx' hy' h1' h2' hP' =>
          rw [hn, hn']
          simp only [Option.bind_some, hne, hne', false_and, if_false]
          split
          · exact hA x y l1 l2 h1 h2 hx hy
          · exact hB x' y' l1' l2' h1' h2' hx' hy'
    · rw [if_neg hin]
      exact ⟨[], rfl, by rw [pairs_nil hF hin la lb hia hib]⟩

end order

section ring
variable {K : Type} [LinearOrder K] [CommRing K] [IsStrictOrderedRing K]

theorem lo_part_mono (x a b : K) (h : a ≤ b) :
    (if 0 < x - a then 0 else (x - a) * (x - a)) ≤ (if 0 < x - b then 0 else (x - b) * (x - b)) := by
  by_cases h1 : 0 < x - a <;> by_cases h2 : 0 < x - b
  · simp [h1, h2]
  · rw [if_pos h1, if_neg h2]; exact mul_self_nonneg _
  · exact absurd (by linarith) h1
  · rw [if_neg h1, if_neg h2]; nlinarith

theorem hi_part_mono (x a b : K) (h : b ≤ a) :
    (if x - a < 0 then 0 else (x - a) * (x - a)) ≤ (if x - b < 0 then 0 else (x - b) * (x - b)) := by
  by_cases h1 : x - a < 0 <;> by_cases h2 : x - b < 0
  · simp [h1, h2]
  · rw [if_pos h1, if_neg h2]; exact mul_self_nonneg _
  · exact absurd (by linarith) h1
  · rw [if_neg h1, if_neg h2]; nlinarith

omit [IsStrictOrderedRing K] in
theorem sqDistBox_eq (b : Box K) (x : Nat → K) : sqDistBox b x =
    ((if 0 < x 0 - b.lo 0 then 0 else (x 0 - b.lo 0) * (x 0 - b.lo 0)) +
      ((if 0 < x 1 - b.lo 1 then 0 else (x 1 - b.lo 1) * (x 1 - b.lo 1)) +
        ((if 0 < x 2 - b.lo 2 then 0 else (x 2 - b.lo 2) * (x 2 - b.lo 2)) + 0))) +
    ((if x 0 - b.hi 0 < 0 then 0 else (x 0 - b.hi 0) * (x 0 - b.hi 0)) +
      ((if x 1 - b.hi 1 < 0 then 0 else (x 1 - b.hi 1) * (x 1 - b.hi 1)) +
        ((if x 2 - b.hi 2 < 0 then 0 else (x 2 - b.hi 2) * (x 2 - b.hi 2)) + 0))) := rfl

theorem sqDistBox_mono {b y : Box K} (h : Inside b y) (x : Nat → K) : sqDistBox b x ≤ sqDistBox y x := by
  rw [sqDistBox_eq, sqDistBox_eq]
  have l0 := lo_part_mono (x 0) _ _ (h 0 (by omega)).1
  have l1 := lo_part_mono (x 1) _ _ (h 1 (by omega)).1
  have l2 := lo_part_mono (x 2) _ _ (h 2 (by omega)).1
  have h0 := hi_part_mono (x 0) _ _ (h 0 (by omega)).2
  have h1 := hi_part_mono (x 1) _ _ (h 1 (by omega)).2
  have h2 := hi_part_mono (x 2) _ _ (h 2 (by omega)).2
  linarith

/-- The distance to the box is a lower bound for the distance to all its points. -/
theorem sqDistBox_le (b : Box K) (x y : Nat → K) (hy : In b y) : sqDistBox b x ≤ sqDist x y := by
  have part : ∀ j, j < 3 → (if 0 < x j - b.lo j then 0 else (x j - b.lo j) * (x j - b.lo j)) +
      (if x j - b.hi j < 0 then 0 else (x j - b.hi j) * (x j - b.hi j)) ≤ (y j - x j) * (y j - x j) := by
    intro j hj
    obtain ⟨h1, h2⟩ := hy j hj
    by_cases c1 : 0 < x j - b.lo j <;> by_cases c2 : x j - b.hi j < 0
    · rw [if_pos c1, if_pos c2]; linarith [mul_self_nonneg (y j - x j)]
    · rw [if_pos c1, if_neg c2]; nlinarith
    · rw [if_neg c1, if_pos c2]; nlinarith
    · rw [if_neg c1, if_neg c2]
      have e1 : x j = b.lo j := by linarith
      have e2 : x j = b.hi j := by linarith
      have : x j - b.lo j = 0 := by rw [e1, sub_self]
      have h3 : x j - b.hi j = 0 := by rw [← e2, sub_self]
      rw [this, h3]; linarith [mul_self_nonneg (y j - x j)]
  have p0 := part 0 (by omega)
  have p1 := part 1 (by omega)
  have p2 := part 2 (by omega)
  rw [sqDistBox_eq]
  have : sqDist x y = (y 0 - x 0) * (y 0 - x 0) + ((y 1 - x 1) * (y 1 - x 1) + ((y 2 - x 2) * (y 2 - x 2) + 0)) := rfl
  rw [this]
  linarith

/-- The distance `_compute_closest_entity` takes for a leaf. -/
def leafDist (tdim : Nat) (exact : Nat → K) (x : Nat → K) (y : Box K × Nat) : K :=
  if tdim = 0 then sqDist x y.1.lo else exact y.2

omit [IsStrictOrderedRing K] in
theorem closestRec_rep (t : Tree K) (P : Box K → Box K → Prop) (tdim : Nat) (exact : Nat → K) (x : Nat → K) (f i : Nat)
    (l : List (Box K × Nat)) (h : Rep t P i l) (hf : i < f) (s : Nat × K) :
    ∃ r, closestRec t tdim exact x f i s = some r ∧ r.2 ≤ s.2 ∧
      (r = s ∨ ∃ y ∈ l, r = (y.2, leafDist tdim exact x y)) ∧
      ((∀ y ∈ l, sqDistBox y.1 x ≤ leafDist tdim exact x y) → (∀ b c, P b c → sqDistBox b x ≤ sqDistBox c x) →
        ∀ y ∈ l, r.2 ≤ leafDist tdim exact x y) := by
  induction f generalizing i l s with
  | zero => omega
  | succ f ih =>
    cases h with
    | leaf _ b e hn hb =>
      rw [closestRec, hn, hb]
      simp only [Option.bind_some, if_true]
      by_cases h0 : tdim = 0
      · rw [if_pos h0]
        have hd : leafDist tdim exact x (b, e) = sqDist x b.lo := by simp [leafDist, h0]
        by_cases hle : sqDist x b.lo ≤ s.2
        · rw [if_pos hle]
          exact ⟨_, rfl, hle, Or.inr ⟨(b, e), by simp, by rw [hd]⟩, fun _ _ y hy => by
            rw [List.mem_singleton.mp hy, hd]⟩
        · rw [if_neg hle]
          exact ⟨_, rfl, le_refl _, Or.inl rfl, fun _ _ y hy => by
            rw [List.mem_singleton.mp hy, hd]; exact le_of_lt (not_le.mp hle)⟩
      · rw [if_neg h0]
        have hd : leafDist tdim exact x (b, e) = exact e := by simp [leafDist, h0]
        by_cases hbx : sqDistBox b x ≤ s.2
        · rw [if_pos hbx]
          by_cases hle : exact e ≤ s.2
          · rw [if_pos hle]
            exact ⟨_, rfl, hle, Or.inr ⟨(b, e), by simp, by rw [hd]⟩, fun _ _ y hy => by
              rw [List.mem_singleton.mp hy, hd]⟩
          · rw [if_neg hle]
            exact ⟨_, rfl, le_refl _, Or.inl rfl, fun _ _ y hy => by
              rw [List.mem_singleton.mp hy, hd]; exact le_of_lt (not_le.mp hle)⟩
        · rw [if_neg hbx]
          exact ⟨_, rfl, le_refl _, Or.inl rfl, fun hl _ y hy => by
            have := hl y hy
            rw [List.mem_singleton.mp hy] at this ⊢
            exact (le_of_lt (not_le.mp hbx)).trans this⟩
    | node _ a c b l1 l2 hn hb hne ha hc h1 h2 hP =>
      rw [closestRec, hn, hb]
      simp only [Option.bind_some, hne, if_false]
      by_cases hlt : s.2 < sqDistBox b x
      · rw [if_pos hlt]
        exact ⟨_, rfl, le_refl _, Or.inl rfl, fun hl hm y hy =>
          (le_of_lt hlt).trans ((hm b y.1 (hP y hy)).trans (hl y hy))⟩
      · rw [if_neg hlt]
        obtain ⟨r0, e0, m0, c0, k0⟩ := ih a l1 h1 (by omega) s
        obtain ⟨r1, e1, m1, c1, k1⟩ := ih c l2 h2 (by omega) r0
        refine ⟨r1, by rw [e0]; exact e1, m1.trans m0, ?_, ?_⟩
        · rcases c1 with rfl | ⟨y, hy, rfl⟩
          · rcases c0 with rfl | ⟨y, hy, rfl⟩
            · exact Or.inl rfl
            · exact Or.inr ⟨y, List.mem_append_left _ hy, rfl⟩
          · exact Or.inr ⟨y, List.mem_append_right _ hy, rfl⟩
        · intro hl hm y hy
          rcases List.mem_append.mp hy with hy | hy
          · exact m1.trans (k0 (fun z hz => hl z (List.mem_append_left _ hz)) hm y hy)
          · exact k1 (fun z hz => hl z (List.mem_append_right _ hz)) hm y hy

end ring
end Verif.BB
