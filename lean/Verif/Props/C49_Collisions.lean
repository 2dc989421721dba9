import Verif.Lemmas.BBTree
import Mathlib.Algebra.Order.Ring.Int
/-! # C49: collisions found with bounding box trees -/
namespace Verif.Props
open Verif.BB Verif.Spec.BB

variable {K : Type} [LinearOrder K]

theorem fromLeaves_rep (nth : List (Box K × Nat) → List (Box K × Nat)) (hnth : ∀ l, (nth l).Perm l) (L : List (Box K × Nat))
    (hne : L ≠ []) : ∃ t, fromLeaves nth L = some t ∧ t.nodes.length + 1 = 2 * L.length ∧ t.nodes.length = t.boxes.length ∧
      ∃ l, l.Perm L ∧ Rep t Inside (t.nodes.length - 1) l := by
  obtain ⟨i, t, e, _, _, h1, h2, h3, _, l, hl, hr⟩ := buildG_spec nth hnth id (fun x l => hull x.1 (x :: l)) Inside
    (fun x l y hy => hull_inside x.1 (x :: l) y hy) L.length L ⟨[], []⟩ hne le_rfl rfl
  refine ⟨t, ?_, ?_, h2, l, ?_, ?_⟩
  · unfold fromLeaves; rw [if_neg hne, build_eq, e]; rfl
  · rw [h3]; simp
  · rwa [List.map_id] at hl
  · rw [h1]; exact hr

theorem fromLeaves_nil (nth : List (Box K × Nat) → List (Box K × Nat)) : fromLeaves nth ([] : List (Box K × Nat)) = some ⟨[], []⟩ := rfl

open Classical in
theorem hits_eq (F : Fl K) (p : Nat → K) (L : List (Box K × Nat)) :
    ((L.filter fun x => decide (Near F x.1 p)).map (·.2)) = hits F p L := by
  unfold hits
  congr 1
  apply List.filter_congr
  intro x _
  by_cases h : Near F x.1 p
  · rw [decide_eq_true h, (pointIn_iff F x.1 p).mpr h]
  · rw [decide_eq_false h]
    have : ¬ pointIn F x.1 p = true := fun h' => h ((pointIn_iff F x.1 p).mp h')
    simpa using this

open Classical in
/-- Building never fails, and `compute_collisions` returns each leaf whose box contains the point, once, and no other:
for all trees but those with a single leaf, and there if the point is in the box or the leaf has number 0. -/
theorem C49_points_partial (F : Fl K) (hF : Mono F) (nth : List (Box K × Nat) → List (Box K × Nat)) (hnth : ∀ l, (nth l).Perm l)
    (L : List (Box K × Nat)) (p : Nat → K) (h1 : ∀ x, L = [x] → Near F x.1 p ∨ x.2 = 0) :
    ∃ t r, fromLeaves nth L = some t ∧ collidePoint F t p = some r ∧
      r.Perm ((L.filter fun x => decide (Near F x.1 p)).map (·.2)) := by
  rw [hits_eq]
  by_cases hne : L = []
  · subst hne
    exact ⟨⟨[], []⟩, [], rfl, rfl, by simp [hits]⟩
  obtain ⟨t, ht, hlen, hb, l, hl, hr⟩ := fromLeaves_rep nth hnth L hne
  have hll := hl.length_eq
  have hpos : 0 < L.length := List.length_pos_iff.mpr hne
  have hmain : (2 ≤ l.length ∨ ∀ b, t.boxes[t.nodes.length - 1]? = some b → pointIn F b p = true) →
      ∃ r, collidePoint F t p = some r ∧ r.Perm (hits F p L) := by
    intro hok
    obtain ⟨n, hn, e⟩ := pointLoop_rep hF t p hr hok
    refine ⟨hits F p l, ?_, ?_⟩
    · unfold collidePoint
      rw [if_neg (by omega)]
      have : t.nodes.length + 1 = n + (t.nodes.length - n + 1) := by omega
      rw [this, e]
      rfl
    · unfold hits; exact (hl.filter _).map _
  by_cases h2 : 2 ≤ l.length
  · obtain ⟨r, h3, h4⟩ := hmain (Or.inl h2)
    exact ⟨t, r, ht, h3, h4⟩
  · rcases L with _ | ⟨x, _ | ⟨y, L⟩⟩
    · exact absurd rfl hne
    · have hlx : l = [x] := List.perm_singleton.mp hl
      subst hlx
      have h0 : t.nodes.length = 1 := by simp at hlen; omega
      by_cases hn : Near F x.1 p
      · obtain ⟨r, h3, h4⟩ := hmain (Or.inr (by
          intro b hb'
          obtain ⟨b', hb1, hb2⟩ := hr.box inside_refl
          generalize hl' : [x] = l' at hr
          cases hr with
          | leaf _ b0 e hn0 hb0 =>
            cases hl'
            rw [hb0] at hb'; cases hb'
            exact (pointIn_iff F b p).mpr hn
          | node _ a c b0 l1 l2 _ _ _ ha hc _ _ _ => omega))
        exact ⟨t, r, ht, h3, h4⟩
      · have hx0 := (h1 x rfl).resolve_left hn
        have hnp : ¬ pointIn F x.1 p = true := fun h => hn ((pointIn_iff F x.1 p).mp h)
        refine ⟨t, [], ht, ?_, by simp [hits, hnp]⟩
        have hnode : t.nodes[0]? = some (x.2, x.2) ∧ t.boxes[0]? = some x.1 := by
          rw [h0] at hr
          generalize hl' : [x] = l' at hr
          cases hr with
          | leaf _ b0 e hn0 hb0 => cases hl'; exact ⟨hn0, hb0⟩
          | node _ a c b0 l1 l2 _ _ _ ha hc _ _ _ => omega
        unfold collidePoint
        rw [if_neg (by omega), h0]
        simp [pointLoop, hnode.1, hnode.2, hnp, hx0]
    · simp at hll; omega

/-- In a tree with one leaf whose number is not 0, a point outside of the box makes the code read boxes that do not exist. -/
theorem C49_refuted_single_leaf (F : Fl K) (nth : List (Box K × Nat) → List (Box K × Nat))
    (x : Box K × Nat) (hx : x.2 ≠ 0) (p : Nat → K) (hp : ¬ Near F x.1 p) :
    ∃ t, fromLeaves nth [x] = some t ∧ collidePoint F t p = none := by
  refine ⟨⟨[(x.2, x.2)], [x.1]⟩, rfl, ?_⟩
  have hnp : ¬ pointIn F x.1 p = true := fun h => hp ((pointIn_iff F x.1 p).mp h)
  have hb : ([x.1] : List (Box K))[x.2]? = none := List.getElem?_eq_none (by simp; omega)
  simp [collidePoint, pointLoop, hnp, hb]

open Classical in
/-- `compute_collisions` of two trees returns each pair of leaves with overlapping boxes once, and no other. -/
theorem C49_trees (F : Fl K) (hF : Mono F) (nth nth' : List (Box K × Nat) → List (Box K × Nat)) (hnth : ∀ l, (nth l).Perm l)
    (hnth' : ∀ l, (nth' l).Perm l) (L L' : List (Box K × Nat)) :
    ∃ A B r, fromLeaves nth L = some A ∧ fromLeaves nth' L' = some B ∧ collideTree F A B = some r ∧
      r.Perm (L.flatMap fun x => (L'.filter fun y => decide (Overlap F x.1 y.1)).map fun y => (x.2, y.2)) := by
  have hpairs : (L.flatMap fun x => (L'.filter fun y => decide (Overlap F x.1 y.1)).map fun y => (x.2, y.2)) = pairs F L L' := by
    unfold pairs
    refine List.flatMap_congr fun x _ => ?_
    congr 1
    apply List.filter_congr
    intro y _
    by_cases h : Overlap F x.1 y.1
    · rw [decide_eq_true h, (boxIn_iff F x.1 y.1).mpr h]
    · rw [decide_eq_false h]
      have : ¬ boxIn F x.1 y.1 = true := fun h' => h ((boxIn_iff F x.1 y.1).mp h')
      simpa using this
  rw [hpairs]
  have hsome : ∀ (n : List (Box K × Nat) → List (Box K × Nat)), (∀ l, (n l).Perm l) → ∀ M : List (Box K × Nat),
      ∃ t, fromLeaves n M = some t := by
    intro n hn M
    by_cases hM : M = []
    · subst hM; exact ⟨_, rfl⟩
    · obtain ⟨t, ht, _⟩ := fromLeaves_rep n hn M hM; exact ⟨t, ht⟩
  by_cases hL : L = []
  · subst hL
    obtain ⟨B, hB⟩ := hsome nth' hnth' L'
    exact ⟨⟨[], []⟩, B, [], rfl, hB, by simp [collideTree], by simp [pairs]⟩
  by_cases hL' : L' = []
  · subst hL'
    obtain ⟨A, hA⟩ := hsome nth hnth L
    exact ⟨A, ⟨[], []⟩, [], hA, rfl, by simp [collideTree], by simp [pairs]⟩
  obtain ⟨A, hA, hlA, _, l, hl, hr⟩ := fromLeaves_rep nth hnth L hL
  obtain ⟨B, hB, hlB, _, l', hl', hr'⟩ := fromLeaves_rep nth' hnth' L' hL'
  have hpA : 0 < L.length := List.length_pos_iff.mpr hL
  have hpB : 0 < L'.length := List.length_pos_iff.mpr hL'
  obtain ⟨r, e, hp⟩ := treeRec_rep hF A B (A.nodes.length + B.nodes.length) _ _ l l' hr hr' (by omega)
  refine ⟨A, B, r, hA, hB, ?_, hp.trans ?_⟩
  · unfold collideTree; rw [if_pos (by omega)]; exact e
  · unfold pairs
    exact (hl.flatMap_right _).trans (List.Perm.flatMap_left _ fun x _ => (hl'.filter _).map _)

theorem bboxOfEntity_fold (b : Box K) (x : List (Nat → K)) (j : Nat) :
    (x.foldl (fun b v => (⟨fun j => min (b.lo j) (v j), fun j => max (b.hi j) (v j)⟩ : Box K)) b).lo j ≤ b.lo j ∧
    b.hi j ≤ (x.foldl (fun b v => (⟨fun j => min (b.lo j) (v j), fun j => max (b.hi j) (v j)⟩ : Box K)) b).hi j := by
  induction x generalizing b with
  | nil => exact ⟨le_refl _, le_refl _⟩
  | cons v x ih =>
    rw [List.foldl_cons]
    have := ih (⟨fun j => min (b.lo j) (v j), fun j => max (b.hi j) (v j)⟩ : Box K)
    exact ⟨this.1.trans (min_le_left _ _), (le_max_left _ _).trans this.2⟩

theorem bboxOfEntity_mem (x0 : Nat → K) (x : List (Nat → K)) (v : Nat → K) (hv : v ∈ x) (j : Nat) :
    (bboxOfEntity x0 x).lo j ≤ v j ∧ v j ≤ (bboxOfEntity x0 x).hi j := by
  unfold bboxOfEntity
  generalize (⟨x0, x0⟩ : Box K) = b
  induction x generalizing b with
  | nil => cases hv
  | cons u x ih =>
    rw [List.foldl_cons]
    rcases List.mem_cons.mp hv with rfl | hv
    · have := bboxOfEntity_fold (⟨fun j => min (b.lo j) (v j), fun j => max (b.hi j) (v j)⟩ : Box K) x j
      exact ⟨this.1.trans (min_le_right _ _), (le_max_right _ _).trans this.2⟩
    · exact ih hv _

/-- Point `p` is, in every coordinate, between two vertices of the entity. -/
def Between (verts : List (Nat → K)) (p : Nat → K) : Prop :=
  ∀ j, j < 3 → (∃ v ∈ verts, v j ≤ p j) ∧ ∃ v ∈ verts, p j ≤ v j

theorem between_near {F : Fl K} (hF : Mono F) (padding : K) (hpad : ∀ a, F.sub a padding ≤ a ∧ a ≤ F.add a padding)
    (x0 : Nat → K) (x : List (Nat → K)) (p : Nat → K) (h : Between x p) : Near F (pad F padding (bboxOfEntity x0 x)) p := by
  intro j hj
  obtain ⟨⟨v, hv, hvp⟩, u, hu, hup⟩ := h j hj
  have h1 := (bboxOfEntity_mem x0 x v hv j).1
  have h2 := (bboxOfEntity_mem x0 x u hu j).2
  have hlo : (pad F padding (bboxOfEntity x0 x)).lo j ≤ p j := ((hpad _).1.trans h1).trans hvp
  have hhi : p j ≤ (pad F padding (bboxOfEntity x0 x)).hi j := (hup.trans h2).trans (hpad _).2
  have := hF.widen _ _ (hlo.trans hhi)
  exact ⟨this.1.trans hlo, hhi.trans this.2⟩

/-- Every mesh entity whose vertices surround the point is among the collisions, whatever the padding. -/
theorem C49_mesh (F : Fl K) (hF : Mono F) (padding : K) (hpad : ∀ a, F.sub a padding ≤ a ∧ a ≤ F.add a padding)
    (nth : List (Box K × Nat) → List (Box K × Nat)) (hnth : ∀ l, (nth l).Perm l)
    (entities : List (Nat × (Nat → K) × List (Nat → K))) (e : Nat × (Nat → K) × List (Nat → K)) (he : e ∈ entities)
    (p : Nat → K) (hp : Between e.2.2 p) :
    ∃ t r, fromMesh F padding nth entities = some t ∧ collidePoint F t p = some r ∧ e.1 ∈ r := by
  have hnear := between_near hF padding hpad e.2.1 e.2.2 p hp
  have hmem : (pad F padding (bboxOfEntity e.2.1 e.2.2), e.1) ∈
      entities.map fun e => (pad F padding (bboxOfEntity e.2.1 e.2.2), e.1) := List.mem_map.mpr ⟨e, he, rfl⟩
  obtain ⟨t, r, ht, hr, hperm⟩ := C49_points_partial F hF nth hnth
    (entities.map fun e => (pad F padding (bboxOfEntity e.2.1 e.2.2), e.1)) p (by
      intro x hx
      rw [hx, List.mem_singleton] at hmem
      left; rw [← hmem]; exact hnear)
  refine ⟨t, r, ht, hr, ?_⟩
  rw [hperm.mem_iff, List.mem_map]
  exact ⟨_, List.mem_filter.mpr ⟨hmem, by simpa using hnear⟩, rfl⟩

/-- The global tree: a point in the box of some leaf of rank `q` is a collision with `q`. -/
theorem C49_global (F : Fl K) (hF : Mono F) (nths : Nat → List (Box K × Nat) → List (Box K × Nat))
    (hnths : ∀ q l, (nths q l).Perm l) (nth : List (Box K × Nat) → List (Box K × Nat)) (hnth : ∀ l, (nth l).Perm l)
    (maxVal : K) (P : Nat) (L : Nat → List (Box K × Nat)) (trees : Nat → BB.Tree K)
    (htrees : ∀ q, q < P → fromLeaves (nths q) (L q) = some (trees q))
    (q : Nat) (hq : q < P) (x : Box K × Nat) (hx : x ∈ L q) (p : Nat → K) (hp : Near F x.1 p) :
    ∃ t r, globalTree nth maxVal P trees = some t ∧ collidePoint F t p = some r ∧ q ∈ r ∧ r.Nodup ∧ ∀ s ∈ r, s < P := by
  have hroot : ∃ b, (trees q).boxes.getLast? = some b ∧ Inside b x.1 := by
    obtain ⟨t, ht, _, hb, l, hl, hr⟩ := fromLeaves_rep (nths q) (hnths q) (L q) (by intro h; rw [h] at hx; cases hx)
    rw [htrees q hq] at ht
    cases ht
    obtain ⟨b, hb1, hb2⟩ := hr.box inside_refl
    exact ⟨b, by rw [List.getLast?_eq_getElem?, ← hb]; exact hb1, hb2 x (hl.mem_iff.mpr hx)⟩
  obtain ⟨b, hb, hin⟩ := hroot
  have hnear := near_mono hF hin p hp
  have hmem : (b, q) ∈ (List.range P).map fun q =>
      (((trees q).boxes.getLast?).getD ⟨fun _ => maxVal, fun _ => maxVal⟩, q) :=
    List.mem_map.mpr ⟨q, List.mem_range.mpr hq, by rw [hb]; rfl⟩
  obtain ⟨t, r, ht, hr, hperm⟩ := C49_points_partial F hF nth hnth ((List.range P).map fun q =>
      (((trees q).boxes.getLast?).getD ⟨fun _ => maxVal, fun _ => maxVal⟩, q)) p (by
    intro y hy
    rw [hy, List.mem_singleton] at hmem
    left; rw [← hmem]; exact hnear)
  refine ⟨t, r, ht, hr, ?_, ?_, ?_⟩
  · rw [hperm.mem_iff, List.mem_map]
    exact ⟨_, List.mem_filter.mpr ⟨hmem, by simpa using hnear⟩, rfl⟩
  · rw [hperm.nodup_iff]
    refine List.Nodup.sublist (List.Sublist.map _ List.filter_sublist) ?_
    rw [List.map_map]
    simpa [Function.comp_def] using List.nodup_range
  · intro s hs
    rw [hperm.mem_iff, List.mem_map] at hs
    obtain ⟨y, hy, rfl⟩ := hs
    obtain ⟨k, hk, rfl⟩ := List.mem_map.mp (List.mem_filter.mp hy).1
    exact List.mem_range.mp hk

/-- Exact integer arithmetic without tolerance. -/
def flInt : Fl Int where
  sub := fun a b => a - b
  add := fun a b => a + b
  mul := fun a b => a * b
  rtol := 1

/-- The arithmetic hypothesis is met. -/
theorem flInt_mono : Mono flInt := by
  refine ⟨?_, ?_, ?_, ?_⟩
  · intro a b c d h1 h2; simp only [flInt]; omega
  · intro a b c d h1 h2; simp only [flInt]; omega
  · intro a b h; simp only [flInt]; omega
  · intro a b h; simp only [flInt]; omega

def pt (a b c : Int) : Nat → Int := fun j => if j = 0 then a else if j = 1 then b else c

/-- Three cells on a line, one of them not colliding. -/
example : ∃ t, fromMesh flInt 0 id [(4, pt 0 0 0, [pt 0 0 0, pt 4 4 0, pt 4 0 0]), (7, pt 4 0 0, [pt 4 0 0, pt 8 0 0, pt 8 4 0]),
      (9, pt 40 0 0, [pt 40 0 0, pt 44 0 0, pt 44 4 0])] = some t ∧
    collidePoint flInt t (pt 4 1 0) = some [4, 7] ∧ Between [pt 4 0 0, pt 8 0 0, pt 8 4 0] (pt 4 1 0) := by
  refine ⟨_, rfl, by decide +kernel, ?_⟩
  intro j hj
  have : j = 0 ∨ j = 1 ∨ j = 2 := by omega
  rcases this with rfl | rfl | rfl <;> simp [pt]

/-- Trees of points (`create_midpoint_tree`): the boxes of inner nodes are made from the lexicographically smallest
and largest point and contain neither the points nor their boxes.  Four points, split
by `nth_element` along the first axis; the search for the first point finds nothing. -/
theorem C49_refuted_point_tree :
    ∃ t, fromPoints id [(pt 0 1 0, 5), (pt 1 0 0, 6), (pt 10 0 0, 7), (pt 11 0 0, 8)] = some t ∧
      t.boxes.length = 7 ∧ (∃ b, t.boxes[0]? = some b ∧ t.nodes[0]? = some (5, 5) ∧ In b (pt 0 1 0)) ∧
      collidePoint flInt t (pt 0 1 0) = some [] := by
  refine ⟨_, rfl, rfl, ⟨_, rfl, rfl, ?_⟩, by decide +kernel⟩
  intro j _; exact ⟨le_refl _, le_refl _⟩

end Verif.Props
