import Verif.Model.PointSearch
import Verif.Props.C49_Collisions
import Verif.Props.C96_Collide
/-! # C97: cells that contain points are found with bounding box trees -/
namespace Verif.Props
open Verif.PointSearch
open Verif.Submesh (Geo)
open Verif.Gjk (V)
open Verif.EntityGeom (point points)
open Verif.BB (Fl Box)
open Verif.AdjList (AdjList)
open Verif.Spec.Gjk (Hull NoTie)
open Verif.Spec.EntityGeom (Coord MeshOk)
open Verif.Spec.Collide (CellPts sqd)

section general
variable {K : Type} [Field K] [LinearOrder K] [IsStrictOrderedRing K]

theorem exists_lowest {α : Type} (f : α → K) : ∀ l : List α, l ≠ [] → ∃ a ∈ l, ∀ b ∈ l, f a ≤ f b
  | [], h => absurd rfl h
  | [a], _ => ⟨a, by simp, by simp⟩
  | a :: b :: l, _ => by
    obtain ⟨c, hc, h⟩ := exists_lowest f (b :: l) (by simp)
    rcases le_total (f a) (f c) with h' | h'
    · refine ⟨a, by simp, fun d hd => ?_⟩
      rcases List.mem_cons.mp hd with rfl | hd
      · exact le_rfl
      · exact h'.trans (h d hd)
    · refine ⟨c, List.mem_cons_of_mem _ hc, fun d hd => ?_⟩
      rcases List.mem_cons.mp hd with rfl | hd
      · exact h'
      · exact h d hd

theorem hull_nonempty (ps : List (V K)) (p : V K) (h : Hull ps p) : ps ≠ [] := by
  rintro rfl
  obtain ⟨l, h1, h2, _⟩ := h
  cases l with
  | nil => simp at h2
  | cons a l => exact absurd (h1 a (by simp)).2 (by simp)

/-- A point of the hull is between the points in every direction. -/
theorem hull_sides (ps : List (V K)) (p : V K) (h : Hull ps p) (y : V K) : ∃ v ∈ ps, Gjk.dot3 y v ≤ Gjk.dot3 y p := by
  obtain ⟨v, hv, hl⟩ := exists_lowest (Gjk.dot3 y) ps (hull_nonempty ps p h)
  exact ⟨v, hv, hull_ge ps p y _ h hl⟩

theorem hull_between (ps : List (V K)) (p : V K) (h : Hull ps p) : Verif.Props.Between (ps.map fn) (fn p) := by
  intro j hj
  have key : ∀ y : V K, (∀ v : V K, Gjk.dot3 y v = fn v j) → ∃ v ∈ ps.map fn, v j ≤ fn p j := by
    intro y hy
    obtain ⟨v, hv, hl⟩ := hull_sides ps p h y
    rw [hy, hy] at hl
    exact ⟨fn v, List.mem_map.mpr ⟨v, hv, rfl⟩, hl⟩
  have key' : ∀ y : V K, (∀ v : V K, Gjk.dot3 y v = -fn v j) → ∃ v ∈ ps.map fn, fn p j ≤ v j := by
    intro y hy
    obtain ⟨v, hv, hl⟩ := hull_sides ps p h y
    rw [hy, hy] at hl
    exact ⟨fn v, List.mem_map.mpr ⟨v, hv, rfl⟩, by linarith⟩
  have hj' : j = 0 ∨ j = 1 ∨ j = 2 := by omega
  rcases hj' with rfl | rfl | rfl
  · exact ⟨key (1, 0, 0) fun v => by simp [Gjk.dot3, fn], key' (-1, 0, 0) fun v => by simp [Gjk.dot3, fn]⟩
  · exact ⟨key (0, 1, 0) fun v => by simp [Gjk.dot3, fn], key' (0, -1, 0) fun v => by simp [Gjk.dot3, fn]⟩
  · exact ⟨key (0, 0, 1) fun v => by simp [Gjk.dot3, fn], key' (0, 0, -1) fun v => by simp [Gjk.dot3, fn]⟩

theorem links_outs (a : AdjList Nat) (outs : List (List Nat)) (ha : a.array = outs.flatten)
    (ho : ∀ k : Nat, k ≤ outs.length → a.offsets[k]? = some (outs.take k).flatten.length) (i : Nat) (hlt : i < outs.length) :
    a.links i = some outs[i] := by
  unfold AdjList.AdjList.links
  rw [ho i (by omega), ho (i + 1) (by omega)]
  show some ((a.array.drop _).take _) = _
  rw [ha]
  have ht : outs.take (i + 1) = outs.take i ++ [outs[i]] := by rw [List.take_succ_eq_append_getElem hlt]
  have hsplit : outs = outs.take i ++ outs[i] :: outs.drop (i + 1) := by
    rw [List.getElem_cons_drop, List.take_append_drop]
  rw [ht, List.flatten_append, List.length_append]
  have hfl : outs.flatten = (outs.take i).flatten ++ (outs[i] ++ (outs.drop (i + 1)).flatten) := by
    have := congrArg List.flatten hsplit
    rw [List.flatten_append, List.flatten_cons] at this
    exact this
  rw [hfl, List.drop_left]
  simp

theorem collisionsLoop_ok (F : Fl K) (t : BB.Tree K) (pts : List K) : ∀ (m p : Nat) (ents offs : List Nat) (E O : List Nat),
    collisionsLoop F t pts (List.range' p m) ents offs = some (E, O) → offs.length = p + m + 1 → offs[p]? = some ents.length →
    ∃ outs : List (List Nat), outs.length = m ∧ E = ents ++ outs.flatten ∧ O.length = offs.length ∧ (∀ k : Nat, k ≤ p → O[k]? = offs[k]?) ∧
      (∀ k : Nat, k ≤ m → O[p + k]? = some (ents.length + (outs.take k).flatten.length)) ∧
      ∀ (k : Nat) out, outs[k]? = some out → ∃ x, Coord pts (p + k) x ∧ BB.collidePoint F t (fn x) = some out := by
  intro m
  induction m with
  | zero =>
    intro p ents offs E O h hl ho
    simp only [List.range'_zero, collisionsLoop] at h
    cases h
    refine ⟨[], rfl, by simp, rfl, fun _ _ => rfl, ?_, by simp⟩
    intro k hk
    obtain rfl : k = 0 := by omega
    simpa using ho
  | succ m ih =>
    intro p ents offs E O h hl ho
    rw [List.range'_succ] at h
    unfold collisionsLoop at h
    cases hp : point pts p with
    | none => rw [hp] at h; cases h
    | some x =>
      rw [hp] at h
      dsimp only at h
      cases hr : BB.collidePoint F t (fn x) with
      | none => rw [hr] at h; cases h
      | some r =>
        rw [hr] at h
        dsimp only at h
        obtain ⟨outs, o1, o2, o3, o4, o5, o6⟩ := ih (p + 1) _ _ E O h (by simp [hl]; omega) (by
          rw [List.getElem?_set_self (by omega)])
        refine ⟨r :: outs, by simp [o1], by rw [o2]; simp, by rw [o3]; simp, ?_, ?_, ?_⟩
        · intro k hk
          rw [o4 k (by omega), List.getElem?_set_ne (by omega)]
        · intro k hk
          cases k with
          | zero => rw [Nat.add_zero, o4 p (by omega), List.getElem?_set_ne (by omega), ho]; simp
          | succ k =>
            rw [show p + (k + 1) = p + 1 + k by omega, o5 k (by omega)]
            simp [Nat.add_assoc]
        · intro k out hk
          cases k with
          | zero => cases hk; exact ⟨x, (point_iff _ _ _).mp hp, hr⟩
          | succ k =>
            obtain ⟨y, hy, h2⟩ := o6 k out hk
            exact ⟨y, by rwa [show p + (k + 1) = p + 1 + k by omega], h2⟩

theorem coord_exists (pts : List K) (k : Nat) (hk : k < pts.length / 3) : ∃ x, Coord pts k x :=
  ⟨(pts[3 * k], pts[3 * k + 1], pts[3 * k + 2]), List.getElem?_eq_getElem (by omega), List.getElem?_eq_getElem (by omega),
    List.getElem?_eq_getElem (by omega)⟩

theorem collisions_ok (F : Fl K) (t : BB.Tree K) (pts : List K) (a : AdjList Nat) (h : collisions F t pts = .ok a) :
    ∃ outs : List (List Nat), outs.length = pts.length / 3 ∧ rows a = some outs ∧
      ∀ (k : Nat) out, outs[k]? = some out → ∃ x, Coord pts k x ∧ BB.collidePoint F t (fn x) = some out := by
  have key : ∀ outs : List (List Nat), a.array = outs.flatten → a.offsets.length = outs.length + 1 →
      (∀ k : Nat, k ≤ outs.length → a.offsets[k]? = some (outs.take k).flatten.length) → rows a = some outs := by
    intro outs h1 h2 h3
    unfold rows
    rw [opt_mapM_forall, AdjList.AdjList.numNodes, h2, Nat.add_sub_cancel, List.forall₂_iff_get]
    refine ⟨by simp, ?_⟩
    intro i _ hi
    rw [List.get_eq_getElem, List.get_eq_getElem, List.getElem_range]
    exact links_outs a outs h1 h3 i hi
  unfold collisions at h
  by_cases hn : 0 < t.nodes.length
  · rw [if_pos hn] at h
    cases hl : collisionsLoop F t pts (List.range (pts.length / 3)) [] (List.replicate (pts.length / 3 + 1) 0) with
    | none => rw [hl] at h; cases h
    | some r =>
      obtain ⟨E, O⟩ := r
      rw [hl] at h
      rw [List.range_eq_range'] at hl
      obtain ⟨outs, o1, o2, o3, _, o5, o6⟩ := collisionsLoop_ok F t pts _ 0 [] _ E O hl (by simp) (by simp)
      have ha : a = ⟨E, O⟩ := by
        dsimp only at h
        unfold AdjList.ofData at h
        have := o5 (pts.length / 3) le_rfl
        rw [Nat.zero_add] at this
        have hlast : O.getLast? = some E.length := by
          rw [List.getLast?_eq_getElem?, o3, List.length_replicate, Nat.add_sub_cancel, this, o2, ← o1]
          simp
        rw [hlast] at h
        simp only [ne_eq, not_true_eq_false, if_false] at h
        cases h
        rfl
      subst ha
      refine ⟨outs, o1, key outs (by simpa using o2) (by simp [o3, o1]) ?_, ?_⟩
      · intro k hk
        have := o5 k (by omega)
        rw [Nat.zero_add] at this
        simpa using this
      · intro k out hk
        have := o6 k out hk
        rwa [Nat.zero_add] at this
  · rw [if_neg hn] at h
    have ha : a = ⟨[], List.replicate (pts.length / 3 + 1) 0⟩ := by
      unfold AdjList.ofData at h
      rw [List.getLast?_replicate, if_neg (by omega)] at h
      simp at h
      exact h.symm
    subst ha
    refine ⟨List.replicate (pts.length / 3) [], by simp, key _ (by simp) (by simp) ?_, ?_⟩
    · intro k hk
      rw [List.length_replicate] at hk
      simp [List.getElem?_replicate, Nat.lt_succ_of_le hk]
    · intro k out hk
      obtain ⟨h1, h2⟩ := List.getElem?_eq_some_iff.mp hk
      rw [List.getElem_replicate] at h2
      rw [List.length_replicate] at h1
      obtain ⟨x, hx⟩ := coord_exists pts k h1
      refine ⟨x, hx, ?_⟩
      unfold BB.collidePoint
      rw [if_pos (by omega), h2]

theorem entityOf_cell (wedge : Bool) (g : Geo) (tdim : Nat) (x : List K) (e : Nat) (r : Nat × (Nat → K) × List (Nat → K))
    (h : entityOf wedge g tdim tdim x e = .ok r) :
    r.1 = e ∧ ∃ l ps, ((g.closure tdim 0).mapM fun d => (g.xdofs e)[d]?) = some l ∧ points x l = some ps ∧ r.2.2 = ps.map fn := by
  unfold entityOf at h
  cases hn : EntityGeom.nodes wedge g tdim tdim [e] with
  | error err => rw [hn] at h; cases h
  | ok rs =>
    rw [hn] at h
    unfold EntityGeom.nodes Submesh.entitiesToGeometry at hn
    by_cases hw : wedge = true ∧ tdim = 2
    · rw [if_pos hw] at hn; cases hn
    · rw [if_neg hw] at hn
      cases hm : [e].mapM (Submesh.entityNodes (EntityGeom.plain g) tdim tdim) with
      | none => rw [hm] at hn; cases hn
      | some l =>
        rw [hm] at hn
        cases hn
        rw [opt_mapM_forall] at hm
        cases hm with
        | @cons _ l _ _ h1 h2 =>
          cases h2
          unfold Submesh.entityNodes at h1
          rw [if_pos rfl] at h1
          dsimp only at h
          rw [show ([l] : List (List Nat)).flatten = l by simp] at h
          cases hp : points x l with
          | none => rw [hp] at h; cases h
          | some ps =>
            rw [hp] at h
            cases ps with
            | nil => cases h
            | cons p ps => cases h; exact ⟨rfl, l, p :: ps, h1, hp, rfl⟩

theorem entitiesOf_forall (wedge : Bool) (g : Geo) (tdim dim : Nat) (x : List K) : ∀ (es : List Nat) (l : List (Nat × (Nat → K) × List (Nat → K))),
    entitiesOf wedge g tdim dim x es = .ok l → List.Forall₂ (fun e a => entityOf wedge g tdim dim x e = .ok a) es l
  | [], l, h => by cases h; exact .nil
  | e :: es, l, h => by
    unfold entitiesOf at h
    cases h1 : entityOf wedge g tdim dim x e with
    | error err => rw [h1] at h; cases h
    | ok a =>
      rw [h1] at h
      cases h2 : entitiesOf wedge g tdim dim x es with
      | error err => rw [h2] at h; cases h
      | ok l' => rw [h2] at h; cases h; exact .cons h1 (entitiesOf_forall wedge g tdim dim x es l' h2)

/-- What the tree for the boxes of entities gives. -/
theorem collide_perm (F : Fl K) (hF : Spec.BB.Mono F) (nth : List (Box K × Nat) → List (Box K × Nat)) (hnth : ∀ l, (nth l).Perm l) (L : List (Box K × Nat))
    (t : BB.Tree K) (ht : BB.fromLeaves nth L = some t) (p : Nat → K) (r : List Nat) (hr : BB.collidePoint F t p = some r) :
    r.Perm (BB.hits F p L) := by
  by_cases h1 : ∀ x, L = [x] → Spec.BB.Near F x.1 p ∨ x.2 = 0
  · obtain ⟨t', r', e1, e2, e3⟩ := C49_points_partial F hF nth hnth L p h1
    rw [ht] at e1
    cases e1
    rw [hr] at e2
    cases e2
    rwa [hits_eq] at e3
  · push Not at h1
    obtain ⟨x, rfl, hx, h0⟩ := h1
    obtain ⟨t', e1, e2⟩ := C49_refuted_single_leaf F nth x h0 p hx
    rw [ht] at e1
    cases e1
    rw [hr] at e2
    cases e2

/-- The leaf of an entity. -/
def leafOf (F : Fl K) (padding : K) (e : Nat × (Nat → K) × List (Nat → K)) : Box K × Nat := (BB.pad F padding (BB.bboxOfEntity e.2.1 e.2.2), e.1)

theorem hits_count (F : Fl K) (padding : K) (wedge : Bool) (g : Geo) (tdim : Nat) (x : List K) (p : Nat → K) (c : Nat) :
    ∀ (es : List Nat) (l : List (Nat × (Nat → K) × List (Nat → K))), List.Forall₂ (fun e a => entityOf wedge g tdim tdim x e = .ok a) es l →
    (BB.hits F p (l.map (leafOf F padding))).count c ≤ es.count c ∧
    ((∀ a, entityOf wedge g tdim tdim x c = .ok a → BB.pointIn F (leafOf F padding a).1 p = true) →
      (BB.hits F p (l.map (leafOf F padding))).count c = es.count c) := by
  intro es l h
  induction h with
  | nil => exact ⟨le_rfl, fun _ => rfl⟩
  | @cons e a es l h1 _ ih =>
    have he : (leafOf F padding a).2 = e := (entityOf_cell wedge g tdim x e a h1).1
    rw [List.map_cons]
    by_cases hp : BB.pointIn F (leafOf F padding a).1 p = true
    · have e1 : BB.hits F p (leafOf F padding a :: l.map (leafOf F padding)) = e :: BB.hits F p (l.map (leafOf F padding)) := by
        rw [← he]; unfold BB.hits; rw [List.filter_cons, if_pos hp, List.map_cons]
      rw [e1, List.count_cons, List.count_cons]
      exact ⟨Nat.add_le_add_right ih.1 _, fun hc => by rw [ih.2 hc]⟩
    · have e1 : BB.hits F p (leafOf F padding a :: l.map (leafOf F padding)) = BB.hits F p (l.map (leafOf F padding)) := by
        unfold BB.hits; rw [List.filter_cons, if_neg hp]
      rw [e1]
      refine ⟨ih.1.trans (by rw [List.count_cons]; omega), fun hc => ?_⟩
      have hne : e ≠ c := by rintro rfl; exact hp (hc a h1)
      rw [List.count_cons_of_ne hne, ih.2 hc]

end general

/-- C97: the search for points gives, for each point, every cell of the tree with a hull that contains the point, as often as it was given, and no other cell
but those that, unless there are ties, have a point nearer than the tolerance. -/
theorem C97_search_partial (junk : Nat → Nat → Nat → ℝ) (hj : ∀ i k n, junk i k n ≤ 0) (sqrt : ℝ → ℝ) (hsq : ∀ t, 0 < t → 0 < sqrt t) (eps eps2 : ℝ)
    (heps : 0 < eps) (h1 : eps < 1 / 2) (h2 : 2 * eps < eps2) (F : Fl ℝ) (hF : Spec.BB.Mono F) (padding : ℝ)
    (hpad : ∀ a, F.sub a padding ≤ a ∧ a ≤ F.add a padding) (nth : List (Box ℝ × Nat) → List (Box ℝ × Nat)) (hnth : ∀ l, (nth l).Perm l) (wedge : Bool)
    (g : Geo) (tdim n : Nat) (x : List ℝ) (entities : Option (List Nat)) (pts : List ℝ) (es : List Nat) (hes : entities = some es ∨ entities = none ∧ es = List.range n)
    (hcl : ∀ c ∈ es, ∀ d < (g.xdofs c).length, d ∈ g.closure tdim 0) (a : AdjList Nat)
    (h : search junk sqrt eps eps2 F padding nth wedge g tdim n x entities pts = .ok a) :
    a.numNodes = pts.length / 3 ∧ ∀ i p, Coord pts i p → ∃ out, a.links i = some out ∧ (∀ c, out.count c ≤ es.count c) ∧
      (∀ c ∈ out, ∃ ps, CellPts g x c ps ∧ (NoTie [p] ps → ∃ q, Hull ps q ∧ sqd p q < eps2)) ∧
      ∀ c ∈ es, (∃ ps, CellPts g x c ps ∧ Hull ps p) → out.count c = es.count c := by
  have hes' : entities.getD (List.range n) = es := by rcases hes with rfl | ⟨rfl, rfl⟩ <;> rfl
  unfold search at h
  cases ht : tree F padding nth wedge g tdim tdim n x entities with
  | error e => rw [ht] at h; cases h
  | ok t =>
    rw [ht] at h
    dsimp only at h
    cases hc : collisions F t pts with
    | error e => rw [hc] at h; cases h
    | ok cd =>
      rw [hc] at h
      dsimp only at h
      obtain ⟨outs, o1, o2, o3⟩ := collisions_ok F t pts cd hc
      rw [o2] at h
      dsimp only at h
      cases hr : Collide.collidingCells junk sqrt eps eps2 g tdim x outs pts with
      | error e => rw [hr] at h; cases h
      | ok a' =>
        rw [hr] at h
        cases h
        obtain ⟨c1, c2⟩ := C96_colliding_partial junk hj sqrt hsq eps eps2 heps h1 h2 g tdim x outs pts a hr
        refine ⟨c1.trans o1, ?_⟩
        intro i p hp
        have hi : i < outs.length := by
          rw [o1]
          have := (List.getElem?_eq_some_iff.mp hp.2.2).1
          omega
        have hi' := List.getElem?_eq_getElem hi
        obtain ⟨out, k1, k2, k3, k4⟩ := c2 i outs[i] p hi' hp
        obtain ⟨p', hp', hcp⟩ := o3 i outs[i] hi'
        obtain rfl := coord_unique pts i p' p hp' hp
        unfold tree at ht
        rw [if_neg (lt_irrefl _), hes'] at ht
        cases hl : entitiesOf wedge g tdim tdim x es with
        | error e => rw [hl] at ht; cases ht
        | ok l =>
          rw [hl] at ht
          dsimp only at ht
          cases hfm : BB.fromMesh F padding nth l with
          | none => rw [hfm] at ht; cases ht
          | some t' =>
            rw [hfm] at ht
            cases ht
            have hperm : outs[i].Perm (BB.hits F (fn p') (l.map (leafOf F padding))) := collide_perm F hF nth hnth _ t hfm (fn p') outs[i] hcp
            have hcount := fun c => hits_count F padding wedge g tdim x (fn p') c es l (entitiesOf_forall wedge g tdim tdim x es l hl)
            refine ⟨out, k1, ?_, k3, ?_⟩
            · intro c
              calc out.count c ≤ outs[i].count c := k2.count_le c
                _ = _ := hperm.count_eq c
                _ ≤ _ := (hcount c).1
            · intro c hces hin
              have hin' := hin
              obtain ⟨ps, hps, hh⟩ := hin
              have hb : ∀ r, entityOf wedge g tdim tdim x c = .ok r → BB.pointIn F (leafOf F padding r).1 (fn p') = true := by
                intro r hr
                obtain ⟨_, l', ps', e1, e2, e3⟩ := entityOf_cell wedge g tdim x c r hr
                rw [BB.pointIn_iff]
                refine between_near hF padding hpad _ _ _ ?_
                rw [e3]
                refine (fun j hj => ?_ : Verif.Props.Between (ps'.map fn) (fn p'))
                have hsub : ∀ v ∈ ps.map fn, v ∈ ps'.map fn := by
                  intro v hv
                  obtain ⟨q, hq, rfl⟩ := List.mem_map.mp hv
                  refine List.mem_map.mpr ⟨q, ?_, rfl⟩
                  have hmem : ∀ nd ∈ g.xdofs c, nd ∈ l' := by
                    intro nd hnd
                    obtain ⟨d, hd, rfl⟩ := List.mem_iff_getElem.mp hnd
                    exact (mapM_option_some _ _ _ e1 _).mpr ⟨d, hcl c hces d hd, List.getElem?_eq_getElem hd⟩
                  have hq' := (points_coord x (g.xdofs c) ps).mpr hps
                  obtain ⟨nd, hnd, hq2⟩ := (mapM_option_some _ _ _ hq' q).mp hq
                  exact (mapM_option_some _ _ _ e2 q).mpr ⟨nd, hmem nd hnd, hq2⟩
                obtain ⟨⟨v, hv, hv'⟩, u, hu, hu'⟩ := hull_between ps p' hh j hj
                exact ⟨⟨v, hsub v hv, hv'⟩, u, hsub u hu, hu'⟩
              have hceq := (hcount c).2 hb
              have : c ∈ outs[i] := by
                rw [← List.count_pos_iff, hperm.count_eq c, hceq]
                exact List.count_pos_iff.mpr hces
              rw [k4 c this hin', hperm.count_eq c, hceq]

/-! ## Failures -/

theorem entityOf_some (wedge : Bool) (g : Geo) (tdim : Nat) (x : List ℝ) (es : List Nat) (hm : MeshOk g tdim tdim x es) (hw : wedge = true → tdim ≠ 2)
    (hcl : g.closure tdim 0 ≠ []) (e : Nat) (he : e ∈ es) : ∃ a, entityOf wedge g tdim tdim x e = .ok a := by
  obtain ⟨l, ps, h1, h2⟩ := entityNodes_some g tdim tdim x es hm e he
  have hn : EntityGeom.nodes wedge g tdim tdim [e] = .ok [l] := by
    unfold EntityGeom.nodes Submesh.entitiesToGeometry
    rw [if_neg (fun h => hw h.1 h.2)]
    have : [e].mapM (Submesh.entityNodes (EntityGeom.plain g) tdim tdim) = some [l] := by
      rw [opt_mapM_forall]; exact .cons h1 .nil
    rw [this]
  have hne : ps ≠ [] := by
    rintro rfl
    have := mapM_len _ _ _ h2
    unfold Submesh.entityNodes at h1
    rw [if_pos rfl] at h1
    have h3 := mapM_len _ _ _ h1
    rw [← this] at h3
    exact hcl (List.length_eq_zero_iff.mp h3.symm)
  unfold entityOf
  rw [hn]
  dsimp only
  rw [show ([l] : List (List Nat)).flatten = l by simp, h2]
  cases ps with
  | nil => exact absurd rfl hne
  | cons p ps => exact ⟨_, rfl⟩

theorem entitiesOf_some (wedge : Bool) (g : Geo) (tdim : Nat) (x : List ℝ) : ∀ (es : List Nat), (∀ e ∈ es, ∃ a, entityOf wedge g tdim tdim x e = .ok a) →
    ∃ l, entitiesOf wedge g tdim tdim x es = .ok l
  | [], _ => ⟨[], rfl⟩
  | e :: es, h => by
    obtain ⟨a, ha⟩ := h e (by simp)
    obtain ⟨l, hl⟩ := entitiesOf_some wedge g tdim x es fun e he => h e (by simp [he])
    exact ⟨a :: l, by unfold entitiesOf; rw [ha, hl]⟩

theorem collisionsLoop_some (F : Fl ℝ) (t : BB.Tree ℝ) (pts : List ℝ) (h : ∀ p, ∃ r, BB.collidePoint F t p = some r) :
    ∀ (l ents offs : List Nat), (∀ p ∈ l, p < pts.length / 3) → ∃ r, collisionsLoop F t pts l ents offs = some r
  | [], ents, offs, _ => ⟨_, rfl⟩
  | p :: l, ents, offs, hl => by
    obtain ⟨x, hx⟩ := coord_exists pts p (hl p (by simp))
    obtain ⟨r, hr⟩ := h (fn x)
    unfold collisionsLoop
    rw [(point_iff _ _ _).mpr hx]
    dsimp only
    rw [hr]
    exact collisionsLoop_some F t pts h l _ _ fun p hp => hl p (by simp [hp])

theorem pointsLoop_limit (junk : Nat → Nat → Nat → ℝ) (hj : ∀ i k n, junk i k n ≤ 0) (sqrt : ℝ → ℝ) (hsq : ∀ t, 0 < t → 0 < sqrt t) (eps eps2 : ℝ) (heps : 0 < eps)
    (g : Geo) (tdim : Nat) (x pts : List ℝ) (es : List Nat) (hm : MeshOk g tdim tdim x es) (hne : ∀ e ∈ es, g.xdofs e ≠ [])
    (hT : ∀ i p ps, ∀ e ∈ es, Coord pts i p → CellPts g x e ps → NoTie [p] ps) (err : Collide.Err) :
    ∀ (cand : List (List Nat)) (i : Nat) (s : Collide.State), i + cand.length ≤ pts.length / 3 → (∀ cells ∈ cand, ∀ c ∈ cells, c ∈ es) →
      Collide.pointsLoop junk sqrt eps eps2 g tdim x pts i cand s = .error err → err = .gjk .limit := by
  intro cand
  induction cand with
  | nil => intro i s _ _ h; cases h
  | cons cells cand ih =>
    intro i s hi hc h
    rw [List.length_cons] at hi
    obtain ⟨p, hp⟩ := coord_exists pts i (by omega)
    have hp' : ∃ q, (if cells = [] then some ((0, 0, 0) : V ℝ) else point pts i) = some q ∧ (cells ≠ [] → q = p) := by
      by_cases hce : cells = []
      · exact ⟨_, if_pos hce, fun h => absurd hce h⟩
      · exact ⟨p, by rw [if_neg hce]; exact (point_iff _ _ _).mpr hp, fun _ => rfl⟩
    obtain ⟨q, hq, hqp⟩ := hp'
    unfold Collide.pointsLoop at h
    rw [hq] at h
    dsimp only at h
    cases hd : Collide.squared (junk i) sqrt eps false g tdim tdim x cells (Collide.copies q cells.length) with
    | ok ds =>
      rw [hd] at h
      exact ih (i + 1) _ (by omega) (fun cells hcells => hc cells (by simp [hcells])) h
    | error e =>
      rw [hd] at h
      cases h
      unfold Collide.squared at hd
      cases hs : Collide.shortest (junk i) sqrt eps false g tdim tdim x cells (Collide.copies q cells.length) with
      | ok vs => rw [hs] at hd; cases hd
      | error e =>
        rw [hs] at hd
        cases hd
        have hsub : ∀ c ∈ cells, c ∈ es := hc cells (by simp)
        refine C96_only_limit (junk i) (hj i) sqrt hsq eps heps g tdim tdim x cells _ ⟨fun h => absurd rfl h, fun e he => hm.dofs e (hsub e he)⟩ ?_ ?_ ?_ err hs
        · have : ∀ n, (Collide.copies q n).length = 3 * n := by
            intro n
            induction n with
            | zero => rfl
            | succ n ih => simp [Collide.copies, ih]; omega
          exact this _
        · rintro e he ps (⟨_, h⟩ | ⟨h, _⟩)
          · intro hps
            subst hps
            cases hx : g.xdofs e with
            | nil => exact hne e (hsub e he) hx
            | cons a l => rw [CellPts, hx] at h; cases h
          · exact absurd rfl h
        · rintro k e r ps hk hr (⟨_, h⟩ | ⟨h, _⟩)
          · have hlt := (List.getElem?_eq_some_iff.mp hk).1
            obtain rfl := coord_unique _ k r q hr (copies_coord q _ k hlt)
            have : r = p := hqp (by rintro rfl; simp at hlt)
            subst this
            exact hT i r ps e (hsub e (List.mem_of_getElem? hk)) hp h
          · exact absurd rfl h

/-- C97: for cells of the mesh, unless there is a single cell with a number other than 0 or there are ties, the only failure of the search is the limit for the
number of iterations of GJK. -/
theorem C97_ends_partial (junk : Nat → Nat → Nat → ℝ) (hj : ∀ i k n, junk i k n ≤ 0) (sqrt : ℝ → ℝ) (hsq : ∀ t, 0 < t → 0 < sqrt t) (eps eps2 : ℝ)
    (heps : 0 < eps) (h1 : eps < 1 / 2) (h2 : 2 * eps < eps2) (F : Fl ℝ) (hF : Spec.BB.Mono F) (padding : ℝ)
    (nth : List (Box ℝ × Nat) → List (Box ℝ × Nat)) (hnth : ∀ l, (nth l).Perm l) (wedge : Bool)
    (g : Geo) (tdim n : Nat) (x : List ℝ) (entities : Option (List Nat)) (pts : List ℝ) (es : List Nat) (hes : entities = some es ∨ entities = none ∧ es = List.range n)
    (hone : ∀ e, es = [e] → e = 0) (hm : MeshOk g tdim tdim x es) (hw : wedge = true → tdim ≠ 2) (hcl : g.closure tdim 0 ≠ []) (hne : ∀ e ∈ es, g.xdofs e ≠ [])
    (hT : ∀ i p ps, ∀ e ∈ es, Coord pts i p → CellPts g x e ps → NoTie [p] ps) (err : PointSearch.Err)
    (h : search junk sqrt eps eps2 F padding nth wedge g tdim n x entities pts = .error err) : err = .collide (.gjk .limit) := by
  have hes' : entities.getD (List.range n) = es := by rcases hes with rfl | ⟨rfl, rfl⟩ <;> rfl
  obtain ⟨l, hl⟩ := entitiesOf_some wedge g tdim x es (entityOf_some wedge g tdim x es hm hw hcl)
  have hfor := entitiesOf_forall wedge g tdim tdim x es l hl
  have hL : ∃ t, BB.fromMesh F padding nth l = some t := by
    unfold BB.fromMesh
    by_cases hn : (l.map fun e => (BB.pad F padding (BB.bboxOfEntity e.2.1 e.2.2), e.1)) = []
    · rw [hn]; exact ⟨_, rfl⟩
    · obtain ⟨t, ht, _⟩ := fromLeaves_rep nth hnth _ hn
      exact ⟨t, ht⟩
  obtain ⟨t, ht⟩ := hL
  have htree : tree F padding nth wedge g tdim tdim n x entities = .ok t := by
    unfold tree
    rw [if_neg (lt_irrefl _), hes', hl]
    dsimp only
    rw [ht]
  have hcp : ∀ p, ∃ r, BB.collidePoint F t p = some r := by
    intro p
    obtain ⟨t', r, e1, e2, _⟩ := C49_points_partial F hF nth hnth (l.map (leafOf F padding)) p (by
      intro y hy
      right
      cases hfor with
      | nil => cases hy
      | @cons e a es' l' g1 g2 =>
        cases g2 with
        | nil =>
          cases hy
          have := (entityOf_cell wedge g tdim x e a g1).1
          show a.1 = 0
          rw [this]
          exact hone e rfl
        | cons _ _ => simp at hy)
    have : BB.fromLeaves nth (l.map (leafOf F padding)) = some t := ht
    rw [this] at e1
    cases e1
    exact ⟨r, e2⟩
  have hcol : ∃ a, collisions F t pts = .ok a := by
    unfold collisions
    by_cases hn : 0 < t.nodes.length
    · rw [if_pos hn]
      obtain ⟨⟨E, O⟩, hr⟩ := collisionsLoop_some F t pts hcp (List.range (pts.length / 3)) [] (List.replicate (pts.length / 3 + 1) 0) fun p hp => List.mem_range.mp hp
      rw [hr]
      rw [List.range_eq_range'] at hr
      obtain ⟨outs, o1, o2, o3, _, o5, _⟩ := collisionsLoop_ok F t pts _ 0 [] _ E O hr (by simp) (by simp)
      have hlast : O.getLast? = some E.length := by
        have := o5 (pts.length / 3) le_rfl
        rw [Nat.zero_add] at this
        rw [List.getLast?_eq_getElem?, o3, List.length_replicate, Nat.add_sub_cancel, this, o2, ← o1]
        simp
      dsimp only
      unfold AdjList.ofData
      rw [hlast]
      simp
    · rw [if_neg hn]
      unfold AdjList.ofData
      rw [List.getLast?_replicate, if_neg (by omega)]
      simp
  obtain ⟨a, ha⟩ := hcol
  obtain ⟨outs, o1, o2, o3⟩ := collisions_ok F t pts a ha
  unfold search at h
  rw [htree] at h
  dsimp only at h
  rw [ha] at h
  dsimp only at h
  rw [o2] at h
  dsimp only at h
  cases hr : Collide.collidingCells junk sqrt eps eps2 g tdim x outs pts with
  | ok r => rw [hr] at h; cases h
  | error e =>
    rw [hr] at h
    cases h
    congr 1
    have hmem : ∀ cells ∈ outs, ∀ c ∈ cells, c ∈ es := by
      intro cells hcells c hc
      obtain ⟨i, hi⟩ := List.mem_iff_getElem?.mp hcells
      obtain ⟨p, _, hp⟩ := o3 i cells hi
      have hperm : cells.Perm (BB.hits F (fn p) (l.map (leafOf F padding))) := collide_perm F hF nth hnth _ t ht (fn p) cells hp
      have := (hits_count F padding wedge g tdim x (fn p) c es l hfor).1
      rw [← hperm.count_eq c] at this
      have h0 := List.count_pos_iff.mpr hc
      exact List.count_pos_iff.mp (by omega)
    unfold Collide.collidingCells at hr
    cases hpl : Collide.pointsLoop junk sqrt eps eps2 g tdim x pts 0 outs ⟨[], [0]⟩ with
    | error e' =>
      rw [hpl] at hr
      cases hr
      exact pointsLoop_limit junk hj sqrt hsq eps eps2 heps g tdim x pts es hm hne hT e outs 0 _ (by omega) hmem hpl
    | ok s =>
      rw [hpl] at hr
      obtain ⟨_, _, _, _, o6, _⟩ := colliding_loop junk hj sqrt hsq eps eps2 heps h1 h2 g tdim x pts outs 0 ⟨[], [0]⟩ s hpl rfl
      dsimp only at hr
      unfold AdjList.ofData at hr
      rw [o6] at hr
      simp at hr

/-! ## Curved cells -/

section sqrt
variable {K : Type} [Field K] [LinearOrder K] [IsStrictOrderedRing K]

theorem vectors_sqrt (junk : Nat → Nat → K) (sqrt : K → K) (hsq : ∀ t, 0 < t → 0 < sqrt t) (eps : K) (g : Geo) (tdim dim : Nat) (x pts : List K) :
    ∀ (es : List Nat) (i : Nat), Collide.vectors junk sqrt eps g tdim dim x pts i es = Collide.vectors junk (fun _ => 1) eps g tdim dim x pts i es := by
  intro es
  induction es with
  | nil => intro i; rfl
  | cons e es ih =>
    intro i
    have : Collide.vector junk sqrt eps g tdim dim x pts i e = Collide.vector junk (fun _ => 1) eps g tdim dim x pts i e := by
      unfold Collide.vector Collide.gjk
      split
      · rw [distance_sqrt _ sqrt hsq]
      · rfl
    unfold Collide.vectors
    rw [this, ih]

theorem pointsLoop_sqrt (junk : Nat → Nat → Nat → K) (sqrt : K → K) (hsq : ∀ t, 0 < t → 0 < sqrt t) (eps eps2 : K) (g : Geo) (tdim : Nat) (x pts : List K) :
    ∀ (cand : List (List Nat)) (i : Nat) (s : Collide.State),
      Collide.pointsLoop junk sqrt eps eps2 g tdim x pts i cand s = Collide.pointsLoop junk (fun _ => 1) eps eps2 g tdim x pts i cand s := by
  intro cand
  induction cand with
  | nil => intro i s; rfl
  | cons c cand ih =>
    intro i s
    have : ∀ p, Collide.squared (junk i) sqrt eps false g tdim tdim x c (Collide.copies p c.length) =
        Collide.squared (junk i) (fun _ => 1) eps false g tdim tdim x c (Collide.copies p c.length) := by
      intro p
      unfold Collide.squared Collide.shortest
      rw [vectors_sqrt _ sqrt hsq]
    unfold Collide.pointsLoop
    simp only [this, ih]

/-- The square root does not matter. -/
theorem search_sqrt (junk : Nat → Nat → Nat → K) (sqrt : K → K) (hsq : ∀ t, 0 < t → 0 < sqrt t) (eps eps2 : K) (F : Fl K) (padding : K)
    (nth : List (Box K × Nat) → List (Box K × Nat)) (wedge : Bool) (g : Geo) (tdim n : Nat) (x : List K) (entities : Option (List Nat)) (pts : List K) :
    search junk sqrt eps eps2 F padding nth wedge g tdim n x entities pts = search junk (fun _ => 1) eps eps2 F padding nth wedge g tdim n x entities pts := by
  unfold search Collide.collidingCells
  simp only [pointsLoop_sqrt junk sqrt hsq]

end sqrt

/-- Cells with three nodes on a line. -/
def arc : Geo := ⟨fun _ => [0, 1, 2], fun _ _ => [0, 1, 2], fun _ => [], fun _ => [], fun _ _ l => l⟩

/-- A curved cell does not lie in the hull of its nodes: the point of an interval of degree two at 1/4 of the reference cell is not found.  The nodes are
(0, 0), (4, 0) and, in the middle, (2, 4); the last statement gives the point by the basis functions of degree two. -/
theorem C97_refuted_curved (sqrt : ℚ → ℚ) (hsq : ∀ t, 0 < t → 0 < sqrt t) (e : Nat) (he : e = 63 ∨ e = 52) :
    search (fun _ _ _ => 0) sqrt (1000 / 2 ^ e) (1 / 10 ^ 12) ⟨fun a b => a - b, fun a b => a + b, fun a b => a * b, 1 / 10 ^ 14⟩ 0 id false arc 1 1
        [0, 0, 0, 4, 0, 0, 2, 4, 0] none [1, 3, 0] = .ok ⟨[], [0, 0]⟩ ∧
      ∃ t : ℚ, t = 1 / 4 ∧ (1 : ℚ) = (1 - t) * (1 - 2 * t) * 0 + t * (2 * t - 1) * 4 + 4 * t * (1 - t) * 2 ∧
        (3 : ℚ) = (1 - t) * (1 - 2 * t) * 0 + t * (2 * t - 1) * 0 + 4 * t * (1 - t) * 4 := by
  refine ⟨?_, 1 / 4, rfl, by norm_num, by norm_num⟩
  rw [search_sqrt _ sqrt hsq]
  rcases he with rfl | rfl <;> decide +kernel

/-- A point in a tree with the single cell 3 that is outside of the box. -/
theorem C97_refuted_single (sqrt : ℚ → ℚ) (hsq : ∀ t, 0 < t → 0 < sqrt t) (e : Nat) (he : e = 63 ∨ e = 52) :
    search (fun _ _ _ => 0) sqrt (1000 / 2 ^ e) (1 / 10 ^ 12) ⟨fun a b => a - b, fun a b => a + b, fun a b => a * b, 1 / 10 ^ 14⟩ 0 id false seg 1 4
        [0, 0, 0, 1, 0, 0] (some [3]) [2, 0, 0] = .error .assert := by
  rw [search_sqrt _ sqrt hsq]
  rcases he with rfl | rfl <;> decide +kernel

/-! ## The hypotheses can be met -/
namespace C97ex

/-- Exact arithmetic. -/
noncomputable def exact : Fl ℝ := ⟨fun a b => a - b, fun a b => a + b, fun a b => a * b, 0⟩

theorem mono : Spec.BB.Mono exact :=
  ⟨fun _ _ _ _ h h' => sub_le_sub h h', fun _ _ _ _ h h' => add_le_add h h', fun a b _ => by simp [exact], fun a b _ => by simp [exact]⟩

theorem pt0 : Coord ([1 / 2, 0, 0] : List ℝ) 0 (1 / 2, 0, 0) := ⟨rfl, rfl, rfl⟩

theorem inside : Hull [((0 : ℝ), (0 : ℝ), (0 : ℝ)), (1, 0, 0)] (1 / 2, 0, 0) := ⟨[(1 / 2, (0, 0, 0)), (1 / 2, (1, 0, 0))], by simp, by norm_num, by simp⟩

/-- If GJK ends within its iterations, cell 0 of an interval is found for its midpoint; if not, that is the error. -/
example (junk : Nat → Nat → Nat → ℝ) (hj : ∀ i k n, junk i k n ≤ 0) :
    (∃ a, search junk Real.sqrt (1 / 100) (1 / 10) exact 0 id false seg 1 1 [0, 0, 0, 1, 0, 0] none [1 / 2, 0, 0] = .ok a ∧ a.links 0 = some [0]) ∨
    search junk Real.sqrt (1 / 100) (1 / 10) exact 0 id false seg 1 1 [0, 0, 0, 1, 0, 0] none [1 / 2, 0, 0] = .error (.collide (.gjk .limit)) := by
  have hc0 : ∀ i p, Coord ([1 / 2, 0, 0] : List ℝ) i p → p = (1 / 2, 0, 0) := by
    intro i p hp
    have hi := (List.getElem?_eq_some_iff.mp hp.2.2).1
    simp only [List.length_cons, List.length_nil] at hi
    exact C96ex.coord p i (by omega) hp
  cases h : search junk Real.sqrt (1 / 100) (1 / 10) exact 0 id false seg 1 1 [0, 0, 0, 1, 0, 0] none [1 / 2, 0, 0] with
  | ok a =>
    left
    refine ⟨a, rfl, ?_⟩
    obtain ⟨_, h2⟩ := C97_search_partial junk hj Real.sqrt (fun _ => Real.sqrt_pos.mpr) (1 / 100) (1 / 10) (by norm_num) (by norm_num) (by norm_num) exact mono 0
      (by simp [exact]) id (fun _ => .refl _) false seg 1 1 [0, 0, 0, 1, 0, 0] none [1 / 2, 0, 0] [0] (.inr ⟨rfl, rfl⟩)
      (by intro c _ d hd; simp [seg] at hd ⊢; omega) a h
    obtain ⟨out, e1, e2, _, e4⟩ := h2 0 _ pt0
    have h0 : out.count 0 = 1 := e4 0 (by simp) ⟨_, .cons ⟨rfl, rfl, rfl⟩ (.cons ⟨rfl, rfl, rfl⟩ .nil), inside⟩
    have hp : out.Perm [0] := List.perm_iff_count.mpr fun c => by
      by_cases hc : c = 0
      · subst hc; rw [h0]; rfl
      · have := e2 c
        have h3 : ([0] : List Nat).count c = 0 := List.count_eq_zero_of_not_mem (by simpa using hc)
        omega
    rw [e1, List.perm_singleton.mp hp]
  | error e =>
    right
    rw [C97_ends_partial junk hj Real.sqrt (fun _ => Real.sqrt_pos.mpr) (1 / 100) (1 / 10) (by norm_num) (by norm_num) (by norm_num) exact mono 0 id
      (fun _ => .refl _) false seg 1 1 [0, 0, 0, 1, 0, 0] none [1 / 2, 0, 0] [0] (.inr ⟨rfl, rfl⟩) (by intro e he; simpa using he.symm)
      ⟨fun h => absurd rfl h, fun e _ c _ => ⟨fun le d hd => by simp [seg] at hd ⊢; omega, fun n hn => by simp [seg] at hn ⊢; omega⟩⟩ (by simp) (by simp [seg])
      (by simp [seg]) (fun i p ps e _ hp h => by rw [C96ex.pts _ rfl e ps h, hc0 i p hp]; exact C96ex.noTie _ rfl) e h]

end C97ex

end Verif.Props
