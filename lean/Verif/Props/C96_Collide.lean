import Verif.Model.Collide
import Verif.Spec.Collide
import Verif.Props.C93_EntityGeom
import Verif.Props.C95_Gjk
/-! # C96: distance of points and mesh entities; collision of points and cells -/
namespace Verif.Props
open Verif.Collide
open Verif.Submesh (Geo)
open Verif.Gjk (V)
open Verif.EntityGeom (point points)
open Verif.Spec.Gjk (Hull Between Least NoTie)
open Verif.Spec.EntityGeom (Coord MeshOk)
open Verif.Spec.Collide (CellPts PtsOf sqd Bracketed Summed)

section general
variable {K : Type} [Field K] [LinearOrder K] [IsStrictOrderedRing K]

theorem points_coord (x : List K) (l : List Nat) (ps : List (V K)) : points x l = some ps ↔ List.Forall₂ (Coord x) l ps := by
  unfold points
  rw [opt_mapM_forall]
  constructor
  · exact fun h => h.imp fun a b hab => (point_iff x a b).mp hab
  · exact fun h => h.imp fun a b hab => (point_iff x a b).mpr hab

theorem nodesOf_pts (g : Geo) (tdim dim : Nat) (x : List K) (e : Nat) (ps : List (V K)) (h : nodesOf g tdim dim x e = some ps) :
    PtsOf g tdim dim x e ps := by
  unfold nodesOf at h
  by_cases hd : dim = tdim
  · rw [if_pos hd] at h
    exact .inl ⟨hd, (points_coord x _ _).mp h⟩
  · rw [if_neg hd] at h
    simp only [Option.bind_eq_bind] at h
    obtain ⟨c, hc, h⟩ := Option.bind_eq_some_iff.mp h
    replace h : (if (g.c2e c).length ≤ (g.c2e c).idxOf e then none
      else (List.mapM (fun d => (g.xdofs c)[d]?) (g.closure dim ((g.c2e c).idxOf e))).bind fun l => points x l) = some ps := h
    by_cases hle : (g.c2e c).length ≤ (g.c2e c).idxOf e
    · rw [if_pos hle] at h; cases h
    · rw [if_neg hle] at h
      obtain ⟨l, hl, h⟩ := Option.bind_eq_some_iff.mp h
      have hlt : (g.c2e c).idxOf e < (g.c2e c).length := by omega
      exact .inr ⟨hd, c, List.mem_of_mem_head? hc, (g.c2e c).idxOf e, by rw [List.getElem?_eq_getElem hlt, List.getElem_idxOf], l,
        (opt_mapM_forall _ _ _).mp hl, (points_coord x _ _).mp h⟩

theorem points_some (x : List K) (l : List Nat) (h : ∀ n ∈ l, 3 * n + 2 < x.length) : ∃ ps, points x l = some ps :=
  mapM_option_ok (point x) l fun n hn => by
    have := h n hn
    exact ⟨(x[3 * n], x[3 * n + 1], x[3 * n + 2]), (point_iff x n _).mpr
      ⟨List.getElem?_eq_getElem (by omega), List.getElem?_eq_getElem (by omega), List.getElem?_eq_getElem (by omega)⟩⟩

theorem nodesOf_some (g : Geo) (tdim dim : Nat) (x : List K) (es : List Nat) (h : MeshOk g tdim dim x es) (e : Nat) (he : e ∈ es) :
    ∃ ps, nodesOf g tdim dim x e = some ps := by
  by_cases hd : dim = tdim
  · unfold nodesOf
    rw [if_pos hd]
    exact points_some x _ (h.dofs e he e (.inl ⟨hd, rfl⟩)).2
  · obtain ⟨l, ps, h1, h2⟩ := entityNodes_some g tdim dim x es h e he
    refine ⟨ps, ?_⟩
    unfold Submesh.entityNodes at h1
    rw [if_neg hd] at h1
    unfold nodesOf
    rw [if_neg hd]
    simp only [EntityGeom.plain, Option.bind_eq_bind] at h1 ⊢
    obtain ⟨c, hc, h1⟩ := Option.bind_eq_some_iff.mp h1
    replace h1 : (if (g.c2e c).length ≤ (g.c2e c).idxOf e then none
      else List.mapM (fun d => (g.xdofs c)[d]?) (g.closure dim ((g.c2e c).idxOf e))) = some l := h1
    refine Option.bind_eq_some_iff.mpr ⟨c, hc, ?_⟩
    show (if (g.c2e c).length ≤ (g.c2e c).idxOf e then none
      else (List.mapM (fun d => (g.xdofs c)[d]?) (g.closure dim ((g.c2e c).idxOf e))).bind fun l => points x l) = some ps
    by_cases hle : (g.c2e c).length ≤ (g.c2e c).idxOf e
    · rw [if_pos hle] at h1; cases h1
    · rw [if_neg hle] at h1 ⊢
      rw [h1]
      exact h2

theorem coord_unique (x : List K) (n : Nat) (p q : V K) (hp : Coord x n p) (hq : Coord x n q) : p = q := by
  have := (point_iff x n p).mpr hp
  rw [(point_iff x n q).mpr hq] at this
  exact (Option.some.inj this).symm

theorem cellPts_unique (g : Geo) (x : List K) (c : Nat) (ps qs : List (V K)) (hp : CellPts g x c ps) (hq : CellPts g x c qs) : ps = qs := by
  have := (points_coord x _ _).mpr hp
  rw [(points_coord x _ _).mpr hq] at this
  exact (Option.some.inj this).symm

theorem hull_single (p q : V K) (h : Hull [p] q) : q = p := by
  obtain ⟨l, h1, h2, rfl⟩ := h
  have key : ∀ f : V K → K, (l.map fun a => a.1 * f a.2).sum = (l.map fun a => a.1).sum * f p := by
    intro f
    clear h2
    induction l with
    | nil => simp
    | cons a l ih =>
      have ha : a.2 = p := by have := (h1 a (by simp)).2; simpa using this
      rw [List.map_cons, List.map_cons, List.sum_cons, List.sum_cons, ih fun b hb => h1 b (by simp [hb]), ha]
      ring
  have e1 := key fun v => v.1
  have e2 := key fun v => v.2.1
  have e3 := key fun v => v.2.2
  rw [h2, one_mul] at e1 e2 e3
  rw [e1, e2, e3]

theorem single_hull (p : V K) : Hull [p] p := ⟨[(1, p)], by simp, by simp, by simp⟩

theorem inner_sqd (p q : V K) : Spec.Gjk.inner (p - q) (p - q) = sqd p q := by
  simp only [Spec.Gjk.inner, sqd, Prod.fst_sub, Prod.snd_sub]; ring

theorem sqd_self (p : V K) : sqd p p = 0 := by simp [sqd]

theorem square_inner (v : V K) : square v = Spec.Gjk.inner v v := by simp only [square, Spec.Gjk.inner]; ring

theorem left_inner (v : V K) : leftToRight op 0 v.1 v.2.1 v.2.2 = Spec.Gjk.inner v v := by simp only [leftToRight, op, Spec.Gjk.inner]; ring

theorem vectors_get (junk : Nat → Nat → K) (sqrt : K → K) (eps : K) (g : Geo) (tdim dim : Nat) (x pts : List K) :
    ∀ (es : List Nat) (i : Nat) (vs : List (V K)), vectors junk sqrt eps g tdim dim x pts i es = .ok vs → vs.length = es.length ∧
      ∀ (k e : Nat) (v : V K), es[k]? = some e → vs[k]? = some v → vector junk sqrt eps g tdim dim x pts (i + k) e = .ok v := by
  intro es
  induction es with
  | nil => intro i vs h; cases h; simp
  | cons a es ih =>
    intro i vs h
    unfold vectors at h
    cases hv : vector junk sqrt eps g tdim dim x pts i a with
    | error e => rw [hv] at h; cases h
    | ok v =>
      rw [hv] at h
      cases hr : vectors junk sqrt eps g tdim dim x pts (i + 1) es with
      | error e => rw [hr] at h; cases h
      | ok ws =>
        rw [hr] at h
        cases h
        obtain ⟨i1, i2⟩ := ih _ _ hr
        refine ⟨by simp [i1], ?_⟩
        intro k e w he hw
        cases k with
        | zero => cases he; cases hw; exact hv
        | succ k =>
          have := i2 k e w he hw
          rwa [show i + 1 + k = i + (k + 1) by omega] at this

theorem vector_get (junk : Nat → Nat → K) (sqrt : K → K) (eps : K) (g : Geo) (tdim dim : Nat) (x pts : List K) (i e : Nat) (v : V K)
    (h : vector junk sqrt eps g tdim dim x pts i e = .ok v) :
    ∃ ps p, PtsOf g tdim dim x e ps ∧ Coord pts i p ∧ Gjk.distance (junk i) sqrt eps [p] ps = .ok v := by
  unfold vector at h
  cases hn : nodesOf g tdim dim x e with
  | none => rw [hn] at h; cases h
  | some ps =>
    cases hp : point pts i with
    | none => rw [hn, hp] at h; cases h
    | some p =>
      rw [hn, hp] at h
      replace h : gjk (junk i) sqrt eps p ps = .ok v := h
      refine ⟨ps, p, nodesOf_pts _ _ _ _ _ _ hn, (point_iff _ _ _).mp hp, ?_⟩
      unfold gjk at h
      cases hd : Gjk.distance (junk i) sqrt eps [p] ps with
      | error e => rw [hd] at h; cases h
      | ok w => rw [hd] at h; cases h; rfl

theorem shortest_vectors (junk : Nat → Nat → K) (sqrt : K → K) (eps : K) (many : Bool) (g : Geo) (tdim dim : Nat) (x : List K) (es : List Nat) (pts : List K)
    (vs : List (V K)) (h : shortest junk sqrt eps many g tdim dim x es pts = .ok vs) : vectors junk sqrt eps g tdim dim x pts 0 es = .ok vs := by
  unfold shortest at h
  split at h
  · cases h
  · exact h

theorem squared_shortest (junk : Nat → Nat → K) (sqrt : K → K) (eps : K) (many : Bool) (g : Geo) (tdim dim : Nat) (x : List K) (es : List Nat) (pts : List K)
    (ds : List K) (h : squared junk sqrt eps many g tdim dim x es pts = .ok ds) :
    ∃ vs, shortest junk sqrt eps many g tdim dim x es pts = .ok vs ∧ ds = vs.map square := by
  unfold squared at h
  cases hs : shortest junk sqrt eps many g tdim dim x es pts with
  | error e => rw [hs] at h; cases h
  | ok vs => rw [hs] at h; cases h; exact ⟨vs, rfl, rfl⟩

theorem copies_coord (p : V K) : ∀ (n k : Nat), k < n → Coord (copies p n) k p := by
  intro n
  induction n with
  | zero => intro k hk; omega
  | succ n ih =>
    intro k hk
    cases k with
    | zero => exact ⟨rfl, rfl, rfl⟩
    | succ k =>
      obtain ⟨h1, h2, h3⟩ := ih k (by omega)
      refine ⟨?_, ?_, ?_⟩
      · rw [show 3 * (k + 1) = 3 * k + 1 + 1 + 1 by omega]; exact h1
      · rw [show 3 * (k + 1) + 1 = 3 * k + 1 + 1 + 1 + 1 by omega]; exact h2
      · rw [show 3 * (k + 1) + 2 = 3 * k + 2 + 1 + 1 + 1 by omega]; exact h3

end general

/-! ## The vector for one entity -/

theorem gjk_point (p : V ℝ) (ps : List (V ℝ)) (hT : NoTie [p] ps) (junk : Nat → ℝ) (hj : ∀ i, junk i ≤ 0) (sqrt : ℝ → ℝ)
    (hsq : ∀ t, 0 < t → 0 < sqrt t) (eps : ℝ) (heps : 0 < eps) (h1 : eps ≤ 1) (v : V ℝ) (h : Gjk.distance junk sqrt eps [p] ps = .ok v) :
    (∃ q, Hull ps q ∧ v = p - q) ∧ ∀ q, Hull ps q → Spec.Gjk.inner v v ≤ sqd p q + 2 * max eps (eps * Spec.Gjk.inner v v) := by
  obtain ⟨⟨p', q, hp, hq, hv⟩, hL⟩ := C95_distance_partial [p] ps hT junk hj sqrt hsq eps heps h1 v h
  obtain rfl := hull_single p p' hp
  refine ⟨⟨q, hq, hv⟩, ?_⟩
  intro q' hq'
  have := hL (p' - q') ⟨p', q', hp, hq', rfl⟩
  rwa [inner_sqd] at this

/-- C96: `shortest_vector` gives one vector for each entity; it leads from a point of the hull of the nodes of the entity to the point given for it, and no
such vector is shorter, up to the tolerance of GJK. -/
theorem C96_vector_partial (junk : Nat → Nat → ℝ) (hj : ∀ k i, junk k i ≤ 0) (sqrt : ℝ → ℝ) (hsq : ∀ t, 0 < t → 0 < sqrt t) (eps : ℝ) (heps : 0 < eps)
    (h1 : eps ≤ 1) (many : Bool) (g : Geo) (tdim dim : Nat) (x : List ℝ) (es : List Nat) (pts : List ℝ) (vs : List (V ℝ))
    (hT : ∀ (k e : Nat) p ps, es[k]? = some e → Coord pts k p → PtsOf g tdim dim x e ps → NoTie [p] ps)
    (h : shortest junk sqrt eps many g tdim dim x es pts = .ok vs) :
    vs.length = es.length ∧ ∀ (k e : Nat) (v : V ℝ), es[k]? = some e → vs[k]? = some v →
      ∃ ps p, PtsOf g tdim dim x e ps ∧ Coord pts k p ∧ (∃ q, Hull ps q ∧ v = p - q) ∧
        ∀ q, Hull ps q → Spec.Gjk.inner v v ≤ sqd p q + 2 * max eps (eps * Spec.Gjk.inner v v) := by
  obtain ⟨hl, hg⟩ := vectors_get junk sqrt eps g tdim dim x pts es 0 vs (shortest_vectors _ _ _ _ _ _ _ _ _ _ _ h)
  refine ⟨hl, ?_⟩
  intro k e v he hv
  obtain ⟨ps, p, h2, h3, h4⟩ := vector_get _ _ _ _ _ _ _ _ _ _ _ (hg k e v he hv)
  rw [Nat.zero_add] at h3 h4
  obtain ⟨h5, h6⟩ := gjk_point p ps (hT k e p ps he h3 h2) _ (hj k) sqrt hsq eps heps h1 v h4
  exact ⟨ps, p, h2, h3, h5, h6⟩

/-- C96: `squared_distance` gives for each entity the square of the distance of the point and the hull of the nodes of the entity, up to the tolerance. -/
theorem C96_squared_partial (junk : Nat → Nat → ℝ) (hj : ∀ k i, junk k i ≤ 0) (sqrt : ℝ → ℝ) (hsq : ∀ t, 0 < t → 0 < sqrt t) (eps : ℝ) (heps : 0 < eps)
    (h1 : eps ≤ 1) (many : Bool) (g : Geo) (tdim dim : Nat) (x : List ℝ) (es : List Nat) (pts : List ℝ) (ds : List ℝ)
    (hT : ∀ (k e : Nat) p ps, es[k]? = some e → Coord pts k p → PtsOf g tdim dim x e ps → NoTie [p] ps)
    (h : squared junk sqrt eps many g tdim dim x es pts = .ok ds) :
    ds.length = es.length ∧ ∀ (k e : Nat) (d : ℝ), es[k]? = some e → ds[k]? = some d →
      ∃ ps p, PtsOf g tdim dim x e ps ∧ Coord pts k p ∧ (∃ q, Hull ps q ∧ d = sqd p q) ∧ ∀ q, Hull ps q → d ≤ sqd p q + 2 * max eps (eps * d) := by
  obtain ⟨vs, hs, rfl⟩ := squared_shortest _ _ _ _ _ _ _ _ _ _ _ h
  obtain ⟨hl, hg⟩ := C96_vector_partial junk hj sqrt hsq eps heps h1 many g tdim dim x es pts vs hT hs
  refine ⟨by simp [hl], ?_⟩
  intro k e d he hd
  rw [List.getElem?_map] at hd
  obtain ⟨v, hv, rfl⟩ := Option.map_eq_some_iff.mp hd
  obtain ⟨ps, p, h2, h3, ⟨q, hq, hvq⟩, h5⟩ := hg k e v he hv
  rw [square_inner]
  exact ⟨ps, p, h2, h3, ⟨q, hq, by rw [hvq, inner_sqd]⟩, h5⟩

/-- C96: for entities of the mesh and as many points, the only failure is the limit for the number of iterations of GJK. -/
theorem C96_only_limit (junk : Nat → Nat → ℝ) (hj : ∀ k i, junk k i ≤ 0) (sqrt : ℝ → ℝ) (hsq : ∀ t, 0 < t → 0 < sqrt t) (eps : ℝ) (heps : 0 < eps)
    (g : Geo) (tdim dim : Nat) (x : List ℝ) (es : List Nat) (pts : List ℝ) (hm : MeshOk g tdim dim x es) (hp : pts.length = 3 * es.length)
    (hne : ∀ e ∈ es, ∀ ps, PtsOf g tdim dim x e ps → ps ≠ [])
    (hT : ∀ (k e : Nat) p ps, es[k]? = some e → Coord pts k p → PtsOf g tdim dim x e ps → NoTie [p] ps) (err : Collide.Err)
    (h : shortest junk sqrt eps false g tdim dim x es pts = .error err) : err = .gjk .limit := by
  have h' : vectors junk sqrt eps g tdim dim x pts 0 es = .error err := by
    unfold shortest at h
    rwa [if_neg (by simp)] at h
  clear h
  have key : ∀ (l : List Nat) (i : Nat), i + l.length = es.length → (∀ k : Nat, l[k]? = es[i + k]?) →
      vectors junk sqrt eps g tdim dim x pts i l = .error err → err = .gjk .limit := by
    intro l
    induction l with
    | nil => intro i _ _ h; cases h
    | cons e l ih =>
      intro i hi hl h
      have he : es[i]? = some e := by have := hl 0; simpa using this.symm
      have hem : e ∈ es := List.mem_of_getElem? he
      have hlen : i < es.length := by simp at hi; omega
      obtain ⟨ps, hps⟩ := nodesOf_some g tdim dim x es hm e hem
      have hP := nodesOf_pts _ _ _ _ _ _ hps
      obtain ⟨p, hpt⟩ : ∃ p, point pts i = some p := by
        exact ⟨(pts[3 * i], pts[3 * i + 1], pts[3 * i + 2]), (point_iff pts i _).mpr
          ⟨List.getElem?_eq_getElem (by omega), List.getElem?_eq_getElem (by omega), List.getElem?_eq_getElem (by omega)⟩⟩
      unfold vectors at h
      cases hv : vector junk sqrt eps g tdim dim x pts i e with
      | error e' =>
        rw [hv] at h
        cases h
        unfold vector at hv
        rw [hps, hpt] at hv
        replace hv : gjk (junk i) sqrt eps p ps = .error err := hv
        unfold gjk at hv
        cases hd : Gjk.distance (junk i) sqrt eps [p] ps with
        | ok w => rw [hd] at hv; cases hv
        | error e2 =>
          rw [hd] at hv
          cases hv
          rw [C95_only_limit [p] ps (by simp) (hne e hem ps hP) (hT i e p ps he ((point_iff _ _ _).mp hpt) hP) (junk i) (hj i) sqrt hsq eps heps e2 hd]
      | ok v =>
        rw [hv] at h
        cases hr : vectors junk sqrt eps g tdim dim x pts (i + 1) l with
        | ok ws => rw [hr] at h; cases h
        | error e' =>
          rw [hr] at h
          cases h
          refine ih (i + 1) (by simp at hi; omega) ?_ hr
          intro k
          have := hl (k + 1)
          rw [List.getElem?_cons_succ] at this
          rw [this, show i + (k + 1) = i + 1 + k by omega]
  exact key es 0 (by simp) (by simp) h'

/-! ## Cells that collide with a point -/

/-- What is found for the candidates of one point. -/
structure Found (g : Geo) (x : List ℝ) (eps2 : ℝ) (p : V ℝ) (cells out : List Nat) : Prop where
  sub : out.Sublist cells
  near : ∀ c ∈ out, ∃ ps, CellPts g x c ps ∧ (NoTie [p] ps → ∃ q, Hull ps q ∧ sqd p q < eps2)
  all : ∀ c ∈ cells, (∃ ps, CellPts g x c ps ∧ Hull ps p) → out.count c = cells.count c

theorem found_zip (g : Geo) (x : List ℝ) (eps2 : ℝ) (p : V ℝ) : ∀ (cells : List Nat) (ds : List ℝ), ds.length = cells.length →
    (∀ (k c : Nat) (d : ℝ), cells[k]? = some c → ds[k]? = some d →
      ∃ ps, CellPts g x c ps ∧ (NoTie [p] ps → ∃ q, Hull ps q ∧ d = sqd p q) ∧ (Hull ps p → d < eps2)) →
    Found g x eps2 p cells (((cells.zip ds).filter fun c => decide (c.2 < eps2)).map fun c => c.1) := by
  intro cells
  induction cells with
  | nil => intro ds _ _; exact ⟨by simp, by simp, by simp⟩
  | cons c cells ih =>
    intro ds hl h
    cases ds with
    | nil => simp at hl
    | cons d ds =>
      obtain ⟨i1, i2, i3⟩ := ih ds (by simpa using hl) fun k c d hc hd => h (k + 1) c d hc hd
      obtain ⟨ps, h1, h2, h4⟩ := h 0 c d rfl rfl
      by_cases hd : d < eps2
      · rw [List.zip_cons_cons, List.filter_cons_of_pos (by simpa using hd), List.map_cons]
        refine ⟨i1.cons₂ _, ?_, ?_⟩
        · intro c' hc'
          rcases List.mem_cons.mp hc' with rfl | hc'
          · refine ⟨ps, h1, fun hn => ?_⟩
            obtain ⟨q, hq, h3⟩ := h2 hn
            exact ⟨q, hq, h3 ▸ hd⟩
          · exact i2 c' hc'
        · intro c' hc' hh
          rw [List.count_cons, List.count_cons]
          by_cases hm : c' ∈ cells
          · rw [i3 c' hm hh]
          · have : c' ∉ ((cells.zip ds).filter fun c => decide (c.2 < eps2)).map fun c => c.1 := fun h => hm (i1.subset h)
            rw [List.count_eq_zero_of_not_mem hm, List.count_eq_zero_of_not_mem this]
      · rw [List.zip_cons_cons, List.filter_cons_of_neg (by simpa using hd)]
        refine ⟨i1.cons _, i2, ?_⟩
        intro c' hc' hh
        have hne : c' ≠ c := by
          rintro rfl
          obtain ⟨ps', k1, k2⟩ := hh
          obtain rfl := cellPts_unique g x _ _ _ h1 k1
          exact hd (h4 k2)
        rw [List.count_cons_of_ne (Ne.symm hne)]
        rcases List.mem_cons.mp hc' with rfl | hm
        · exact absurd rfl hne
        · exact i3 c' hm hh

theorem colliding_loop (junk : Nat → Nat → Nat → ℝ) (hj : ∀ i k n, junk i k n ≤ 0) (sqrt : ℝ → ℝ) (hsq : ∀ t, 0 < t → 0 < sqrt t) (eps eps2 : ℝ) (heps : 0 < eps)
    (h1 : eps < 1 / 2) (h2 : 2 * eps < eps2) (g : Geo) (tdim : Nat) (x pts : List ℝ) :
    ∀ (cand : List (List Nat)) (i : Nat) (s t : Collide.State),
      pointsLoop junk sqrt eps eps2 g tdim x pts i cand s = .ok t →
      s.offsets.getLast? = some s.cells.length →
      ∃ outs : List (List Nat), outs.length = cand.length ∧ t.cells = s.cells ++ outs.flatten ∧
        (∃ os : List Nat, t.offsets = s.offsets ++ os ∧ os.length = outs.length ∧
          ∀ k : Nat, k < os.length → os[k]? = some (s.cells.length + (outs.take (k + 1)).flatten.length)) ∧
        t.offsets.getLast? = some t.cells.length ∧
        ∀ (k : Nat) cells out p, cand[k]? = some cells → outs[k]? = some out → Coord pts (i + k) p → Found g x eps2 p cells out := by
  intro cand
  induction cand with
  | nil =>
    intro i s t h hs
    cases h
    exact ⟨[], rfl, by simp, ⟨[], by simp, rfl, by simp⟩, hs, by simp⟩
  | cons cells cand ih =>
    intro i s t h hs
    unfold pointsLoop at h
    cases hp : (if cells = [] then some ((0, 0, 0) : V ℝ) else point pts i) with
    | none => rw [hp] at h; cases h
    | some p =>
      rw [hp] at h
      dsimp only at h
      cases hd : squared (junk i) sqrt eps false g tdim tdim x cells (copies p cells.length) with
      | error e => rw [hd] at h; cases h
      | ok ds =>
        rw [hd] at h
        obtain ⟨outs, o1, o2, ⟨os, o3, o4, o5⟩, o6, o7⟩ := ih (i + 1) _ t h (by simp [push])
        refine ⟨(((cells.zip ds).filter fun c => decide (c.2 < eps2)).map fun c => c.1) :: outs, by simp [o1], ?_, ?_, o6, ?_⟩
        · rw [o2]; simp [push]
        · refine ⟨(s.cells.length + (((cells.zip ds).filter fun c => decide (c.2 < eps2)).map fun c => c.1).length) :: os, ?_, by simp [o4], ?_⟩
          · rw [o3]; simp [push]
          · intro k hk
            cases k with
            | zero => simp
            | succ k =>
              rw [List.getElem?_cons_succ, o5 k (by simpa using hk)]
              simp [push, Nat.add_assoc]
        · intro k cs out p' hk ho hc
          cases k with
          | succ k => exact o7 k cs out p' hk ho (by rwa [show i + 1 + k = i + (k + 1) by omega])
          | zero =>
            cases hk
            cases ho
            by_cases hce : cells = []
            · subst hce; exact ⟨by simp, by simp, by simp⟩
            · rw [if_neg hce] at hp
              obtain rfl := coord_unique pts i p p' ((point_iff _ _ _).mp hp) hc
              obtain ⟨vs, hs', rfl⟩ := squared_shortest _ _ _ _ _ _ _ _ _ _ _ hd
              obtain ⟨c1, c2⟩ := vectors_get (junk i) sqrt eps g tdim tdim x _ cells 0 vs (shortest_vectors _ _ _ _ _ _ _ _ _ _ _ hs')
              refine found_zip g x eps2 p cells _ (by simp [c1]) ?_
              intro k c d hk' hdk
              rw [List.getElem?_map] at hdk
              obtain ⟨v, hv, rfl⟩ := Option.map_eq_some_iff.mp hdk
              obtain ⟨ps, q, k1, k2, k3⟩ := vector_get _ _ _ _ _ _ _ _ _ _ _ (c2 k c v hk' hv)
              rw [Nat.zero_add] at k2 k3
              obtain rfl := coord_unique _ k q p k2 (copies_coord p _ k (List.getElem?_eq_some_iff.mp hk').1)
              have k1' : CellPts g x c ps := by
                rcases k1 with ⟨_, k1⟩ | ⟨k1, _⟩
                · exact k1
                · exact absurd rfl k1
              rw [square_inner]
              refine ⟨ps, k1', fun hn => ?_, fun hh => ?_⟩
              · obtain ⟨⟨q', hq', hvq⟩, _⟩ := gjk_point q ps hn (junk i k) (hj i k) sqrt hsq eps heps (by linarith) v k3
                exact ⟨q', hq', by rw [hvq, inner_sqd]⟩
              · have := C95_apart [q] ps (junk i k) (hj i k) sqrt hsq eps heps h1 v k3 q (single_hull q) hh
                linarith

/-- C96: `compute_colliding_cells` lists for each point some of its candidates, in their order.  Every candidate with a hull that contains the point is
listed as often as it is a candidate; every cell that is listed, unless there are ties, has a point that is nearer than the tolerance. -/
theorem C96_colliding_partial (junk : Nat → Nat → Nat → ℝ) (hj : ∀ i k n, junk i k n ≤ 0) (sqrt : ℝ → ℝ) (hsq : ∀ t, 0 < t → 0 < sqrt t) (eps eps2 : ℝ)
    (heps : 0 < eps) (h1 : eps < 1 / 2) (h2 : 2 * eps < eps2) (g : Geo) (tdim : Nat) (x : List ℝ) (cand : List (List Nat)) (pts : List ℝ)
    (a : AdjList.AdjList Nat) (h : collidingCells junk sqrt eps eps2 g tdim x cand pts = .ok a) :
    a.numNodes = cand.length ∧ ∀ (i : Nat) cells p, cand[i]? = some cells → Coord pts i p →
      ∃ out, a.links i = some out ∧ out.Sublist cells ∧ (∀ c ∈ out, ∃ ps, CellPts g x c ps ∧ (NoTie [p] ps → ∃ q, Hull ps q ∧ sqd p q < eps2)) ∧
        ∀ c ∈ cells, (∃ ps, CellPts g x c ps ∧ Hull ps p) → out.count c = cells.count c := by
  unfold collidingCells at h
  cases hl : pointsLoop junk sqrt eps eps2 g tdim x pts 0 cand ⟨[], [0]⟩ with
  | error e => rw [hl] at h; cases h
  | ok t =>
    rw [hl] at h
    obtain ⟨outs, o1, o2, ⟨os, o3, o4, o5⟩, o6, o7⟩ := colliding_loop junk hj sqrt hsq eps eps2 heps h1 h2 g tdim x pts cand 0 ⟨[], [0]⟩ t hl rfl
    have ha : a = ⟨t.cells, t.offsets⟩ := by
      dsimp only at h
      unfold AdjList.ofData at h
      rw [o6] at h
      simpa using h.symm
    subst ha
    simp only [List.nil_append, List.length_nil, Nat.zero_add] at o2 o3 o5
    have hoff : ∀ k : Nat, k ≤ os.length → t.offsets[k]? = some (outs.take k).flatten.length := by
      intro k hk
      rw [o3]
      cases k with
      | zero => simp
      | succ k =>
        show os[k]? = _
        exact o5 k (by omega)
    refine ⟨by simp [AdjList.AdjList.numNodes, o3, o4, o1], ?_⟩
    intro i cells p hi hp
    have hlt : i < outs.length := by rw [o1]; exact (List.getElem?_eq_some_iff.mp hi).1
    have hF := o7 i cells outs[i] p hi (List.getElem?_eq_getElem hlt) (by rwa [Nat.zero_add])
    refine ⟨outs[i], ?_, hF.sub, hF.near, hF.all⟩
    unfold AdjList.AdjList.links
    rw [show (AdjList.AdjList.mk t.cells t.offsets).offsets = t.offsets from rfl, hoff i (by omega), hoff (i + 1) (by omega)]
    show some ((t.cells.drop _).take _) = _
    rw [o2]
    have hsplit : outs = outs.take i ++ outs[i] :: outs.drop (i + 1) := by
      rw [List.getElem_cons_drop, List.take_append_drop]
    have ht : outs.take (i + 1) = outs.take i ++ [outs[i]] := by rw [List.take_succ_eq_append_getElem hlt]
    rw [ht, List.flatten_append, List.length_append]
    have hfl : outs.flatten = (outs.take i).flatten ++ (outs[i] ++ (outs.drop (i + 1)).flatten) := by
      have := congrArg List.flatten hsplit
      rw [List.flatten_append, List.flatten_cons] at this
      exact this
    rw [hfl, List.drop_left]
    simp

/-- C96: `compute_first_colliding_cell`, with a library that adds from left to right, returns a cell that, unless there are ties, has a point nearer than
the tolerance, and no candidate before it contains the point; it returns -1 only if no candidate contains the point. -/
theorem C96_first_partial (junk : Nat → Nat → ℝ) (hj : ∀ k n, junk k n ≤ 0) (sqrt : ℝ → ℝ) (hsq : ∀ t, 0 < t → 0 < sqrt t) (eps tol : ℝ)
    (heps : 0 < eps) (h1 : eps < 1 / 2) (h2 : 2 * eps < tol) (g : Geo) (x : List ℝ) (p : V ℝ) : ∀ (cells : List Nat) (i : Nat)
    (r : Option Nat) (_ : firstCell leftToRight junk sqrt eps g x p tol i cells = .ok r),
    (r = none ∧ ∀ c ∈ cells, ¬ ∃ ps, CellPts g x c ps ∧ Hull ps p) ∨
    ∃ c pre post, r = some c ∧ cells = pre ++ c :: post ∧ (∃ ps, CellPts g x c ps ∧ (NoTie [p] ps → ∃ q, Hull ps q ∧ sqd p q < tol)) ∧
      ∀ c' ∈ pre, ¬ ∃ ps, CellPts g x c' ps ∧ Hull ps p := by
  intro cells
  induction cells with
  | nil => intro i r h; cases h; exact .inl ⟨rfl, by simp⟩
  | cons c cells ih =>
    intro i r h
    unfold firstCell at h
    cases hps : points x (g.xdofs c) with
    | none => rw [hps] at h; cases h
    | some ps =>
      rw [hps] at h
      have hC : CellPts g x c ps := (points_coord _ _ _).mp hps
      dsimp only at h
      unfold gjk at h
      cases hd : Gjk.distance (junk i) sqrt eps [p] ps with
      | error e => rw [hd] at h; cases h
      | ok v =>
        rw [hd] at h
        dsimp only at h
        rw [left_inner] at h
        by_cases hlt : Spec.Gjk.inner v v < tol
        · rw [if_pos hlt] at h
          cases h
          refine .inr ⟨c, [], cells, rfl, rfl, ⟨ps, hC, fun hn => ?_⟩, by simp⟩
          obtain ⟨⟨q, hq, hv⟩, _⟩ := gjk_point p ps hn (junk i) (hj i) sqrt hsq eps heps (by linarith) v hd
          refine ⟨q, hq, ?_⟩
          rwa [hv, inner_sqd] at hlt
        · rw [if_neg hlt] at h
          have hno : ¬ ∃ ps, CellPts g x c ps ∧ Hull ps p := by
            rintro ⟨ps', k1, k2⟩
            obtain rfl := cellPts_unique g x _ _ _ hC k1
            have := C95_apart [p] ps (junk i) (hj i) sqrt hsq eps heps h1 v hd p (single_hull p) k2
            linarith
          rcases ih (i + 1) r h with ⟨k1, k2⟩ | ⟨c', pre, post, k1, k2, k3, k4⟩
          · refine .inl ⟨k1, ?_⟩
            intro c' hc'
            rcases List.mem_cons.mp hc' with rfl | hc'
            · exact hno
            · exact k2 c' hc'
          · refine .inr ⟨c', c :: pre, post, k1, by rw [k2]; rfl, k3, ?_⟩
            intro c'' hc''
            rcases List.mem_cons.mp hc'' with rfl | hc''
            · exact hno
            · exact k4 c'' hc''

/-! ## What goes wrong -/

/-- A mesh with one cell, an interval. -/
def seg : Geo := ⟨fun _ => [0, 1], fun _ _ => [0, 1], fun _ => [], fun _ => [], fun _ _ l => l⟩

/-- The order of additions that the C++ standard allows but that adds a component without squaring it. -/
def otherOrder (f : ℚ → ℚ → ℚ) (init a b c : ℚ) : ℚ := f (f a b) (f c init)

/-- `std::reduce` needs an operation that is associative and commutative; the one given is neither.  With another order of additions that the standard
allows, `compute_first_colliding_cell` returns a cell at distance five. -/
theorem C96_refuted_reduce (sqrt : ℚ → ℚ) (hsq : ∀ t, 0 < t → 0 < sqrt t) (e : Nat) (he : e = 63 ∨ e = 52) :
    (∀ (f : ℚ → ℚ → ℚ) (init a b c : ℚ), Summed f [init, a, b, c] (otherOrder f init a b c)) ∧
      firstCell otherOrder (fun _ _ => 0) sqrt (1000 / 2 ^ e) seg [0, 0, 0, 1, 0, 0] (-5, 0, 0) (1 / 10 ^ 12) 0 [0] = .ok (some 0) ∧
      CellPts seg ([0, 0, 0, 1, 0, 0] : List ℚ) 0 [(0, 0, 0), (1, 0, 0)] ∧
      ∀ q, Hull [((0 : ℚ), (0 : ℚ), (0 : ℚ)), (1, 0, 0)] q → 25 ≤ sqd (-5, 0, 0) q := by
  refine ⟨?_, ?_, ?_, ?_⟩
  · intro f init a b c
    refine ⟨[a, b] ++ [c, init], ?_, .two _ _ _ _ (.two [a] [b] _ _ (.one a) (.one b)) (.two [c] [init] _ _ (.one c) (.one init))⟩
    have h1 : [a, b, c, init].Perm ([a, b, c] ++ [init]) := .refl _
    exact h1.trans List.perm_append_comm
  · have hg : gjk (fun _ => 0) sqrt (1000 / 2 ^ e) ((-5, 0, 0) : V ℚ) [(0, 0, 0), (1, 0, 0)] = .ok (-5, 0, 0) := by
      unfold gjk
      rw [distance_sqrt _ sqrt hsq]
      rcases he with rfl | rfl <;> decide +kernel
    have hp : points ([0, 0, 0, 1, 0, 0] : List ℚ) (seg.xdofs 0) = some [(0, 0, 0), (1, 0, 0)] := by decide +kernel
    unfold firstCell
    rw [hp]
    dsimp only
    rw [hg]
    norm_num [otherOrder, op]
  · exact .cons ⟨rfl, rfl, rfl⟩ (.cons ⟨rfl, rfl, rfl⟩ .nil)
  · intro q hq
    have := hull_ge _ q (1, 0, 0) 0 hq (by
      intro t ht
      simp only [List.mem_cons, List.not_mem_nil, or_false] at ht
      rcases ht with rfl | rfl <;> norm_num [Gjk.dot3])
    simp only [Gjk.dot3] at this
    simp only [sqd]
    nlinarith [sq_nonneg (0 - q.2.1), sq_nonneg (0 - q.2.2)]

/-- The tolerance is absolute: a cell of length `10⁻⁹` collides with a point at ninety-nine times its length. -/
theorem C96_refuted_small (sqrt : ℚ → ℚ) (hsq : ∀ t, 0 < t → 0 < sqrt t) (e : Nat) (he : e = 63 ∨ e = 52) :
    collidingCells (fun _ _ _ => 0) sqrt (1000 / 2 ^ e) (1 / 10 ^ 12) seg 1 [0, 0, 0, 1 / 10 ^ 9, 0, 0] [[0]] [1 / 10 ^ 7, 0, 0] = .ok ⟨[0], [0, 1]⟩ ∧
      CellPts seg ([0, 0, 0, 1 / 10 ^ 9, 0, 0] : List ℚ) 0 [(0, 0, 0), (1 / 10 ^ 9, 0, 0)] ∧
      ∀ q, Hull [((0 : ℚ), (0 : ℚ), (0 : ℚ)), (1 / 10 ^ 9, 0, 0)] q → (99 / 10 ^ 9) ^ 2 ≤ sqd (1 / 10 ^ 7, 0, 0) q := by
  refine ⟨?_, ?_, ?_⟩
  · have hg : gjk (fun _ => 0) sqrt (1000 / 2 ^ e) ((1 / 10 ^ 7, 0, 0) : V ℚ) [(0, 0, 0), (1 / 10 ^ 9, 0, 0)] = .ok (99 / 10 ^ 9, 0, 0) ∨
        gjk (fun _ => 0) sqrt (1000 / 2 ^ e) ((1 / 10 ^ 7, 0, 0) : V ℚ) [(0, 0, 0), (1 / 10 ^ 9, 0, 0)] = .ok (1 / 10 ^ 7, 0, 0) := by
      unfold gjk
      rw [distance_sqrt _ sqrt hsq]
      rcases he with rfl | rfl <;> decide +kernel
    have hp : nodesOf seg 1 1 ([0, 0, 0, 1 / 10 ^ 9, 0, 0] : List ℚ) 0 = some [(0, 0, 0), (1 / 10 ^ 9, 0, 0)] := by decide +kernel
    have hq : point (copies ((1 / 10 ^ 7, 0, 0) : V ℚ) [0].length) 0 = some (1 / 10 ^ 7, 0, 0) := by decide +kernel
    have hv : ∀ v : V ℚ, gjk (fun _ => 0) sqrt (1000 / 2 ^ e) ((1 / 10 ^ 7, 0, 0) : V ℚ) [(0, 0, 0), (1 / 10 ^ 9, 0, 0)] = .ok v → square v < 1 / 10 ^ 12 →
        collidingCells (fun _ _ _ => 0) sqrt (1000 / 2 ^ e) (1 / 10 ^ 12) seg 1 [0, 0, 0, 1 / 10 ^ 9, 0, 0] [[0]] [1 / 10 ^ 7, 0, 0] = .ok ⟨[0], [0, 1]⟩ := by
      intro v hg hs
      have hsq : squared (fun _ _ => 0) sqrt (1000 / 2 ^ e) false seg 1 1 [0, 0, 0, 1 / 10 ^ 9, 0, 0] [0] (copies ((1 / 10 ^ 7, 0, 0) : V ℚ) [0].length) =
          .ok [square v] := by
        unfold squared shortest
        rw [if_neg (by simp)]
        unfold vectors vector
        rw [hp, hq]
        dsimp only
        rw [hg]
        rfl
      have hpt : (if [0] = ([] : List Nat) then some ((0, 0, 0) : V ℚ) else point ([1 / 10 ^ 7, 0, 0] : List ℚ) 0) = some (1 / 10 ^ 7, 0, 0) := by decide +kernel
      unfold collidingCells pointsLoop
      rw [hpt]
      dsimp only
      rw [hsq]
      have hf : (([0].zip [square v]).filter fun c => decide (c.2 < 1 / 10 ^ 12)) = [(0, square v)] :=
        List.filter_cons_of_pos (by simpa using hs)
      unfold push
      dsimp only
      rw [hf]
      rfl
    rcases hg with hg | hg
    · exact hv _ hg (by norm_num [square])
    · exact hv _ hg (by norm_num [square])
  · exact .cons ⟨rfl, rfl, rfl⟩ (.cons ⟨rfl, rfl, rfl⟩ .nil)
  · intro q hq
    have := hull_ge _ q (-1, 0, 0) (-1 / 10 ^ 9) hq (by
      intro t ht
      simp only [List.mem_cons, List.not_mem_nil, or_false] at ht
      rcases ht with rfl | rfl <;> norm_num [Gjk.dot3])
    simp only [Gjk.dot3] at this
    simp only [sqd]
    nlinarith [sq_nonneg (0 - q.2.1), sq_nonneg (0 - q.2.2)]

/-! ## The hypotheses can be met -/
namespace C96ex

/-- An interval and its midpoint. -/
theorem noTie (p : V ℝ) (hp : p = (1 / 2, 0, 0)) : NoTie [p] ([(0, 0, 0), (1, 0, 0)] : List (V ℝ)) := by
  subst hp
  refine noTie_of _ _ ?_
  rintro a b c ⟨p, hp, q, hq, rfl⟩ ⟨p', hp', q', hq', rfl⟩ ⟨p'', hp'', q'', hq'', rfl⟩ h1 h2 h3
  simp only [List.mem_cons, List.not_mem_nil, or_false] at hp hq hp' hq' hp'' hq''
  subst hp hp' hp''
  rcases hq with rfl | rfl <;> rcases hq' with rfl | rfl <;> rcases hq'' with rfl | rfl <;> revert h1 h2 h3 <;> norm_num [Spec.Gjk.inner]

theorem pts (x : List ℝ) (hx : x = [0, 0, 0, 1, 0, 0]) (c : Nat) (ps : List (V ℝ)) (h : CellPts seg x c ps) : ps = [(0, 0, 0), (1, 0, 0)] := by
  subst hx
  refine cellPts_unique seg [0, 0, 0, 1, 0, 0] c ps _ h (.cons ⟨rfl, rfl, rfl⟩ (.cons ⟨rfl, rfl, rfl⟩ .nil))

theorem result : Gjk.distance (fun _ => 0) Real.sqrt (1 / 100) [((1 / 2, 0, 0) : V ℝ)] [(0, 0, 0), (1, 0, 0)] = .ok (0, 0, 0) := by
  rw [distance_sqrt _ Real.sqrt (fun _ => Real.sqrt_pos.mpr)]
  norm_num [Gjk.distance, Gjk.loop, Gjk.step, Gjk.support, Gjk.supportLoop, Gjk.normalized, Gjk.advance, Gjk.nearest, Gjk.nearest2, Gjk.combine, Gjk.kept,
    Gjk.diff, Gjk.dot3]

theorem nodes : points ([0, 0, 0, 1, 0, 0] : List ℝ) (seg.xdofs 7) = some [(0, 0, 0), (1, 0, 0)] := rfl

theorem first : firstCell leftToRight (fun _ _ => 0) Real.sqrt (1 / 100) seg [0, 0, 0, 1, 0, 0] (1 / 2, 0, 0) (1 / 10) 0 [7] = .ok (some 7) := by
  unfold firstCell gjk
  rw [nodes]
  dsimp only
  rw [result]
  norm_num [leftToRight, op]

example : ∃ c pre post, some 7 = some c ∧ [7] = pre ++ c :: post ∧
    (∃ ps, CellPts seg ([0, 0, 0, 1, 0, 0] : List ℝ) c ps ∧ (NoTie [(1 / 2, 0, 0)] ps → ∃ q, Hull ps q ∧ sqd (1 / 2, 0, 0) q < 1 / 10)) ∧
    ∀ c' ∈ pre, ¬ ∃ ps, CellPts seg ([0, 0, 0, 1, 0, 0] : List ℝ) c' ps ∧ Hull ps (1 / 2, 0, 0) := by
  have := C96_first_partial (fun _ _ => 0) (by simp) Real.sqrt (fun _ => Real.sqrt_pos.mpr) (1 / 100) (1 / 10) (by norm_num) (by norm_num) (by norm_num)
    seg [0, 0, 0, 1, 0, 0] (1 / 2, 0, 0) [7] 0 (some 7) first
  rcases this with ⟨h, _⟩ | h
  · cases h
  · exact h

theorem squaredResult : squared (fun _ _ => 0) Real.sqrt (1 / 100) false seg 1 1 [0, 0, 0, 1, 0, 0] [7] ([1 / 2, 0, 0] : List ℝ) = .ok [0] := by
  have h1 : nodesOf seg 1 1 ([0, 0, 0, 1, 0, 0] : List ℝ) 7 = some [(0, 0, 0), (1, 0, 0)] := rfl
  have h2 : point ([1 / 2, 0, 0] : List ℝ) 0 = some (1 / 2, 0, 0) := rfl
  unfold squared shortest
  rw [if_neg (by simp)]
  unfold vectors vector gjk
  rw [h1, h2]
  dsimp only
  rw [result]
  simp [vectors, square]

theorem collidingResult : collidingCells (fun _ _ _ => 0) Real.sqrt (1 / 100) (1 / 10) seg 1 [0, 0, 0, 1, 0, 0] [[7]] ([1 / 2, 0, 0] : List ℝ) =
    .ok ⟨[7], [0, 1]⟩ := by
  have h2 : (if [7] = ([] : List Nat) then some ((0, 0, 0) : V ℝ) else point ([1 / 2, 0, 0] : List ℝ) 0) = some (1 / 2, 0, 0) := rfl
  have h3 : squared (fun _ _ => 0) Real.sqrt (1 / 100) false seg 1 1 [0, 0, 0, 1, 0, 0] [7] (copies ((1 / 2, 0, 0) : V ℝ) [7].length) = .ok [0] := squaredResult
  unfold collidingCells pointsLoop
  rw [h2]
  dsimp only
  rw [h3]
  norm_num [pointsLoop, push, AdjList.ofData]

theorem coord (p : V ℝ) (k : Nat) (hk : k = 0) (h : Coord ([1 / 2, 0, 0] : List ℝ) k p) : p = (1 / 2, 0, 0) := by
  subst hk
  exact coord_unique _ 0 p _ h ⟨rfl, rfl, rfl⟩

example : ([7] : List Nat).count 7 = 1 ∧ (⟨[7], [0, 1]⟩ : AdjList.AdjList Nat).numNodes = 1 := by
  have := C96_colliding_partial (fun _ _ _ => 0) (by simp) Real.sqrt (fun _ => Real.sqrt_pos.mpr) (1 / 100) (1 / 10) (by norm_num) (by norm_num) (by norm_num)
    seg 1 [0, 0, 0, 1, 0, 0] [[7]] [1 / 2, 0, 0] _ collidingResult
  exact ⟨rfl, this.1⟩

example : ([0] : List ℝ).length = ([7] : List Nat).length :=
  (C96_squared_partial (fun _ _ => 0) (by simp) Real.sqrt (fun _ => Real.sqrt_pos.mpr) (1 / 100) (by norm_num) (by norm_num) false seg 1 1 [0, 0, 0, 1, 0, 0] [7]
    [1 / 2, 0, 0] [0] (fun k e p ps hk hp h => by
      have : k = 0 := by have := (List.getElem?_eq_some_iff.mp hk).1; simpa using this
      rcases h with ⟨_, h⟩ | ⟨h, _⟩
      · rw [pts _ rfl e ps h, coord p k this hp]; exact noTie _ rfl
      · exact absurd rfl h) squaredResult).1

/-- The mesh is as `C96_only_limit` needs it. -/
example : MeshOk seg 1 1 ([0, 0, 0, 1, 0, 0] : List ℝ) [7] :=
  ⟨fun h => absurd rfl h, fun e _ c _ => ⟨fun le d hd => by simp [seg] at hd ⊢; omega, fun n hn => by simp [seg] at hn ⊢; omega⟩⟩

end C96ex

end Verif.Props
