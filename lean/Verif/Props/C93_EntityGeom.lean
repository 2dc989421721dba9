import Verif.Prelude
import Mathlib.Algebra.Order.Field.Rat
import Mathlib.Algebra.BigOperators.Group.List.Basic
import Mathlib.Tactic.FieldSimp
import Mathlib.Tactic.LinearCombination
import Verif.Model.EntityGeom
import Verif.Spec.EntityGeom
import Verif.Props.C62_Submesh
/-!
# C93: size, midpoint and normal of mesh entities
-/
namespace Verif.Props
open Verif.EntityGeom Verif.Spec.EntityGeom
open Verif.Submesh (Geo)
open Verif.Connectivity (CellType)

variable {K : Type} [Field K] [LinearOrder K] [IsStrictOrderedRing K]

/-! ## Nodes and points -/

theorem opt_mapM_forall {α β : Type} (f : α → Option β) (l : List α) : ∀ out, l.mapM f = some out ↔ List.Forall₂ (fun a b => f a = some b) l out := by
  induction l with
  | nil => intro out; simp [eq_comm]
  | cons a l ih =>
    intro out
    rw [List.mapM_cons]
    cases ha : f a with
    | none =>
      constructor
      · intro h; cases h
      · intro h
        cases h with
        | cons h1 _ => rw [ha] at h1; cases h1
    | some b =>
      cases hl : l.mapM f with
      | none =>
        simp only [Option.bind_eq_bind, Option.bind_some, Option.bind_none]
        constructor
        · intro h; cases h
        · intro h
          cases h with
          | cons h1 h2 => rw [(ih _).mpr h2] at hl; cases hl
      | some bs =>
        simp only [Option.bind_eq_bind, Option.bind_some, Option.pure_def, Option.some.injEq]
        constructor
        · rintro rfl; exact .cons ha ((ih _).mp hl)
        · intro h
          cases h with
          | cons h1 h2 =>
            rw [(ih _).mpr h2] at hl
            rw [ha] at h1
            cases hl; cases h1; rfl

theorem point_iff (x : List K) (n : Nat) (p : K × K × K) : point x n = some p ↔ Coord x n p := by
  unfold point Coord
  cases h0 : x[3 * n]? <;> cases h1 : x[3 * n + 1]? <;> cases h2 : x[3 * n + 2]? <;> simp [Prod.ext_iff]

theorem entityNodes_in (g : Geo) (tdim dim e : Nat) (l : List Nat) (h : Submesh.entityNodes (plain g) tdim dim e = some l) :
    NodesIn g tdim dim e l := by
  unfold Submesh.entityNodes at h
  by_cases hd : dim = tdim
  · rw [if_pos hd] at h
    refine ⟨e, 0, Or.inl ⟨hd, rfl, rfl⟩, ?_⟩
    rw [hd]
    exact (opt_mapM_forall _ _ _).mp h
  · rw [if_neg hd] at h
    simp only [plain, Option.bind_eq_bind] at h
    obtain ⟨c, hc, h⟩ := Option.bind_eq_some_iff.mp h
    replace h : (if (g.c2e c).length ≤ (g.c2e c).idxOf e then none
      else List.mapM (fun d => (g.xdofs c)[d]?) (g.closure dim ((g.c2e c).idxOf e))) = some l := h
    by_cases hle : (g.c2e c).length ≤ (g.c2e c).idxOf e
    · rw [if_pos hle] at h; cases h
    · rw [if_neg hle] at h
      refine ⟨c, (g.c2e c).idxOf e, Or.inr ⟨hd, List.mem_of_mem_head? hc, ?_⟩, (opt_mapM_forall _ _ _).mp h⟩
      have hlt : (g.c2e c).idxOf e < (g.c2e c).length := by omega
      rw [List.getElem?_eq_getElem hlt, List.getElem_idxOf]

theorem entityNodes_some (g : Geo) (tdim dim : Nat) (x : List K) (es : List Nat) (h : MeshOk g tdim dim x es) (e : Nat) (he : e ∈ es) :
    ∃ l ps, Submesh.entityNodes (plain g) tdim dim e = some l ∧ points x l = some ps := by
  have key : ∀ c le, (dim = tdim ∧ c = e ∨ dim ≠ tdim ∧ c ∈ g.e2c e) →
      ∃ l ps, ((g.closure dim le).mapM fun d => (g.xdofs c)[d]?) = some l ∧ points x l = some ps := by
    intro c le hc
    obtain ⟨h1, h2⟩ := h.dofs e he c hc
    obtain ⟨l, hl⟩ := mapM_option_ok (fun d => (g.xdofs c)[d]?) (g.closure dim le) fun d hd => ⟨_, List.getElem?_eq_getElem (h1 le d hd)⟩
    have hmem : ∀ n ∈ l, n ∈ g.xdofs c := by
      have := (opt_mapM_forall _ _ _).mp hl
      clear hl h1
      generalize g.closure dim le = ds at this
      induction this with
      | nil => simp
      | cons ha _ ih =>
        intro n hn
        rcases List.mem_cons.mp hn with rfl | hn
        · exact List.mem_of_getElem? ha
        · exact ih n hn
    obtain ⟨ps, hps⟩ := mapM_option_ok (point x) l (by
      intro n hn
      have := h2 n (hmem n hn)
      exact ⟨(x[3 * n], x[3 * n + 1], x[3 * n + 2]), (point_iff x n _).mpr
        ⟨List.getElem?_eq_getElem (by omega), List.getElem?_eq_getElem (by omega), List.getElem?_eq_getElem (by omega)⟩⟩)
    exact ⟨l, ps, hl, hps⟩
  unfold Submesh.entityNodes
  by_cases hd : dim = tdim
  · rw [if_pos hd]
    have := key e 0 (Or.inl ⟨hd, rfl⟩)
    rw [hd] at this
    exact this
  · rw [if_neg hd]
    obtain ⟨hne, hin⟩ := h.cell hd e he
    obtain ⟨c, cs, hcs⟩ := List.exists_cons_of_ne_nil hne
    have hc : c ∈ g.e2c e := by rw [hcs]; simp
    obtain ⟨l, ps, h1, h2⟩ := key c ((g.c2e c).idxOf e) (Or.inr ⟨hd, hc⟩)
    refine ⟨l, ps, ?_, h2⟩
    have hlt : ¬ (g.c2e c).length ≤ (g.c2e c).idxOf e := by
      have := List.idxOf_lt_length_iff.mpr (hin c hc)
      omega
    simp only [plain, hcs, List.head?_cons, Option.bind_eq_bind, Option.bind_some, hlt, if_false]
    exact h1

/-- The common part: what is computed for each entity is computed from its points. -/
theorem each_ok {β : Type} (wedge : Bool) (g : Geo) (tdim dim : Nat) (x : List K) (es : List Nat) (h : MeshOk g tdim dim x es)
    (hw : ¬ (wedge = true ∧ dim = 2)) (f : List (K × K × K) → Option β) (hf : ∀ e ∈ es, ∀ ps, PointsOf g tdim dim x e ps → ∃ b, f ps = some b) :
    ∃ out, (nodes wedge g tdim dim es).bind (eachRow x f) = .ok out ∧
      List.Forall₂ (fun e b => ∃ ps, PointsOf g tdim dim x e ps ∧ f ps = some b) es out := by
  obtain ⟨rows, hrows⟩ := mapM_option_ok (Submesh.entityNodes (plain g) tdim dim) es fun e he => by
    obtain ⟨l, ps, h1, _⟩ := entityNodes_some g tdim dim x es h e he
    exact ⟨l, h1⟩
  have hn : nodes wedge g tdim dim es = .ok rows := by
    unfold nodes Submesh.entitiesToGeometry
    rw [if_neg hw, hrows]
  have hF := (opt_mapM_forall _ _ _).mp hrows
  have hall : ∃ out, (rows.mapM fun r => (points x r).bind f) = some out ∧
      List.Forall₂ (fun e b => ∃ ps, PointsOf g tdim dim x e ps ∧ f ps = some b) es out := by
    have hm : ∀ e ∈ es, e ∈ es := fun _ h => h
    generalize hes : es = es' at hF hm
    rw [hes] at hf
    have h' : ∀ e ∈ es', ∃ l ps, Submesh.entityNodes (plain g) tdim dim e = some l ∧ points x l = some ps := by
      intro e he
      rw [← hes] at he
      exact entityNodes_some g tdim dim x es h e he
    clear hn hrows hes h hm
    induction hF with
    | nil => exact ⟨[], rfl, .nil⟩
    | @cons e r es rows her _ ih =>
      obtain ⟨out, ho, hFo⟩ := ih (fun e he => hf e (List.mem_cons_of_mem _ he)) (fun e he => h' e (List.mem_cons_of_mem _ he))
      obtain ⟨l, ps, h1, h2⟩ := h' e (by simp)
      rw [her] at h1
      obtain rfl := Option.some.inj h1
      have hP : PointsOf g tdim dim x e ps := by
        refine ⟨r, entityNodes_in g tdim dim e r her, ?_⟩
        exact ((opt_mapM_forall _ _ _).mp h2).imp fun a b hab => (point_iff x a b).mp hab
      obtain ⟨b, hb⟩ := hf e (by simp) ps hP
      refine ⟨b :: out, ?_, .cons ⟨ps, hP, hb⟩ hFo⟩
      rw [List.mapM_cons, ho, h2]
      simp [hb]
  obtain ⟨out, ho, hF'⟩ := hall
  refine ⟨out, ?_, hF'⟩
  rw [hn]
  show eachRow x f rows = _
  unfold eachRow
  rw [ho]

/-! ## Size -/

theorem dn_sq (sqrt : K → K) (hs : Sqrt sqrt) (p q : K × K × K) :
    0 ≤ deltaNorm sqrt p q ∧ deltaNorm sqrt p q * deltaNorm sqrt p q = dot (vec p q) (vec p q) := by
  unfold deltaNorm
  obtain ⟨h1, h2⟩ := hs (0 + (p.1 - q.1) * (p.1 - q.1) + (p.2.1 - q.2.1) * (p.2.1 - q.2.1) + (p.2.2 - q.2.2) * (p.2.2 - q.2.2)) (by
    have a := mul_self_nonneg (p.1 - q.1)
    have b := mul_self_nonneg (p.2.1 - q.2.1)
    have c := mul_self_nonneg (p.2.2 - q.2.2)
    linarith)
  refine ⟨h1, h2.trans ?_⟩
  simp only [dot, vec]
  ring

theorem fold_max (f : K × K × K → K) (ps : List (K × K × K)) : ∀ h, h ≤ ps.foldl (fun h q => max h (f q)) h ∧
    (∀ q ∈ ps, f q ≤ ps.foldl (fun h q => max h (f q)) h) ∧
    (ps.foldl (fun h q => max h (f q)) h = h ∨ ∃ q ∈ ps, ps.foldl (fun h q => max h (f q)) h = f q) := by
  induction ps with
  | nil => intro h; simp
  | cons a ps ih =>
    intro h
    obtain ⟨i1, i2, i3⟩ := ih (max h (f a))
    rw [List.foldl_cons]
    refine ⟨le_trans (le_max_left _ _) i1, ?_, ?_⟩
    · intro q hq
      rcases List.mem_cons.mp hq with rfl | hq
      · exact le_trans (le_max_right _ _) i1
      · exact i2 q hq
    · rcases i3 with i3 | ⟨q, hq, i3⟩
      · rcases max_choice h (f a) with hm | hm
        · left; rw [i3, hm]
        · right; exact ⟨a, by simp, by rw [i3, hm]⟩
      · right; exact ⟨q, by simp [hq], i3⟩

theorem pair_max (sqrt : K → K) (hs : Sqrt sqrt) (ps : List (K × K × K)) : ∀ h, h ≤ pairMax sqrt h ps ∧
    ps.Pairwise (fun p q => deltaNorm sqrt p q ≤ pairMax sqrt h ps) ∧
    (pairMax sqrt h ps = h ∨ ∃ p ∈ ps, ∃ q ∈ ps, pairMax sqrt h ps = deltaNorm sqrt p q) := by
  induction ps with
  | nil => intro h; simp [pairMax]
  | cons a ps ih =>
    intro h
    obtain ⟨f1, f2, f3⟩ := fold_max (deltaNorm sqrt a) ps h
    obtain ⟨i1, i2, i3⟩ := ih (ps.foldl (fun h q => max h (deltaNorm sqrt a q)) h)
    unfold pairMax
    refine ⟨le_trans f1 i1, List.pairwise_cons.mpr ⟨fun q hq => le_trans (f2 q hq) i1, i2⟩, ?_⟩
    rcases i3 with i3 | ⟨p, hp, q, hq, i3⟩
    · rw [i3]
      rcases f3 with f3 | ⟨q, hq, f3⟩
      · exact Or.inl f3
      · exact Or.inr ⟨a, by simp, q, by simp [hq], f3⟩
    · exact Or.inr ⟨p, by simp [hp], q, by simp [hq], i3⟩

theorem diameter_of (sqrt : K → K) (hs : Sqrt sqrt) (ps : List (K × K × K)) : Diameter ps (pairMax sqrt 0 ps) := by
  obtain ⟨h1, h2, h3⟩ := pair_max sqrt hs ps 0
  refine ⟨h1, ?_, ?_⟩
  · have hsym : ∀ p q : K × K × K, dot (vec p q) (vec p q) = dot (vec q p) (vec q p) := by
      intro p q; simp only [dot, vec]; ring
    have hle : ∀ p q, deltaNorm sqrt p q ≤ pairMax sqrt 0 ps → dot (vec p q) (vec p q) ≤ pairMax sqrt 0 ps * pairMax sqrt 0 ps := by
      intro p q hpq
      obtain ⟨k1, k2⟩ := dn_sq sqrt hs p q
      rw [← k2]
      exact mul_self_le_mul_self k1 hpq
    have hpw := h2.imp (S := fun p q => dot (vec p q) (vec p q) ≤ pairMax sqrt 0 ps * pairMax sqrt 0 ps) fun {p q} h => hle p q h
    have hdiag : ∀ p : K × K × K, dot (vec p p) (vec p p) ≤ pairMax sqrt 0 ps * pairMax sqrt 0 ps := by
      intro p
      have : dot (vec p p) (vec p p) = 0 := by simp [dot, vec]
      rw [this]
      exact mul_self_nonneg _
    generalize pairMax sqrt 0 ps * pairMax sqrt 0 ps = d at hpw hdiag
    clear h1 h2 h3 hle
    induction ps with
    | nil => intro p hp; cases hp
    | cons a ps ih =>
      obtain ⟨k1, k2⟩ := List.pairwise_cons.mp hpw
      intro p hp q hq
      rcases List.mem_cons.mp hp with rfl | hp' <;> rcases List.mem_cons.mp hq with rfl | hq'
      · exact hdiag _
      · exact k1 q hq'
      · rw [hsym]; exact k1 p hp'
      · exact ih k2 p hp' q hq'
  · rcases h3 with h3 | ⟨p, hp, q, hq, h3⟩
    · exact Or.inl h3
    · refine Or.inr ⟨p, hp, q, hq, ?_⟩
      rw [h3, (dn_sq sqrt hs p q).2]

/-- C93: the sizes of entities are the greatest distances between their nodes (for vertices zero). -/
theorem C93_h (sqrt : K → K) (hs : Sqrt sqrt) (wedge : Bool) (g : Geo) (tdim dim : Nat) (x : List K) (es : List Nat)
    (h : MeshOk g tdim dim x es) (hd : 0 < dim) (hw : ¬ (wedge = true ∧ dim = 2)) :
    ∃ out, sizes sqrt wedge g tdim dim x es = .ok out ∧
      List.Forall₂ (fun e d => ∃ ps, PointsOf g tdim dim x e ps ∧ Diameter ps d) es out := by
  unfold sizes
  by_cases he : es = []
  · subst he
    exact ⟨[], by simp, .nil⟩
  · rw [if_neg he, if_neg (by omega)]
    obtain ⟨out, h1, h2⟩ := each_ok wedge g tdim dim x es h hw (fun ps => some (pairMax sqrt 0 ps)) (fun _ _ ps _ => ⟨_, rfl⟩)
    refine ⟨out, h1, h2.imp ?_⟩
    rintro e d ⟨ps, hP, hp⟩
    obtain rfl := Option.some.inj hp
    exact ⟨ps, hP, diameter_of sqrt hs ps⟩

/-! ## Midpoints -/

theorem mean_fold (n : K) (ps : List (K × K × K)) : ∀ a : K × K × K,
    ps.foldl (fun p y => (p.1 + y.1 / n, p.2.1 + y.2.1 / n, p.2.2 + y.2.2 / n)) a =
      (a.1 + (ps.map fun p => p.1).sum / n, a.2.1 + (ps.map fun p => p.2.1).sum / n, a.2.2 + (ps.map fun p => p.2.2).sum / n) := by
  induction ps with
  | nil => intro a; simp
  | cons b ps ih =>
    intro a
    rw [List.foldl_cons, ih]
    simp only [List.map_cons, List.sum_cons, add_div, add_assoc]

theorem mean_of (ps : List (K × K × K)) : Mean ps (mean ps) := by
  unfold mean
  rw [mean_fold]
  simp only [Mean, zero_add]
  by_cases h : ps = []
  · subst h; simp
  · have hn : ((ps.length : Nat) : K) ≠ 0 := by
      rw [Nat.cast_ne_zero]
      intro hl
      exact h (List.eq_nil_of_length_eq_zero hl)
    exact ⟨mul_div_cancel₀ _ hn, mul_div_cancel₀ _ hn, mul_div_cancel₀ _ hn⟩

/-- C93: midpoints are the means of the nodes of the entities. -/
theorem C93_midpoints (wedge : Bool) (g : Geo) (tdim dim : Nat) (x : List K) (es : List Nat)
    (h : MeshOk g tdim dim x es) (hw : ¬ (wedge = true ∧ dim = 2)) :
    ∃ out, midpoints wedge g tdim dim x es = .ok out ∧
      List.Forall₂ (fun e c => ∃ ps, PointsOf g tdim dim x e ps ∧ Mean ps c) es out := by
  unfold midpoints
  by_cases he : es = []
  · subst he
    exact ⟨[], by simp, .nil⟩
  · rw [if_neg he]
    obtain ⟨out, h1, h2⟩ := each_ok wedge g tdim dim x es h hw (fun ps => some (mean ps)) (fun _ _ ps _ => ⟨_, rfl⟩)
    refine ⟨out, h1, h2.imp ?_⟩
    rintro e d ⟨ps, hP, hp⟩
    obtain rfl := Option.some.inj hp
    exact ⟨ps, hP, mean_of ps⟩

/-- Rows related in order also know that the first is a member. -/
theorem forall_mem_left {α β : Type} {R : α → β → Prop} {l : List α} {l' : List β} (h : List.Forall₂ R l l') :
    List.Forall₂ (fun a b => a ∈ l ∧ R a b) l l' := by
  induction h with
  | nil => exact .nil
  | cons h1 _ ih => exact .cons ⟨List.mem_cons_self, h1⟩ (ih.imp fun _ _ h => ⟨List.mem_cons_of_mem _ h.1, h.2⟩)

/-! ## Normals -/

/-- C93: the normal of an edge in the plane has length one, is orthogonal to the edge and is on its left. -/
theorem edge_normal (sqrt : K → K) (hs : Sqrt sqrt) (ps : List (K × K × K)) (p0 p1 : K × K × K) (h0 : ps[0]? = some p0) (h1 : ps[1]? = some p1)
    (hne : p0.1 ≠ p1.1 ∨ p0.2.1 ≠ p1.2.1) : ∃ n, edgeNormal sqrt ps = some n ∧ dot n n = 1 ∧ dot n (vec p0 p1) = 0 ∧ n.2.2 = 0 ∧
      0 < det3 (vec p0 p1) n (0, 0, 1) := by
  obtain ⟨a, ha⟩ : ∃ a, a = p1.1 - p0.1 := ⟨_, rfl⟩
  obtain ⟨b, hb⟩ : ∃ b, b = p1.2.1 - p0.2.1 := ⟨_, rfl⟩
  have hpos : 0 < a * a + b * b := by
    have ha0 := mul_self_nonneg a
    have hb0 := mul_self_nonneg b
    rcases hne with hne | hne
    · have : 0 < a * a := mul_self_pos.mpr (by rw [ha]; exact sub_ne_zero.mpr (Ne.symm hne))
      linarith
    · have : 0 < b * b := mul_self_pos.mpr (by rw [hb]; exact sub_ne_zero.mpr (Ne.symm hne))
      linarith
  obtain ⟨k1, k2⟩ := hs _ hpos.le
  obtain ⟨r, hr⟩ : ∃ r, r = sqrt (a * a + b * b) := ⟨_, rfl⟩
  rw [← hr] at k1 k2
  have hr0 : r ≠ 0 := by
    rintro h
    rw [h] at k2
    linarith
  have hrp : 0 < r := lt_of_le_of_ne k1 (Ne.symm hr0)
  refine ⟨(-b / r, a / r, 0), ?_, ?_, ?_, rfl, ?_⟩
  · unfold edgeNormal
    rw [h0, h1, hr, ha, hb]
    rfl
  · show -b / r * (-b / r) + a / r * (a / r) + 0 * 0 = 1
    field_simp
    linear_combination -k2
  · simp only [dot, vec, ← ha, ← hb]
    field_simp
    ring
  · have : det3 (vec p0 p1) (-b / r, a / r, (0 : K)) (0, 0, 1) = (a * a + b * b) / r := by
      simp only [det3, vec, ← ha, ← hb]
      field_simp
      ring
    rw [this]
    exact div_pos hpos hrp

/-- The normal of a face: length one, orthogonal to the first two edges, and with these right-handed. -/
theorem face_normal (sqrt : K → K) (hs : Sqrt sqrt) (ps : List (K × K × K)) (p0 p1 p2 : K × K × K) (h0 : ps[0]? = some p0) (h1 : ps[1]? = some p1)
    (h2 : ps[2]? = some p2) (hne : ∃ w, det3 (vec p0 p1) (vec p0 p2) w ≠ 0) : ∃ n, faceNormal sqrt ps = some n ∧ dot n n = 1 ∧
      dot n (vec p0 p1) = 0 ∧ dot n (vec p0 p2) = 0 ∧ 0 < det3 (vec p0 p1) (vec p0 p2) n := by
  obtain ⟨u, hu⟩ : ∃ u, u = vec p0 p1 := ⟨_, rfl⟩
  obtain ⟨v, hv⟩ : ∃ v, v = vec p0 p2 := ⟨_, rfl⟩
  rw [← hu, ← hv] at hne
  obtain ⟨c, hc⟩ : ∃ c, c = cross u v := ⟨_, rfl⟩
  have hcd : ∀ w, det3 u v w = c.1 * w.1 + c.2.1 * w.2.1 + c.2.2 * w.2.2 := by
    intro w
    rw [hc]
    simp only [det3, cross]
    ring
  have hpos : 0 < c.1 * c.1 + c.2.1 * c.2.1 + c.2.2 * c.2.2 := by
    obtain ⟨w, hw⟩ := hne
    rw [hcd] at hw
    have q1 := mul_self_nonneg c.1
    have q2 := mul_self_nonneg c.2.1
    have q3 := mul_self_nonneg c.2.2
    by_contra hle
    have e1 : c.1 = 0 := mul_self_eq_zero.mp (by linarith)
    have e2 : c.2.1 = 0 := mul_self_eq_zero.mp (by linarith)
    have e3 : c.2.2 = 0 := mul_self_eq_zero.mp (by linarith)
    apply hw
    rw [e1, e2, e3]
    ring
  obtain ⟨k1, k2⟩ := hs _ hpos.le
  obtain ⟨r, hr⟩ : ∃ r, r = sqrt (c.1 * c.1 + c.2.1 * c.2.1 + c.2.2 * c.2.2) := ⟨_, rfl⟩
  rw [← hr] at k1 k2
  have hr0 : r ≠ 0 := by
    rintro h
    rw [h] at k2
    linarith
  have hrp : 0 < r := lt_of_le_of_ne k1 (Ne.symm hr0)
  have hdu : c.1 * u.1 + c.2.1 * u.2.1 + c.2.2 * u.2.2 = 0 := by rw [hc]; simp only [cross]; ring
  have hdv : c.1 * v.1 + c.2.1 * v.2.1 + c.2.2 * v.2.2 = 0 := by rw [hc]; simp only [cross]; ring
  rw [← hu, ← hv]
  refine ⟨(c.1 / r, c.2.1 / r, c.2.2 / r), ?_, ?_, ?_, ?_, ?_⟩
  · unfold faceNormal
    rw [h0, h1, h2, hr, hc, hu, hv]
    rfl
  · show c.1 / r * (c.1 / r) + c.2.1 / r * (c.2.1 / r) + c.2.2 / r * (c.2.2 / r) = 1
    field_simp
    linear_combination -k2
  · have : dot (c.1 / r, c.2.1 / r, c.2.2 / r) u = (c.1 * u.1 + c.2.1 * u.2.1 + c.2.2 * u.2.2) / r := by
      simp only [dot]; field_simp
    rw [this, hdu, zero_div]
  · have : dot (c.1 / r, c.2.1 / r, c.2.2 / r) v = (c.1 * v.1 + c.2.1 * v.2.1 + c.2.2 * v.2.2) / r := by
      simp only [dot]; field_simp
    rw [this, hdv, zero_div]
  · rw [hcd]
    have : c.1 * (c.1 / r) + c.2.1 * (c.2.1 / r) + c.2.2 * (c.2.2 / r) = (c.1 * c.1 + c.2.1 * c.2.1 + c.2.2 * c.2.2) / r := by
      field_simp
    rw [this]
    exact div_pos hpos hrp

/-- C93: normals of edges in the plane. -/
theorem C93_edge_normals (sqrt : K → K) (hs : Sqrt sqrt) (cell : CellType) (gdim : Nat) (hg : gdim ≤ 2) (g : Geo) (tdim dim : Nat) (hdim : dim ≠ 2)
    (x : List K) (es : List Nat) (h : MeshOk g tdim dim x es)
    (hne : ∀ e ∈ es, ∀ ps, PointsOf g tdim dim x e ps → ∃ p0 p1, ps[0]? = some p0 ∧ ps[1]? = some p1 ∧ (p0.1 ≠ p1.1 ∨ p0.2.1 ≠ p1.2.1)) :
    ∃ out, normals sqrt cell .interval gdim g tdim dim x es = .ok out ∧
      List.Forall₂ (fun e n => ∃ ps p0 p1, PointsOf g tdim dim x e ps ∧ ps[0]? = some p0 ∧ ps[1]? = some p1 ∧ dot n n = 1 ∧
        dot n (vec p0 p1) = 0 ∧ n.2.2 = 0 ∧ 0 < det3 (vec p0 p1) n (0, 0, 1)) es out := by
  unfold normals
  by_cases he : es = []
  · subst he
    exact ⟨[], by simp, .nil⟩
  · rw [if_neg he, if_neg (fun hc => hdim hc.2)]
    obtain ⟨out, h1, h2⟩ := each_ok (decide (cell = .prism ∨ cell = .pyramid)) g tdim dim x es h (fun hc => hdim hc.2) (edgeNormal sqrt) (by
      intro e hee ps hP
      obtain ⟨p0, p1, k0, k1, kn⟩ := hne e hee ps hP
      obtain ⟨n, hn, _⟩ := edge_normal sqrt hs ps p0 p1 k0 k1 kn
      exact ⟨n, hn⟩)
    refine ⟨out, ?_, ?_⟩
    · simp only [show ¬ gdim > 2 by omega, if_false]
      exact h1
    · have hmem : List.Forall₂ (fun e n => e ∈ es ∧ ∃ ps, PointsOf g tdim dim x e ps ∧ edgeNormal sqrt ps = some n) es out :=
        forall_mem_left h2
      refine hmem.imp ?_
      rintro e n ⟨hee, ps, hP, hp⟩
      obtain ⟨p0, p1, k0, k1, kn⟩ := hne e hee ps hP
      obtain ⟨n', hn, r1, r2, r3, r4⟩ := edge_normal sqrt hs ps p0 p1 k0 k1 kn
      rw [hn] at hp
      obtain rfl := Option.some.inj hp
      exact ⟨ps, p0, p1, hP, k0, k1, r1, r2, r3, r4⟩

/-- C93: normals of triangles and quadrilaterals; for the latter, with respect to the first three corners. -/
theorem C93_face_normals (sqrt : K → K) (hs : Sqrt sqrt) (cell type : CellType) (ht : type = .triangle ∨ type = .quadrilateral) (gdim : Nat) (g : Geo)
    (tdim dim : Nat) (hc1 : cell ≠ .prism) (hc2 : cell ≠ .pyramid) (x : List K) (es : List Nat) (h : MeshOk g tdim dim x es)
    (hne : ∀ e ∈ es, ∀ ps, PointsOf g tdim dim x e ps → ∃ p0 p1 p2, ps[0]? = some p0 ∧ ps[1]? = some p1 ∧ ps[2]? = some p2 ∧
      ∃ w, det3 (vec p0 p1) (vec p0 p2) w ≠ 0) :
    ∃ out, normals sqrt cell type gdim g tdim dim x es = .ok out ∧
      List.Forall₂ (fun e n => ∃ ps p0 p1 p2, PointsOf g tdim dim x e ps ∧ ps[0]? = some p0 ∧ ps[1]? = some p1 ∧ ps[2]? = some p2 ∧ dot n n = 1 ∧
        dot n (vec p0 p1) = 0 ∧ dot n (vec p0 p2) = 0 ∧ 0 < det3 (vec p0 p1) (vec p0 p2) n) es out := by
  unfold normals
  by_cases he : es = []
  · subst he
    exact ⟨[], by simp, .nil⟩
  · rw [if_neg he, if_neg (fun hc => hc1 hc.1)]
    obtain ⟨out, h1, h2⟩ := each_ok (decide (cell = .prism ∨ cell = .pyramid)) g tdim dim x es h (by simp [hc1, hc2]) (faceNormal sqrt) (by
      intro e hee ps hP
      obtain ⟨p0, p1, p2, k0, k1, k2, kn⟩ := hne e hee ps hP
      obtain ⟨n, hn, _⟩ := face_normal sqrt hs ps p0 p1 p2 k0 k1 k2 kn
      exact ⟨n, hn⟩)
    refine ⟨out, ?_, ?_⟩
    · rcases ht with rfl | rfl <;> exact h1
    · have hmem : List.Forall₂ (fun e n => e ∈ es ∧ ∃ ps, PointsOf g tdim dim x e ps ∧ faceNormal sqrt ps = some n) es out :=
        forall_mem_left h2
      refine hmem.imp ?_
      rintro e n ⟨hee, ps, hP, hp⟩
      obtain ⟨p0, p1, p2, k0, k1, k2, kn⟩ := hne e hee ps hP
      obtain ⟨n', hn, r1, r2, r3, r4⟩ := face_normal sqrt hs ps p0 p1 p2 k0 k1 k2 kn
      rw [hn] at hp
      obtain rfl := Option.some.inj hp
      exact ⟨ps, p0, p1, p2, hP, k0, k1, k2, r1, r2, r3, r4⟩

/-! ## The choice of the cell does not matter -/

/-- C93: size and midpoint are determined by the set of points: they are the same for each cell, on each process, that has the
entity. -/
theorem C93_same (ps qs : List (K × K × K)) (hp : ps.Perm qs) (hne : ps ≠ []) :
    (∀ d d', Diameter ps d → Diameter qs d' → d = d') ∧ ∀ c c', Mean ps c → Mean qs c' → c = c' := by
  refine ⟨?_, ?_⟩
  · have key : ∀ (ps qs : List (K × K × K)), (∀ p ∈ ps, p ∈ qs) → ∀ d d', Diameter ps d → Diameter qs d' → d ≤ d' := by
      intro ps qs hs d d' h h'
      rcases h.2.2 with h0 | ⟨p, hp, q, hq, he⟩
      · rw [h0]; exact h'.1
      · have := h'.2.1 p (hs p hp) q (hs q hq)
        rw [he] at this
        exact abs_le_of_sq_le_sq' (by rw [sq, sq]; exact this) h'.1 |>.2
    intro d d' h h'
    exact le_antisymm (key ps qs (fun p h => hp.mem_iff.mp h) d d' h h') (key qs ps (fun p h => hp.mem_iff.mpr h) d' d h' h)
  · rintro c c' ⟨h1, h2, h3⟩ ⟨k1, k2, k3⟩
    have hn : ((ps.length : Nat) : K) ≠ 0 := by
      rw [Nat.cast_ne_zero]
      intro hl
      exact hne (List.eq_nil_of_length_eq_zero hl)
    rw [← hp.length_eq, ← (hp.map _).sum_eq] at k1 k2 k3
    exact Prod.ext (mul_left_cancel₀ hn (h1.trans k1.symm)) (Prod.ext (mul_left_cancel₀ hn (h2.trans k2.symm)) (mul_left_cancel₀ hn (h3.trans k3.symm)))

/-- C93: exactly these calls are refused, whatever the entities: facets of prisms and pyramids; normals of edges in space, and of
entities that are neither edges nor faces.  Calls without entities return nothing and are never refused. -/
theorem C93_refused (sqrt : K → K) (g : Geo) (tdim : Nat) (x : List K) (es : List Nat) (he : es ≠ []) :
    sizes sqrt true g tdim 2 x es = .error .facets ∧ midpoints true g tdim 2 x es = .error .facets ∧
    (∀ type gdim, normals sqrt .prism type gdim g tdim 2 x es = .error .prism) ∧
    (∀ type gdim, normals sqrt .pyramid type gdim g tdim 2 x es = .error .facets) ∧
    (∀ cell gdim dim, MeshOk g tdim dim x es → dim ≠ 2 → 2 < gdim → normals sqrt cell .interval gdim g tdim dim x es = .error .interval) ∧
    ∀ cell type gdim dim, MeshOk g tdim dim x es → dim ≠ 2 → type ≠ .interval → type ≠ .triangle → type ≠ .quadrilateral →
      normals sqrt cell type gdim g tdim dim x es = .error .cellType := by
  have hw : ∀ es : List Nat, nodes true g tdim 2 es = .error .facets := fun es => rfl
  have hok : ∀ w dim, MeshOk g tdim dim x es → dim ≠ 2 → ∃ rows, nodes w g tdim dim es = .ok rows := by
    intro w dim h hd
    obtain ⟨rows, hrows⟩ := mapM_option_ok (Submesh.entityNodes (plain g) tdim dim) es fun e hee => by
      obtain ⟨l, ps, h1, _⟩ := entityNodes_some g tdim dim x es h e hee
      exact ⟨l, h1⟩
    refine ⟨rows, ?_⟩
    unfold nodes Submesh.entitiesToGeometry
    rw [if_neg (fun hc => hd hc.2), hrows]
  refine ⟨?_, ?_, ?_, ?_, ?_, ?_⟩
  · unfold sizes
    rw [if_neg he, if_neg (by decide), hw]
    rfl
  · unfold midpoints
    rw [if_neg he, hw]
    rfl
  · intro type gdim
    unfold normals
    rw [if_neg he, if_pos ⟨rfl, rfl⟩]
  · intro type gdim
    unfold normals
    rw [if_neg he, if_neg (by simp)]
    rfl
  · intro cell gdim dim h hd hg
    obtain ⟨rows, hr⟩ := hok (decide (cell = .prism ∨ cell = .pyramid)) dim h hd
    unfold normals
    rw [if_neg he, if_neg (fun hc => hd hc.2), hr]
    show (if gdim > 2 then Except.error Err.interval else _) = _
    rw [if_pos hg]
  · intro cell type gdim dim h hd t1 t2 t3
    obtain ⟨rows, hr⟩ := hok (decide (cell = .prism ∨ cell = .pyramid)) dim h hd
    unfold normals
    rw [if_neg he, if_neg (fun hc => hd hc.2), hr]
    cases type <;> first | rfl | exact absurd rfl t1 | exact absurd rfl t2 | exact absurd rfl t3

/-- C93: vertices have size zero; without entities nothing is returned. -/
theorem C93_zero (sqrt : K → K) (wedge : Bool) (cell type : CellType) (gdim : Nat) (g : Geo) (tdim dim : Nat) (x : List K) (es : List Nat) :
    sizes sqrt wedge g tdim 0 x es = .ok (es.map fun _ => 0) ∧ sizes sqrt wedge g tdim dim x [] = .ok [] ∧
    midpoints wedge g tdim dim x [] = .ok [] ∧ normals sqrt cell type gdim g tdim dim x [] = .ok [] := by
  refine ⟨?_, rfl, rfl, rfl⟩
  unfold sizes
  by_cases he : es = []
  · subst he; rfl
  · rw [if_neg he, if_pos rfl, List.map_const']

/-! ## Examples and refutations -/

namespace C93ex

/-- A square root for the numbers that occur. -/
def root (a : ℚ) : ℚ := if a = 25 then 5 else if a = 9 then 3 else if a = 16 then 4 else if a = 144 then 12 else if a = 1 then 1 else 0

/-- A triangle with the corners (0, 0), (3, 0), (0, 4) and its edges. -/
def tri : Geo where
  xdofs c := if c = 0 then [0, 1, 2] else []
  closure d e := if d = 2 then [0, 1, 2] else if d = 1 then [[1, 2], [0, 2], [0, 1]].getD e [] else []
  e2c e := if e < 3 then [0] else []
  c2e c := if c = 0 then [0, 1, 2] else []
  permute _ _ l := l

def triX : List ℚ := [0, 0, 0, 3, 0, 0, 0, 4, 0]

/-- The longest side of the triangle, and the lengths of its edges. -/
example : sizes root false tri 2 2 triX [0] = .ok [5] ∧ sizes root false tri 2 1 triX [0, 1, 2] = .ok [5, 4, 3] := by decide +kernel

/-- Midpoints of edges. -/
example : midpoints false tri 2 1 triX [2, 0] = .ok [(3 / 2, 0, 0), (3 / 2, 2, 0)] := by decide +kernel

/-- Normals of edges and of the triangle. -/
example : normals root .triangle .interval 2 tri 2 1 triX [2, 0] = .ok [(0, 1, 0), (-4 / 5, -3 / 5, 0)] ∧
    normals root .triangle .triangle 2 tri 2 2 triX [0] = .ok [(0, 0, 1)] := by decide +kernel

/-- The hypotheses on the mesh are met. -/
example : MeshOk tri 2 1 triX [2, 0] where
  cell := by intro _ e he; fin_cases he <;> exact ⟨by decide, by decide⟩
  dofs := by
    intro e he c hc
    have hc0 : c = 0 := by
      rcases hc with ⟨h, _⟩ | ⟨_, h⟩
      · cases h
      · fin_cases he <;> simpa [tri] using h
    subst hc0
    refine ⟨?_, by decide⟩
    intro le d hd
    rcases le with _ | _ | _ | le
    · revert d; decide
    · revert d; decide
    · revert d; decide
    · simp [tri] at hd

/-- An edge of degree two whose middle node is far away. -/
def curved : Geo where
  xdofs _ := [0, 1, 2]
  closure _ _ := [0, 1, 2]
  e2c _ := []
  c2e _ := []
  permute _ _ l := l

/-- The two triangles at an edge, as two processes see it: each has its own triangle. -/
def left : Geo := { tri with }
def right : Geo := { tri with xdofs := fun c => if c = 0 then [1, 0, 3] else [] }

end C93ex

/-- The documentation of `h` speaks of the distance between vertices.  The code: other nodes count as well. -/
theorem C93_refuted_h_vertices : ∃ (x : List ℚ) (d : ℚ), sizes C93ex.root false C93ex.curved 1 1 x [0] = .ok [d] ∧
    ∃ p0 p1, Coord x 0 p0 ∧ Coord x 1 p1 ∧ dot (vec p0 p1) (vec p0 p1) < d * d := by
  exact ⟨[0, 0, 0, 3, 0, 0, 0, 4, 0], 5, by decide +kernel, (0, 0, 0), (3, 0, 0), ⟨rfl, rfl, rfl⟩, ⟨rfl, rfl, rfl⟩, by decide +kernel⟩

/-- The code: the normal of an edge between two cells depends on the cell that is found first; two processes that share the edge
may have opposite normals. -/
theorem C93_refuted_sign : ∃ x : List ℚ, ∃ n : ℚ × ℚ × ℚ,
    Submesh.entityNodes (plain C93ex.left) 2 1 2 = some [0, 1] ∧ Submesh.entityNodes (plain C93ex.right) 2 1 2 = some [1, 0] ∧
    normals C93ex.root .triangle .interval 2 C93ex.left 2 1 x [2] = .ok [n] ∧
    normals C93ex.root .triangle .interval 2 C93ex.right 2 1 x [2] = .ok [(-n.1, -n.2.1, -n.2.2)] ∧ dot n n = 1 :=
  ⟨[0, 0, 0, 3, 0, 0, 0, 4, 0, 0, -4, 0], (0, 1, 0), by decide +kernel, by decide +kernel, by decide +kernel, by decide +kernel, by decide +kernel⟩

end Verif.Props
