import Verif.Lemmas.VtkTetRem
/-!
# The tables for cells: blocks of nodes
-/
namespace Verif.CellPerm
open Verif.Spec

/-- The entries of `P` at the positions `m` are `q`. -/
def Picks {γ : Type} (P : List γ) (m : List Nat) (q : List γ) : Prop := m.map (fun i => P[i]?) = q.map some

section picks
variable {γ : Type} {P : List γ}

theorem Picks.append {m m' : List Nat} {q q' : List γ} (h : Picks P m q) (h' : Picks P m' q') : Picks P (m ++ m') (q ++ q') := by
  unfold Picks at *
  rw [List.map_append, List.map_append, h, h']

theorem picks_nil : Picks P [] [] := rfl

theorem w_of_get (hP : P.length ≤ 65536) (i : Nat) (p : γ) (h : P[i]? = some p) : P[w i]? = some p := by
  have : i < P.length := (List.getElem?_eq_some_iff.1 h).1
  rw [w, Nat.mod_eq_of_lt (by omega), h]

theorem picks_fun (hP : P.length ≤ 65536) (c : Nat) (f : Nat → Nat) (h : Nat → γ) (hh : ∀ i, i < c → P[f i]? = some (h i)) :
    Picks P ((List.range c).map fun i => w (f i)) ((List.range c).map h) := by
  unfold Picks
  rw [List.map_map, List.map_map]
  apply List.map_congr_left
  intro i hi
  exact w_of_get hP _ _ (hh i (List.mem_range.1 hi))

theorem get_block {β : Type} (bs : List β) (f : β → List γ) (m : Nat) (hm : ∀ b ∈ bs, (f b).length = m) (R : List γ)
    (j : Nat) (b : β) (hj : bs[j]? = some b) (i : Nat) (hi : i < m) : (bs.flatMap f ++ R)[m * j + i]? = (f b)[i]? := by
  induction bs generalizing j with
  | nil => simp at hj
  | cons c bs ih =>
    have hc := hm c (by simp)
    rw [List.flatMap_cons, List.append_assoc]
    rcases j with _ | j
    · simp only [List.getElem?_cons_zero, Option.some.injEq] at hj
      subst hj
      rw [Nat.mul_zero, Nat.zero_add, List.getElem?_append_left (by omega)]
    · rw [List.getElem?_append_right (by rw [hc, Nat.mul_succ]; omega), hc, Nat.mul_succ,
        show m * j + m + i - m = m * j + i by omega]
      exact ih (fun b hb => hm b (by simp [hb])) j (by simpa using hj)

theorem get_block' {β : Type} (A : List γ) (bs : List β) (f : β → List γ) (R : List γ) (hP : P = A ++ (bs.flatMap f ++ R))
    (m : Nat) (hm : ∀ b ∈ bs, (f b).length = m) (base : Nat) (hb : A.length = base)
    (j : Nat) (b : β) (hj : bs[j]? = some b) (i : Nat) (hi : i < m) : P[base + m * j + i]? = (f b)[i]? := by
  rw [hP, List.getElem?_append_right (by omega), show base + m * j + i - A.length = m * j + i by omega]
  exact get_block bs f m hm R j b hj i hi

theorem picks_list (hP : P.length ≤ 65536) (base : Nat) (q : List γ) (c : Nat) (hc : q.length = c)
    (h : ∀ i, i < c → P[base + i]? = q[i]?) : Picks P ((List.range c).map fun i => w (base + i)) q := by
  unfold Picks
  apply List.ext_getElem?
  intro i
  simp only [List.getElem?_map]
  by_cases hi : i < c
  · rw [List.getElem?_range hi]
    have hq : q[i]? = some q[i] := List.getElem?_eq_getElem (by omega)
    have := w_of_get hP (base + i) q[i] ((h i hi).trans hq)
    simp [this, hq]
  · rw [List.getElem?_eq_none (by simpa using hi), List.getElem?_eq_none (by omega)]
    rfl

/-- One block of nodes. -/
theorem picks_block (hP' : P.length ≤ 65536) {β : Type} (A : List γ) (bs : List β) (f : β → List γ) (R : List γ)
    (hP : P = A ++ (bs.flatMap f ++ R)) (m : Nat) (hm : ∀ b ∈ bs, (f b).length = m) (base : Nat) (hb : A.length = base)
    (j : Nat) (b : β) (hj : bs[j]? = some b) : Picks P ((List.range m).map fun i => w (base + m * j + i)) (f b) :=
  picks_list hP' _ _ _ (hm b (List.mem_of_getElem? hj)) fun i hi => get_block' A bs f R hP m hm base hb j b hj i hi

theorem cover_block (A m K j : Nat) (h1 : A ≤ j) (h2 : j < A + m * K) : ∃ e, e < K ∧ ∃ i, i < m ∧ j = A + m * e + i := by
  have hm : 0 < m := by
    rcases Nat.eq_zero_or_pos m with h | h
    · subst h; omega
    · exact h
  refine ⟨(j - A) / m, ?_, (j - A) % m, Nat.mod_lt _ hm, ?_⟩
  · rw [Nat.div_lt_iff_lt_mul hm, Nat.mul_comm]; omega
  · have := Nat.div_add_mod (j - A) m
    omega

end picks

/-- Reordering of nodes: `m` picks the nodes `V` from the nodes `P`, and picks all of them. -/
structure Reorder (m : List Nat) (P V : List Pt) : Prop where
  len : m.length = P.length
  pick : Picks P m V
  all : ∀ j, j < P.length → j ∈ m

/-! ## Quadrilaterals and hexahedra -/

theorem cellDegree_quadrilateral (n : Nat) : cellDegree .quadrilateral ((n + 1) * (n + 1)) = .ok n := by
  simp [cellDegree, Nat.sqrt_eq]

theorem cbrt_cube (n : Nat) : cbrt (n * n * n) = n := by
  have h : ∀ k, k * k * k ≤ n * n * n ↔ k ≤ n := by
    intro k
    constructor
    · intro h
      by_contra hk
      have h1 : n + 1 ≤ k := by omega
      have h2 : (n + 1) * (n + 1) ≤ k * k := Nat.mul_le_mul h1 h1
      have h3 : (n + 1) * (n + 1) * (n + 1) ≤ k * k * k := Nat.mul_le_mul h2 h1
      nlinarith
    · intro h
      exact Nat.mul_le_mul (Nat.mul_le_mul h h) h
  have hn : n ≤ n * n * n := by
    rcases n with _ | n
    · simp
    · nlinarith [Nat.zero_le (n * n), Nat.zero_le (n * n * n)]
  have e : (List.range (n * n * n + 1)).filter (fun k => decide (k * k * k ≤ n * n * n)) = List.range (n + 1) := by
    have : n * n * n + 1 = (n + 1) + (n * n * n - n) := by omega
    rw [this, List.range_add, List.filter_append]
    rw [List.filter_eq_self.2, List.filter_eq_nil_iff.2, List.append_nil]
    · intro a ha
      obtain ⟨i, -, rfl⟩ := List.mem_map.1 ha
      have := h (n + 1 + i)
      simp only [decide_eq_true_eq, this]
      omega
    · intro a ha
      have := List.mem_range.1 ha
      simp only [decide_eq_true_eq, h]
      omega
  rw [cbrt, e, List.length_range]
  omega

theorem cellDegree_hexahedron (n : Nat) : cellDegree .hexahedron ((n + 1) * (n + 1) * (n + 1)) = .ok n := by
  simp [cellDegree, cbrt_cube]

theorem edgePts_length (n : Nat) (p q : Pt) : (edgePts n p q).length = n - 1 := by simp [edgePts]

theorem square_length {α : Type} (e : Nat) (g : Nat → Nat → α) :
    ((List.range e).flatMap fun y => (List.range e).map fun x => g x y).length = e * e := by
  simp [List.length_flatMap]

theorem cube_length {α : Type} (e : Nat) (g : Nat → Nat → Nat → α) :
    ((List.range e).flatMap fun z => (List.range e).flatMap fun y => (List.range e).map fun x => g x y z).length = e * e * e := by
  simp [List.length_flatMap, Nat.mul_assoc]

theorem square_congr {α : Type} (e : Nat) (g g' : Nat → Nat → α) (h : ∀ x y, x < e → y < e → g x y = g' x y) :
    ((List.range e).flatMap fun y => (List.range e).map fun x => g x y) =
      (List.range e).flatMap fun y => (List.range e).map fun x => g' x y := by
  apply List.flatMap_congr
  intro y hy
  apply List.map_congr_left
  intro x hx
  exact h x y (List.mem_range.1 hx) (List.mem_range.1 hy)

theorem quadPts_length (n : Nat) (p q r : Pt) : (quadPts n p q r).length = (n - 1) * (n - 1) := square_length _ _

theorem quad_reorder (n : Nat) (hn : 1 ≤ n) (hN : (n + 1) * (n + 1) ≤ 65536) :
    ∃ m, vtkQuadrilateral ((n + 1) * (n + 1)) = .ok m ∧ (basixQuad n).length = (n + 1) * (n + 1) ∧
      Reorder m (basixQuad n) (vtkQuad n) := by
  obtain ⟨e, rfl⟩ : ∃ e, n = e + 1 := ⟨n - 1, by omega⟩
  have hlen : (basixQuad (e + 1)).length = (e + 1 + 1) * (e + 1 + 1) := by
    simp only [basixQuad, List.length_append, List.length_map, List.length_flatMap, List.map_cons, List.map_nil, edgePts_length,
      quadPts_length, List.sum_cons, List.sum_nil, List.length_cons, List.length_nil, Nat.add_sub_cancel]
    ring
  have he : ((((e + 1 : Nat) : Int)) - 1).toNat = e := by omega
  have hm : vtkQuadrilateral ((e + 1 + 1) * (e + 1 + 1)) = .ok ([0, 1, 3, 2] ++ ((List.range e).map fun k => w (4 + k)) ++
      ((List.range e).map fun k => w (4 + 2 * e + k)) ++
      ((List.range e).map fun k => w (4 + 3 * e + k)) ++ ((List.range e).map fun k => w (4 + e + k)) ++
      ((List.range (e * e)).map fun k => w (4 + e * 4 + k))) := by
    rw [vtkQuadrilateral, cellDegree_quadrilateral]
    simp only [bind, Except.bind, pure, Except.pure, he]
  refine ⟨_, hm, hlen, ?_, ?_, ?_⟩
  · rw [hlen]
    simp
    ring
  · have hP : (basixQuad (e + 1)).length ≤ 65536 := by omega
    have E : ∀ j b, [(0, 1), (0, 2), (1, 3), (2, 3)][j]? = some b →
        Picks (basixQuad (e + 1)) ((List.range e).map fun i => w (4 + e * j + i)) (edgePts (e + 1) (hexV b.1) (hexV b.2)) := by
      intro j b hj
      exact picks_block hP ([0, 1, 2, 3].map fun i => corner (e + 1) (hexV i)) [(0, 1), (0, 2), (1, 3), (2, 3)]
        (fun b => edgePts (e + 1) (hexV b.1) (hexV b.2)) _ (by rw [basixQuad, List.append_assoc]) e
        (fun b _ => edgePts_length _ _ _) 4 (by simp) j b hj
    have hC : Picks (basixQuad (e + 1)) [0, 1, 3, 2] ([(0, 0, 0), (1, 0, 0), (1, 1, 0), (0, 1, 0)].map (corner (e + 1))) := rfl
    have hI : Picks (basixQuad (e + 1)) ((List.range (e * e)).map fun k => w (4 + e * 4 + k))
        ((List.range e).flatMap fun y => (List.range e).map fun x => (x + 1, y + 1, 0)) := by
      have h := picks_block hP (([0, 1, 2, 3].map fun i => corner (e + 1) (hexV i)) ++
        ([(0, 1), (0, 2), (1, 3), (2, 3)].flatMap fun b => edgePts (e + 1) (hexV b.1) (hexV b.2))) [()]
        (fun _ => quadPts (e + 1) (hexV 0) (hexV 1) (hexV 2)) [] (by simp [basixQuad]) (e * e)
        (fun b _ => quadPts_length _ _ _ _) (4 + e * 4) (by simp [edgePts_length]; ring) 0 () rfl
      simp only [Nat.mul_zero, Nat.add_zero] at h
      refine h.trans (congrArg (List.map some) ?_)
      simp only [quadPts, hexV]
      apply square_congr
      intro x y hx hy
      simp
    have h0 := E 0 _ rfl
    have h1 := E 1 _ rfl
    have h2 := E 2 _ rfl
    have h3 := E 3 _ rfl
    simp only [Nat.mul_zero, Nat.add_zero, Nat.mul_one, Nat.mul_comm e 2, Nat.mul_comm e 3] at h0 h1 h2 h3
    exact ((((hC.append h0).append h2).append h3).append h1).append hI
  · intro j hj
    rw [hlen] at hj
    have hw : w j = j := Nat.mod_eq_of_lt (by omega)
    have hN' : (e + 1 + 1) * (e + 1 + 1) = 4 + e * 4 + e * e := by ring
    rw [hN'] at hj
    simp only [List.mem_append, List.mem_map, List.mem_range]
    by_cases c1 : j < 4
    · left; left; left; left; left
      interval_cases j <;> simp
    · by_cases c2 : j < 4 + e * 4
      · obtain ⟨b, hb, i, hi, rfl⟩ := cover_block 4 e 4 j (by omega) c2
        interval_cases b
        · left; left; left; left; right
          exact ⟨i, hi, by rw [← hw]; congr 1⟩
        · left; right
          exact ⟨i, hi, by rw [← hw]; congr 1; omega⟩
        · left; left; left; right
          exact ⟨i, hi, by rw [← hw]; congr 1; omega⟩
        · left; left; right
          exact ⟨i, hi, by rw [← hw]; congr 1; omega⟩
      · right
        exact ⟨j - (4 + e * 4), by omega, by rw [← hw]; congr 1; rw [hw]; omega⟩

theorem not_cube (n : Nat) : (n + 1) * (n + 1) * (n + 1) ≠ 20 := by
  intro h
  have : n ≤ 2 := by
    by_contra hc
    have h1 : 4 ≤ n + 1 := by omega
    have := Nat.mul_le_mul (Nat.mul_le_mul h1 h1) h1
    omega
  interval_cases n <;> omega

theorem hex_reorder (n : Nat) (hn : 1 ≤ n) (hN : (n + 1) * (n + 1) * (n + 1) ≤ 65536) :
    ∃ m, vtkHexahedron ((n + 1) * (n + 1) * (n + 1)) = .ok m ∧ (basixHex n).length = (n + 1) * (n + 1) * (n + 1) ∧
      Reorder m (basixHex n) (vtkHex n) := by
  obtain ⟨e, rfl⟩ : ∃ e, n = e + 1 := ⟨n - 1, by omega⟩
  have hlen : (basixHex (e + 1)).length = (e + 1 + 1) * (e + 1 + 1) * (e + 1 + 1) := by
    simp only [basixHex, List.length_append, cube_length]
    simp only [List.length_map, List.length_flatMap, List.map_cons, List.map_nil, edgePts_length,
      quadPts_length, List.sum_cons, List.sum_nil, List.length_cons, List.length_nil, Nat.add_sub_cancel]
    ring
  have he : ((((e + 1 : Nat) : Int)) - 1).toNat = e := by omega
  have hm : vtkHexahedron ((e + 1 + 1) * (e + 1 + 1) * (e + 1 + 1)) = .ok ([0, 1, 3, 2, 4, 5, 7, 6] ++
      ([0, 3, 5, 1, 8, 10, 11, 9, 2, 4, 7, 6].flatMap fun k => (List.range e).map fun i => w (8 + e * k + i)) ++
      ([2, 3, 1, 4, 0, 5].flatMap fun f => (List.range (e * e)).map fun i => w (8 + 12 * e + e * e * f + i)) ++
      ((List.range (e * e * e)).map fun i => w (8 + 12 * e + 6 * (e * e) + i))) := by
    rw [vtkHexahedron, if_neg (not_cube _), cellDegree_hexahedron]
    simp only [bind, Except.bind, pure, Except.pure, he]
  refine ⟨_, hm, hlen, ?_, ?_, ?_⟩
  · rw [hlen]
    simp
    ring
  · have hP : (basixHex (e + 1)).length ≤ 65536 := by omega
    have E : ∀ j b, [(0, 1), (0, 2), (0, 4), (1, 3), (1, 5), (2, 3), (2, 6), (3, 7), (4, 5), (4, 6), (5, 7), (6, 7)][j]? = some b →
        Picks (basixHex (e + 1)) ((List.range e).map fun i => w (8 + e * j + i)) (edgePts (e + 1) (hexV b.1) (hexV b.2)) := by
      intro j b hj
      exact picks_block hP ([0, 1, 2, 3, 4, 5, 6, 7].map fun i => corner (e + 1) (hexV i)) _
        (fun b => edgePts (e + 1) (hexV b.1) (hexV b.2)) _ (by rw [basixHex, List.append_assoc, List.append_assoc]) e
        (fun b _ => edgePts_length _ _ _) 8 (by simp) j b hj
    have F : ∀ j b, [(0, 1, 2), (0, 1, 4), (0, 2, 4), (1, 3, 5), (2, 3, 6), (4, 5, 6)][j]? = some b →
        Picks (basixHex (e + 1)) ((List.range (e * e)).map fun i => w (8 + 12 * e + e * e * j + i))
          (quadPts (e + 1) (hexV b.1) (hexV b.2.1) (hexV b.2.2)) := by
      intro j b hj
      exact picks_block hP (([0, 1, 2, 3, 4, 5, 6, 7].map fun i => corner (e + 1) (hexV i)) ++
        ([(0, 1), (0, 2), (0, 4), (1, 3), (1, 5), (2, 3), (2, 6), (3, 7), (4, 5), (4, 6), (5, 7), (6, 7)].flatMap fun b =>
          edgePts (e + 1) (hexV b.1) (hexV b.2))) _
        (fun b => quadPts (e + 1) (hexV b.1) (hexV b.2.1) (hexV b.2.2)) _ (by rw [basixHex, List.append_assoc]) (e * e)
        (fun b _ => quadPts_length _ _ _ _) (8 + 12 * e) (by simp [edgePts_length]; ring) j b hj
    have hI : Picks (basixHex (e + 1)) ((List.range (e * e * e)).map fun k => w (8 + 12 * e + 6 * (e * e) + k))
        ((List.range e).flatMap fun z => (List.range e).flatMap fun y => (List.range e).map fun x => (x + 1, y + 1, z + 1)) := by
      have h := picks_block hP (([0, 1, 2, 3, 4, 5, 6, 7].map fun i => corner (e + 1) (hexV i)) ++
        ([(0, 1), (0, 2), (0, 4), (1, 3), (1, 5), (2, 3), (2, 6), (3, 7), (4, 5), (4, 6), (5, 7), (6, 7)].flatMap fun b =>
          edgePts (e + 1) (hexV b.1) (hexV b.2)) ++
        ([(0, 1, 2), (0, 1, 4), (0, 2, 4), (1, 3, 5), (2, 3, 6), (4, 5, 6)].flatMap
          fun b => quadPts (e + 1) (hexV b.1) (hexV b.2.1) (hexV b.2.2))) [()]
        (fun _ => ((List.range e).flatMap fun z => (List.range e).flatMap fun y => (List.range e).map fun x => (x + 1, y + 1, z + 1)))
        [] (by simp only [basixHex, List.flatMap_cons, List.flatMap_nil, List.append_nil, Nat.add_sub_cancel]) (e * e * e)
        (fun b _ => cube_length _ _) (8 + 12 * e + 6 * (e * e)) (by simp [edgePts_length, quadPts_length]; ring) 0 () rfl
      simpa only [Nat.mul_zero, Nat.add_zero] using h
    have sq : ∀ (p q r : Pt) (g : Nat → Nat → Pt), (∀ x y, x < e → y < e →
        ((e - x) * p.1 + (x + 1) * q.1 + (y + 1) * (r.1 - p.1), (e - x) * p.2.1 + (x + 1) * q.2.1 + (y + 1) * (r.2.1 - p.2.1),
      (e - x) * p.2.2 + (x + 1) * q.2.2 + (y + 1) * (r.2.2 - p.2.2)) = g (x + 1) (y + 1)) →
        quadPts (e + 1) p q r = (List.range (e + 1 - 1)).flatMap fun b => (List.range (e + 1 - 1)).map fun a => g (a + 1) (b + 1) := by
      intro p q r g hg
      rw [quadPts]
      exact square_congr e _ _ hg
    have f0 := F 0 _ rfl
    have f1 := F 1 _ rfl
    have f2 := F 2 _ rfl
    have f3 := F 3 _ rfl
    have f4 := F 4 _ rfl
    have f5 := F 5 _ rfl
    rw [sq _ _ _ (fun y z => (0, y, z)) (by intro x y hx hy; simp [hexV])] at f2
    rw [sq _ _ _ (fun y z => (e + 1, y, z)) (by intro x y hx hy; simp [hexV]; omega)] at f3
    rw [sq _ _ _ (fun x z => (x, 0, z)) (by intro x y hx hy; simp [hexV])] at f1
    rw [sq _ _ _ (fun x z => (x, e + 1, z)) (by intro x y hx hy; simp [hexV]; omega)] at f4
    rw [sq _ _ _ (fun x y => (x, y, 0)) (by intro x y hx hy; simp [hexV])] at f0
    rw [sq _ _ _ (fun x y => (x, y, e + 1)) (by intro x y hx hy; simp [hexV]; omega)] at f5
    have hC : Picks (basixHex (e + 1)) [0, 1, 3, 2, 4, 5, 7, 6]
      ([(0, 0, 0), (1, 0, 0), (1, 1, 0), (0, 1, 0), (0, 0, 1), (1, 0, 1), (1, 1, 1), (0, 1, 1)].map (corner (e + 1))) := rfl
    have hE := (E 0 _ rfl).append <| (E 3 _ rfl).append <| (E 5 _ rfl).append <| (E 1 _ rfl).append <| (E 8 _ rfl).append <|
      (E 10 _ rfl).append <| (E 11 _ rfl).append <| (E 9 _ rfl).append <| (E 2 _ rfl).append <| (E 4 _ rfl).append <|
      (E 7 _ rfl).append <| (E 6 _ rfl).append picks_nil
    have hF := f2.append <| f3.append <| f1.append <| f4.append <| f0.append <| f5.append picks_nil
    have := ((hC.append hE).append hF).append hI
    simp only [vtkHex, vtkHexEdges, List.flatMap_cons, List.flatMap_nil, List.append_assoc, List.append_nil, Nat.add_sub_cancel] at this ⊢
    exact this
  · intro j hj
    rw [hlen] at hj
    have hw : w j = j := Nat.mod_eq_of_lt (by omega)
    have hN' : (e + 1 + 1) * (e + 1 + 1) * (e + 1 + 1) = 8 + 12 * e + 6 * (e * e) + e * e * e := by ring
    rw [hN'] at hj
    simp only [List.mem_append]
    by_cases c1 : j < 8
    · left; left; left
      interval_cases j <;> simp
    · by_cases c2 : j < 8 + e * 12
      · obtain ⟨b, hb, i, hi, rfl⟩ := cover_block 8 e 12 j (by omega) c2
        left; left; right
        refine List.mem_flatMap.2 ⟨b, ?_, List.mem_map.2 ⟨i, List.mem_range.2 hi, hw⟩⟩
        interval_cases b <;> simp
      · by_cases c3 : j < 8 + 12 * e + e * e * 6
        · obtain ⟨b, hb, i, hi, rfl⟩ := cover_block (8 + 12 * e) (e * e) 6 j (by omega) c3
          left; right
          refine List.mem_flatMap.2 ⟨b, ?_, List.mem_map.2 ⟨i, List.mem_range.2 hi, hw⟩⟩
          interval_cases b <;> simp
        · right
          refine List.mem_map.2 ⟨j - (8 + 12 * e + 6 * (e * e)), List.mem_range.2 (by omega), ?_⟩
          rw [← hw]
          congr 1
          rw [hw]
          omega

end Verif.CellPerm
