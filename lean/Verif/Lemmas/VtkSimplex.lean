import Verif.Lemmas.VtkMaps
/-!
# The tables for triangles and tetrahedra
-/
namespace Verif.CellPerm
open Verif.Spec

section lattice
variable {α β : Type}

theorem triLattice_congr (m : Nat) (g g' : Nat → Nat → α) (h : ∀ x y, x + y ≤ m → g x y = g' x y) : triLattice m g = triLattice m g' := by
  apply List.flatMap_congr
  intro y hy
  apply List.map_congr_left
  intro x hx
  have := List.mem_range.1 hx
  have := List.mem_range.1 hy
  exact h x y (by omega)

theorem triLattice_map (m : Nat) (g : Nat → Nat → α) (f : α → β) : (triLattice m g).map f = triLattice m fun x y => f (g x y) := by
  simp [triLattice, List.map_flatMap, Function.comp_def]

theorem tetLattice_map (m : Nat) (g : Nat → Nat → Nat → α) (f : α → β) :
    (tetLattice m g).map f = tetLattice m fun x y z => f (g x y z) := by
  simp [tetLattice, List.map_flatMap, triLattice_map]

/-- Start of a row of a triangular lattice with `c` rows. -/
def offs (c : Nat) : Nat → Nat
  | 0 => 0
  | j + 1 => offs c j + (c - j)

theorem strip_range (c k s : Nat) : strip (fun x j => s + (offs c j + x)) 0 k c = List.range' s (offs c k) := by
  induction k with
  | zero => rfl
  | succ k ih =>
    rw [strip_succ, ih, map_range', offs, ← List.range'_append_1]
    congr 1
    rw [List.range'_eq_map_range]
    apply List.map_congr_left
    intro i _
    omega

theorem offs_T (c k : Nat) (hk : k ≤ c) : offs c k + T (c - k) = T c := by
  induction k with
  | zero => simp [offs]
  | succ k ih =>
    have := ih (by omega)
    rw [show c - k = (c - (k + 1)) + 1 by omega, T_succ] at this
    rw [offs]
    omega

theorem offs_all (m : Nat) : offs (m + 1) (m + 1) = T (m + 1) := by
  have := offs_T (m + 1) (m + 1) (le_refl _)
  rw [Nat.sub_self, T_zero] at this
  omega

theorem offs_lt (m a b : Nat) (h : a + b ≤ m) : offs (m + 1) b + a < T (m + 1) := by
  have h1 := offs_T (m + 1) b (by omega)
  rw [show m + 1 - b = (m - b) + 1 by omega, T_succ] at h1
  omega

theorem triLattice_range (m : Nat) : triLattice m (fun x y => offs (m + 1) y + x) = List.range (T (m + 1)) := by
  have := strip_range (m + 1) (m + 1) 0
  rw [offs_all] at this
  rw [triLattice_eq, List.range_eq_range', ← this]
  simp

theorem offs_find (m q : Nat) (hq : q < T (m + 1)) : ∃ a b, a + b ≤ m ∧ q = offs (m + 1) b + a := by
  have : q ∈ triLattice m fun x y => offs (m + 1) y + x := by rw [triLattice_range]; simpa using hq
  simp only [triLattice, List.mem_flatMap, List.mem_map, List.mem_range] at this
  obtain ⟨y, hy, x, hx, h⟩ := this
  exact ⟨x, y, by omega, h.symm⟩

theorem triLattice_get (m : Nat) (g : Nat → Nat → α) (a b : Nat) (h : a + b ≤ m) :
    (triLattice m g)[offs (m + 1) b + a]? = some (g a b) := by
  have hs : ∀ k, k ≤ m + 1 → (strip g 0 k (m + 1)).length = offs (m + 1) k := by
    intro k hk
    have h1 := strip_length g 0 k (m + 1) hk
    have h2 := offs_T (m + 1) k hk
    omega
  have key : ∀ k, b < k → k ≤ m + 1 → (strip g 0 k (m + 1))[offs (m + 1) b + a]? = some (g a b) := by
    intro k
    induction k with
    | zero => intro hb; omega
    | succ k ih =>
      intro hb hk
      rw [strip_succ]
      rcases Nat.lt_or_ge b k with hlt | hge
      · have := ih hlt (by omega)
        rw [List.getElem?_append_left (List.getElem?_eq_some_iff.1 this).1, this]
      · have : b = k := by omega
        subst this
        rw [List.getElem?_append_right (by rw [hs b (by omega)]; omega), hs b (by omega), Nat.add_sub_cancel_left, map_range',
          List.getElem?_map, List.getElem?_range (by omega)]
        simp
  rw [triLattice_eq]
  exact key (m + 1) (by omega) (le_refl _)

end lattice

theorem two_T (n : Nat) (h : 2 ≤ n) : (n - 1) * (n - 2) / 2 = T (n - 2) := by
  have h1 := T_eq (n - 2)
  have : (n - 1) * (n - 2) = 2 * T (n - 2) := by rw [h1, show n - 2 + 1 = n - 1 by omega, Nat.mul_comm]
  rw [this]
  omega

theorem vtkTri_eq (n : Nat) (hn : 1 ≤ n) : vtkTri n = [corner n (tetV 0), corner n (tetV 1), corner n (tetV 2)] ++
    edgePts n (tetV 0) (tetV 1) ++ edgePts n (tetV 1) (tetV 2) ++ (List.range (n - 1)).map (fun k => (0, n - 1 - k, 0)) ++
    vtkTriPts n (tetV 0) (tetV 1) (tetV 2) := by
  rcases n with _ | _ | _ | m
  · omega
  · simp [vtkTri, vtkTriLattice, corner, tetV, edgePts, vtkTriPts]
  · simp [vtkTri, vtkTriLattice, corner, tetV, edgePts, vtkTriPts, comb2]
  · simp [vtkTri, vtkTriLattice, corner, tetV, edgePts, vtkTriPts, comb2, triPoint, comb3, Function.comp_def]

theorem triPts_length (n : Nat) (p q r : Pt) : (triPts n p q r).length = T (n - 2) := by
  unfold triPts
  split
  · rw [show n - 2 = 0 by omega]; rfl
  · rw [triLattice_length, show n - 3 + 1 = n - 2 by omega]

theorem tri_reorder (n : Nat) (hn : 1 ≤ n) (hN : T (n + 1) ≤ 65536) :
    ∃ m, vtkTriangle (T (n + 1)) = .ok m ∧ (basixTri n).length = T (n + 1) ∧ Reorder m (basixTri n) (vtkTri n) := by
  have hT : T (n + 1) = 3 + (n - 1) * 3 + T (n - 2) := by
    rcases n with _ | _ | k
    · omega
    · rfl
    · simp only [T_succ, show k + 1 + 1 - 2 = k by omega]
      omega
  have hlen : (basixTri n).length = T (n + 1) := by
    rw [hT]
    simp only [basixTri, List.length_append, List.length_flatMap, List.map_cons, List.map_nil, edgePts_length,
      triPts_length, List.sum_cons, List.sum_nil, List.length_cons, List.length_nil]
    omega
  have hP : (basixTri n).length ≤ 65536 := by omega
  have E : ∀ j b, [(1, 2), (0, 2), (0, 1)][j]? = some b →
      Picks (basixTri n) ((List.range (n - 1)).map fun i => w (3 + (n - 1) * j + i)) (edgePts n (tetV b.1) (tetV b.2)) := by
    intro j b hj
    exact picks_block hP ([0, 1, 2].map fun i => corner n (tetV i)) _
      (fun b => edgePts n (tetV b.1) (tetV b.2)) _ (by rw [basixTri, List.append_assoc]) (n - 1)
      (fun b _ => edgePts_length _ _ _) 3 (by simp) j b hj
  have hrev : Picks (basixTri n) ((List.range (n - 1)).map fun k => w (2 * n - k)) ((List.range (n - 1)).map fun k => (0, n - 1 - k, 0)) := by
    apply picks_fun hP
    intro i hi
    have := get_block' (P := basixTri n) ([0, 1, 2].map fun i => corner n (tetV i)) [(1, 2), (0, 2), (0, 1)]
      (fun b => edgePts n (tetV b.1) (tetV b.2)) _ (by rw [basixTri, List.append_assoc]) (n - 1)
      (fun b _ => edgePts_length _ _ _) 3 (by simp) 1 (0, 2) rfl (n - 2 - i) (by omega)
    rw [show 3 + (n - 1) * 1 + (n - 2 - i) = 2 * n - i by omega] at this
    rw [this, edgePts, List.getElem?_map, List.getElem?_range (by omega)]
    simp [comb2, tetV]
    omega
  have e0 := E 0 _ rfl
  have e2 := E 2 _ rfl
  rw [Nat.mul_comm (n - 1) 2] at e2
  rw [Nat.mul_zero, Nat.add_zero] at e0
  have hC : Picks (basixTri n) [0, 1, 2] [corner n (tetV 0), corner n (tetV 1), corner n (tetV 2)] := rfl
  have hS := ((hC.append e2).append e0).append hrev
  have hcov : ∀ j, j < 3 + (n - 1) * 3 → j ∈ [0, 1, 2] ++ ((List.range (n - 1)).map fun k => w (3 + 2 * (n - 1) + k)) ++
    ((List.range (n - 1)).map fun k => w (3 + k)) ++ ((List.range (n - 1)).map fun k => w (2 * n - k)) := by
    intro j hj
    have hw : w j = j := Nat.mod_eq_of_lt (by omega)
    simp only [List.mem_append, List.mem_map, List.mem_range]
    by_cases c1 : j < 3
    · left; left; left
      interval_cases j <;> simp
    · obtain ⟨b, hb, i, hi, rfl⟩ := cover_block 3 (n - 1) 3 j (by omega) hj
      interval_cases b
      · left; right
        exact ⟨i, hi, by rw [← hw]; congr 1⟩
      · right
        exact ⟨n - 2 - i, by omega, by rw [← hw]; congr 1; omega⟩
      · left; left; right
        exact ⟨i, hi, by rw [← hw]; congr 1; omega⟩
  have hd := cellDegree_triangle (T (n + 1)) n rfl
  by_cases h3 : n < 3
  · refine ⟨[0, 1, 2] ++ ((List.range (n - 1)).map fun k => w (3 + 2 * (n - 1) + k)) ++
        ((List.range (n - 1)).map fun k => w (3 + k)) ++ ((List.range (n - 1)).map fun k => w (2 * n - k)), ?_, hlen, ?_, ?_, ?_⟩
    rotate_left
    · rw [hlen, hT, show n - 2 = 0 by omega]
      simp [T_zero]
      omega
    · rw [vtkTri_eq n hn, vtkTriPts, if_pos h3, List.append_nil]
      exact hS
    · intro j hj
      rw [hlen, hT, show n - 2 = 0 by omega, T_zero] at hj
      exact hcov j hj
    · rw [vtkTriangle, hd]
      simp only [bind, Except.bind, pure, Except.pure, Int.toNat_natCast]
      rw [if_pos (by omega)]
  · have hI : Picks (basixTri n) ((List.range (T (n - 2))).map fun k => w (3 * n + k)) (triPts n (tetV 0) (tetV 1) (tetV 2)) := by
      have h := picks_block hP (([0, 1, 2].map fun i => corner n (tetV i)) ++
        ([(1, 2), (0, 2), (0, 1)].flatMap fun b => edgePts n (tetV b.1) (tetV b.2))) [()]
        (fun _ => triPts n (tetV 0) (tetV 1) (tetV 2)) [] (by simp [basixTri]) (T (n - 2))
        (fun b _ => triPts_length _ _ _ _) (3 * n) (by simp [edgePts_length]; omega) 0 () rfl
      simpa only [Nat.mul_zero, Nat.add_zero] using h
    rw [triPts, if_neg h3] at hI
    have hr := triRem_map (fun i => (basixTri n)[i]?) ((List.range (T (n - 2))).map fun k => w (3 * n + k))
    rw [hI, triLattice_map, triRem_spec] at hr
    rcases hr' : triRem ((List.range (T (n - 2))).map fun k => w (3 * n + k)) with e | r
    · rw [hr'] at hr; cases hr
    rw [hr'] at hr
    simp only [Except.map, Except.ok.injEq] at hr
    have hperm := triRem_perm _ _ hr'
    have hL : ([0, 1, 2] ++ ((List.range (n - 1)).map fun k => w (3 + 2 * (n - 1) + k)) ++
        ((List.range (n - 1)).map fun k => w (3 + k)) ++ ((List.range (n - 1)).map fun k => w (2 * n - k))).length = 3 * n := by
      simp
      omega
    refine ⟨[0, 1, 2] ++ ((List.range (n - 1)).map fun k => w (3 + 2 * (n - 1) + k)) ++
        ((List.range (n - 1)).map fun k => w (3 + k)) ++ ((List.range (n - 1)).map fun k => w (2 * n - k)) ++ r, ?_, hlen, ?_, ?_, ?_⟩
    rotate_left
    · rw [List.length_append, hL, ← hperm.length_eq, hlen, hT]
      simp
      omega
    · rw [vtkTri_eq n hn, vtkTriPts, if_neg h3]
      refine hS.append ?_
      unfold Picks
      rw [← hr, List.map_map]
      rfl
    · intro j hj
      rw [hlen] at hj
      have hw : w j = j := Nat.mod_eq_of_lt (by omega)
      rw [hT] at hj
      by_cases c : j < 3 + (n - 1) * 3
      · exact List.mem_append_left _ (hcov j c)
      · refine List.mem_append_right _ (hperm.mem_iff.1 (List.mem_map.2 ⟨j - 3 * n, List.mem_range.2 (by omega), ?_⟩))
        rw [← hw]
        congr 1
        rw [hw]
        omega
    · rw [vtkTriangle, hd]
      simp only [bind, Except.bind, pure, Except.pure, Int.toNat_natCast]
      rw [if_neg (by omega), hL, show T (n + 1) - 3 * n = T (n - 2) by omega, hr']

/-! ## Tetrahedra -/

/-- Position on a face of DOLFINx of the point `x`, `y` on the same face of VTK. -/
def faceMap (m face x y : Nat) : Nat × Nat := if face = 2 then (x, y) else if face = 0 then (m - x - y, x) else (y, x)

theorem after_face0 (m y x : Nat) (h : x + y ≤ m) :
    after ((m - y : Nat) : Int) (fun j => ((m + 3 : Nat) : Int) - 3 - j) x = ((offs (m + 1) x + (m - x - y) : Nat) : Int) := by
  induction x with
  | zero => simp [after, offs]
  | succ x ih =>
    rw [after, ih (by omega), offs]
    omega

theorem after_face1 (m y x : Nat) (h : x + y ≤ m) :
    after (y : Int) (fun j => ((m + 3 : Nat) : Int) - 2 - j) x = ((offs (m + 1) x + y : Nat) : Int) := by
  induction x with
  | zero => simp [after, offs]
  | succ x ih =>
    rw [after, ih (by omega), offs]
    omega

theorem tetFaceDofs_eq (m base face : Nat) : tetFaceDofs (m + 3) base face = triLattice m fun x y =>
    w (base + T (m + 1) * face + (offs (m + 1) (faceMap m face x y).2 + (faceMap m face x y).1)) := by
  have e : (m + 3 - 1) * (m + 3 - 2) / 2 = T (m + 1) := two_T (m + 3) (by omega)
  simp only [tetFaceDofs, e]
  by_cases h2 : face = 2
  · simp only [if_pos h2, faceMap]
    have := congrArg (List.map fun i => w (base + T (m + 1) * face + i)) (triLattice_range m)
    rw [← this, triLattice_map]
  · by_cases h0 : face = 0
    · simp only [if_neg h2, if_pos h0, faceMap]
      unfold triLattice
      rw [show m + 3 - 2 = m + 1 by omega]
      apply List.flatMap_congr
      intro y hy
      have hy' := List.mem_range.1 hy
      rw [show m + 3 - 3 - y + 1 = m + 1 - y by omega]
      apply List.map_congr_left
      intro x hx
      have hx' := List.mem_range.1 hx
      rw [show m + 3 - 3 - y = m - y by omega, after_face0 m y x (by omega), Int.toNat_natCast]
    · simp only [if_neg h2, if_neg h0, faceMap]
      unfold triLattice
      rw [show m + 3 - 2 = m + 1 by omega]
      apply List.flatMap_congr
      intro y hy
      have hy' := List.mem_range.1 hy
      apply List.map_congr_left
      intro x hx
      have hx' := List.mem_range.1 hx
      rw [after_face1 m y x (by omega), Int.toNat_natCast]

/-- The points inside, in both orders. -/
def innerBasix (n : Nat) : List Pt := if n < 4 then [] else tetLattice (n - 4) fun x y z => (x + 1, y + 1, z + 1)

theorem vtkTet_eq (n : Nat) (hn : 1 ≤ n) :
    vtkTet n = vtkTetShell n ++ if n < 4 then [] else (vtkTet (n - 4)).map fun p => (p.1 + 1, p.2.1 + 1, p.2.2 + 1) := by
  rcases n with _ | _ | _ | _ | n
  · omega
  · simp [vtkTet]
  · simp [vtkTet]
  · simp [vtkTet]
  · simp [vtkTet]

theorem innerBasix_length (n : Nat) (hn : 1 ≤ n) : (innerBasix n).length = (n - 1) * (n - 2) * (n - 3) / 6 ∧
    6 * (innerBasix n).length = (n - 1) * (n - 2) * (n - 3) := by
  unfold innerBasix
  split
  · rcases n with _ | _ | _ | _ | n
    · omega
    · simp
    · simp
    · simp
    · omega
  · have h := tetLattice_length (n - 4) fun x y z => ((x + 1, y + 1, z + 1) : Pt)
    have : (n - 4 + 1) * (n - 4 + 2) * (n - 4 + 3) = (n - 1) * (n - 2) * (n - 3) := by
      rw [show n - 4 + 1 = n - 3 by omega, show n - 4 + 2 = n - 2 by omega, show n - 4 + 3 = n - 1 by omega]
      ring
    rw [this] at h
    omega

/-- The edges in the table. -/
def tabEdges (e : Nat) : List Nat := [5, 2, 4, 3, 1, 0].flatMap fun edge =>
    if edge = 4 then (List.range e).map fun i => w (4 + e * (edge + 1) - 1 - i)
    else (List.range e).map fun i => w (4 + e * edge + i)

theorem tabEdges_length (e : Nat) : (tabEdges e).length = 6 * e := by
  simp [tabEdges]
  omega

theorem tabEdges_mem (e j : Nat) (hj : j < 65536) (h1 : 4 ≤ j) (h2 : j < 4 + e * 6) : j ∈ tabEdges e := by
  have hw : w j = j := Nat.mod_eq_of_lt hj
  obtain ⟨b, hb, i, hi, rfl⟩ := cover_block 4 e 6 j h1 h2
  unfold tabEdges
  refine List.mem_flatMap.2 ⟨b, by interval_cases b <;> simp, ?_⟩
  split
  · rename_i h4
    refine List.mem_map.2 ⟨e - 1 - i, List.mem_range.2 (by omega), ?_⟩
    rw [← hw]
    congr 1
    rw [Nat.mul_succ]
    omega
  · exact List.mem_map.2 ⟨i, List.mem_range.2 hi, hw⟩

theorem tet_reorder (n num : Nat) (hn : 1 ≤ n) (hnum : 6 * num = (n + 1) * (n + 2) * (n + 3)) (hN : num ≤ 65536) :
    ∃ m, vtkTetrahedron num = .ok m ∧ (basixTet n).length = num ∧ Reorder m (basixTet n) (vtkTet n) := by
  have hinner := innerBasix_length n hn
  have hb : basixTet n = ([0, 1, 2, 3].map fun i => corner n (tetV i)) ++
      ([(2, 3), (1, 3), (1, 2), (0, 3), (0, 2), (0, 1)].flatMap fun e => edgePts n (tetV e.1) (tetV e.2)) ++
      ([(1, 2, 3), (0, 2, 3), (0, 1, 3), (0, 1, 2)].flatMap fun f => triPts n (tetV f.1) (tetV f.2.1) (tetV f.2.2)) ++
      innerBasix n := rfl
  have hlen' : (basixTet n).length = 4 + (n - 1) * 6 + T (n - 2) * 4 + (innerBasix n).length := by
    rw [hb]
    simp only [List.length_append, List.length_flatMap, List.map_cons, List.map_nil, edgePts_length,
      triPts_length, List.sum_cons, List.sum_nil, List.length_cons, List.length_nil]
    omega
  have hlen : (basixTet n).length = num := by
    rw [hlen']
    rcases n with _ | _ | k
    · omega
    · have : (innerBasix 1).length = 0 := rfl
      simp [T_zero, this] at hnum ⊢
      omega
    · have h1 := T_eq k
      have h2 := hinner.2
      simp only [show k + 1 + 1 - 1 = k + 1 by omega, show k + 1 + 1 - 2 = k by omega] at h2 ⊢
      have h3 : (k + 1) * k * (k + 1 + 1 - 3) = (k + 1) * k * k - (k + 1) * k := by
        rw [show k + 1 + 1 - 3 = k - 1 by omega, Nat.mul_sub_one]
      rw [h3] at h2
      have h4 : (k + 1) * k ≤ (k + 1) * k * k ∨ k = 0 := by
        rcases k with _ | k
        · right; rfl
        · left; nlinarith
      have h5 : 6 * (innerBasix (k + 1 + 1)).length + (k + 1) * k = (k + 1) * k * k := by
        rcases h4 with h | h
        · omega
        · subst h; simp at h2 ⊢; exact h2
      have h6 : 6 * num = k * k * k + 12 * (k * k) + 47 * k + 60 := by rw [hnum]; ring
      nlinarith
  have hP : (basixTet n).length ≤ 65536 := by omega
  have hd : cellDegree .tetrahedron num = .ok (n : Int) := cellDegree_tetrahedron _ _ hnum
  have hC : Picks (basixTet n) [0, 1, 2, 3] ([0, 1, 2, 3].map fun i => corner n (tetV i)) := rfl
  -- edges
  have E : ∀ j b, [(2, 3), (1, 3), (1, 2), (0, 3), (0, 2), (0, 1)][j]? = some b →
      Picks (basixTet n) ((List.range (n - 1)).map fun i => w (4 + (n - 1) * j + i)) (edgePts n (tetV b.1) (tetV b.2)) := by
    intro j b hj
    exact picks_block hP ([0, 1, 2, 3].map fun i => corner n (tetV i)) _
      (fun b => edgePts n (tetV b.1) (tetV b.2)) _ (by rw [hb, List.append_assoc, List.append_assoc]) (n - 1)
      (fun b _ => edgePts_length _ _ _) 4 (by simp) j b hj
  have hrev : Picks (basixTet n) ((List.range (n - 1)).map fun i => w (4 + (n - 1) * (4 + 1) - 1 - i)) (edgePts n (tetV 2) (tetV 0)) := by
    rw [edgePts]
    apply picks_fun hP
    intro i hi
    have := get_block' (P := basixTet n) ([0, 1, 2, 3].map fun i => corner n (tetV i))
      [(2, 3), (1, 3), (1, 2), (0, 3), (0, 2), (0, 1)]
      (fun b => edgePts n (tetV b.1) (tetV b.2)) _ (by rw [hb, List.append_assoc, List.append_assoc]) (n - 1)
      (fun b _ => edgePts_length _ _ _) 4 (by simp) 4 (0, 2) rfl (n - 2 - i) (by omega)
    rw [show 4 + (n - 1) * 4 + (n - 2 - i) = 4 + (n - 1) * (4 + 1) - 1 - i by omega] at this
    rw [this, edgePts, List.getElem?_map, List.getElem?_range (by omega)]
    simp [comb2, tetV]
    omega
  have hE : Picks (basixTet n) (tabEdges (n - 1)) ([(0, 1), (1, 2), (2, 0), (0, 3), (1, 3), (2, 3)].flatMap fun e =>
      edgePts n (tetV e.1) (tetV e.2)) :=
    (E 5 _ rfl).append <| (E 2 _ rfl).append <| hrev.append <| (E 3 _ rfl).append <| (E 1 _ rfl).append <|
      (E 0 _ rfl).append picks_nil
  by_cases h2 : n < 2
  · have h1 : n = 1 := by omega
    subst h1
    have h0 : (basixTet 1).length = 4 := rfl
    refine ⟨[0, 1, 2, 3], ?_, hlen, ?_, ?_, ?_⟩
    · rw [vtkTetrahedron, hd]; rfl
    · rfl
    · exact hC
    · intro j hj
      rw [h0] at hj
      interval_cases j <;> simp
  by_cases h3 : n < 3
  · have h1 : n = 2 := by omega
    subst h1
    refine ⟨[0, 1, 2, 3] ++ tabEdges 1, ?_, hlen, ?_, ?_, ?_⟩
    · rw [vtkTetrahedron, hd]; rfl
    · rfl
    · have : vtkTet 2 = ([0, 1, 2, 3].map fun i => corner 2 (tetV i)) ++
        ([(0, 1), (1, 2), (2, 0), (0, 3), (1, 3), (2, 3)].flatMap fun e => edgePts 2 (tetV e.1) (tetV e.2)) := rfl
      rw [this]
      exact hC.append hE
    · intro j hj
      have h0 : (basixTet 2).length = 10 := rfl
      rw [h0] at hj
      by_cases c : j < 4
      · exact List.mem_append_left _ (by interval_cases j <;> simp)
      · exact List.mem_append_right _ (tabEdges_mem 1 j (by omega) (by omega) (by omega))
  obtain ⟨m, rfl⟩ : ∃ m, n = m + 3 := ⟨n - 3, by omega⟩
  -- faces
  have F : ∀ j b, [(1, 2, 3), (0, 2, 3), (0, 1, 3), (0, 1, 2)][j]? = some b → ∀ x y, x + y ≤ m →
      (basixTet (m + 3))[4 + 6 * (m + 2) + T (m + 1) * j + (offs (m + 1) y + x)]? =
        some (triPoint (m + 3) (tetV b.1) (tetV b.2.1) (tetV b.2.2) x y) := by
    intro j b hj x y hxy
    have h := get_block' (P := basixTet (m + 3)) (([0, 1, 2, 3].map fun i => corner (m + 3) (tetV i)) ++
      ([(2, 3), (1, 3), (1, 2), (0, 3), (0, 2), (0, 1)].flatMap fun e => edgePts (m + 3) (tetV e.1) (tetV e.2)))
      [(1, 2, 3), (0, 2, 3), (0, 1, 3), (0, 1, 2)]
      (fun b => triPts (m + 3) (tetV b.1) (tetV b.2.1) (tetV b.2.2)) _ (by rw [hb, List.append_assoc]) (T (m + 1))
      (fun b _ => by rw [triPts_length]; rfl) (4 + 6 * (m + 2)) (by simp [edgePts_length]; omega) j b hj
      (offs (m + 1) y + x) (offs_lt m x y hxy)
    rw [h, triPts, if_neg (by omega), show m + 3 - 3 = m by omega]
    exact triLattice_get _ _ _ _ hxy
  have hface : ∀ j b (c : Nat × Nat × Nat), [(1, 2, 3), (0, 2, 3), (0, 1, 3), (0, 1, 2)][j]? = some b →
      (∀ x y, x + y ≤ m → triPoint (m + 3) (tetV b.1) (tetV b.2.1) (tetV b.2.2) (faceMap m j x y).1 (faceMap m j x y).2 =
        triPoint (m + 3) (tetV c.1) (tetV c.2.1) (tetV c.2.2) x y) →
      ∃ r, triRem (tetFaceDofs (m + 3) (4 + 6 * (m + 2)) j) = .ok r ∧ (tetFaceDofs (m + 3) (4 + 6 * (m + 2)) j).Perm r ∧
        Picks (basixTet (m + 3)) r (vtkTriPts (m + 3) (tetV c.1) (tetV c.2.1) (tetV c.2.2)) := by
    intro j b c hj hc
    have hr := triRem_map (fun i => (basixTet (m + 3))[i]?) (tetFaceDofs (m + 3) (4 + 6 * (m + 2)) j)
    have e1 : (tetFaceDofs (m + 3) (4 + 6 * (m + 2)) j).map (fun i => (basixTet (m + 3))[i]?) =
        triLattice m fun x y => some (triPoint (m + 3) (tetV c.1) (tetV c.2.1) (tetV c.2.2) x y) := by
      rw [tetFaceDofs_eq, triLattice_map]
      apply triLattice_congr
      intro x y hxy
      rw [← hc x y hxy]
      apply w_of_get hP
      apply F j b hj
      unfold faceMap
      split
      · exact hxy
      · split
        · show m - x - y + x ≤ m
          omega
        · show y + x ≤ m
          omega
    rw [e1, triRem_spec] at hr
    rcases hr' : triRem (tetFaceDofs (m + 3) (4 + 6 * (m + 2)) j) with e | r
    · rw [hr'] at hr; cases hr
    rw [hr'] at hr
    simp only [Except.map, Except.ok.injEq] at hr
    refine ⟨r, rfl, triRem_perm _ _ hr', ?_⟩
    unfold Picks
    rw [← hr, vtkTriPts, if_neg (by omega), List.map_map, show m + 3 - 3 = m by omega]
    rfl
  obtain ⟨f2, a2, p2, k2⟩ := hface 2 _ (0, 1, 3) rfl (by intro x y h; rfl)
  obtain ⟨f0, a0, p0, k0⟩ := hface 0 _ (2, 3, 1) rfl (by
    intro x y h
    simp [faceMap, triPoint, comb3, tetV]
    omega)
  obtain ⟨f1, a1, p1, k1⟩ := hface 1 _ (0, 3, 2) rfl (by
    intro x y h
    simp [faceMap, triPoint, comb3, tetV])
  obtain ⟨f3, a3, p3, k3⟩ := hface 3 _ (0, 2, 1) rfl (by
    intro x y h
    simp [faceMap, triPoint, comb3, tetV])
  have hF : Picks (basixTet (m + 3)) (f2 ++ f0 ++ f1 ++ f3) ([(0, 1, 3), (2, 3, 1), (0, 3, 2), (0, 2, 1)].flatMap fun f =>
      vtkTriPts (m + 3) (tetV f.1) (tetV f.2.1) (tetV f.2.2)) := by
    have := k2.append <| k0.append <| k1.append <| k3.append picks_nil
    simp only [List.append_assoc, List.append_nil, List.flatMap_cons, List.flatMap_nil] at this ⊢
    exact this
  have hFl : ∀ j, (tetFaceDofs (m + 3) (4 + 6 * (m + 2)) j).length = T (m + 1) := by
    intro j
    rw [tetFaceDofs_eq, triLattice_length]
  have hFm : ∀ j q, q < T (m + 1) → 4 + 6 * (m + 2) + T (m + 1) * j + q < 65536 →
      4 + 6 * (m + 2) + T (m + 1) * j + q ∈ tetFaceDofs (m + 3) (4 + 6 * (m + 2)) j := by
    intro j q hq hlt
    obtain ⟨a, b, hab, rfl⟩ := offs_find m q hq
    have : ∃ x y, x + y ≤ m ∧ faceMap m j x y = (a, b) := by
      unfold faceMap
      by_cases j2 : j = 2
      · exact ⟨a, b, hab, by rw [if_pos j2]⟩
      · by_cases j0 : j = 0
        · refine ⟨b, m - b - a, by omega, ?_⟩
          rw [if_neg j2, if_pos j0, show m - b - (m - b - a) = a by omega]
        · exact ⟨b, a, by omega, by rw [if_neg j2, if_neg j0]⟩
    obtain ⟨x, y, hxy, hf⟩ := this
    rw [tetFaceDofs_eq]
    simp only [triLattice, List.mem_flatMap, List.mem_map, List.mem_range]
    refine ⟨y, by omega, x, by omega, ?_⟩
    rw [hf]
    exact Nat.mod_eq_of_lt hlt
  have hS := (hC.append hE).append hF
  have hshell : vtkTetShell (m + 3) = ([0, 1, 2, 3].map fun i => corner (m + 3) (tetV i)) ++
      ([(0, 1), (1, 2), (2, 0), (0, 3), (1, 3), (2, 3)].flatMap fun e => edgePts (m + 3) (tetV e.1) (tetV e.2)) ++
      ([(0, 1, 3), (2, 3, 1), (0, 3, 2), (0, 2, 1)].flatMap fun f =>
        vtkTriPts (m + 3) (tetV f.1) (tetV f.2.1) (tetV f.2.2)) := rfl
  rw [← hshell] at hS
  have hSl : ([0, 1, 2, 3] ++ tabEdges (m + 3 - 1) ++ (f2 ++ f0 ++ f1 ++ f3)).length = 4 + (m + 3 - 1) * 6 + T (m + 3 - 2) * 4 := by
    simp only [List.length_append, tabEdges_length, ← p2.length_eq, ← p0.length_eq, ← p1.length_eq, ← p3.length_eq, hFl,
      show m + 3 - 2 = m + 1 by omega, List.length_cons, List.length_nil]
    omega
  have hScov : ∀ j, j < 65536 → j < 4 + (m + 3 - 1) * 6 + T (m + 3 - 2) * 4 →
      j ∈ [0, 1, 2, 3] ++ tabEdges (m + 3 - 1) ++ (f2 ++ f0 ++ f1 ++ f3) := by
    intro j hlt hj
    simp only [List.mem_append]
    by_cases c1 : j < 4
    · left; left; interval_cases j <;> simp
    · by_cases c2 : j < 4 + (m + 3 - 1) * 6
      · left; right
        exact tabEdges_mem _ j hlt (by omega) c2
      · right
        obtain ⟨b, hb', i, hi, rfl⟩ := cover_block (4 + 6 * (m + 2)) (T (m + 1)) 4 j (by omega)
          (by rw [show m + 3 - 2 = m + 1 by omega] at hj; omega)
        have hmem := hFm b i hi hlt
        interval_cases b
        · left; left; right; exact p0.mem_iff.1 hmem
        · left; right; exact p1.mem_iff.1 hmem
        · left; left; left; exact p2.mem_iff.1 hmem
        · right; exact p3.mem_iff.1 hmem
  rw [vtkTet_eq (m + 3) hn]
  by_cases h4 : m + 3 < 4
  · refine ⟨[0, 1, 2, 3] ++ tabEdges (m + 3 - 1) ++ (f2 ++ f0 ++ f1 ++ f3), ?_, hlen, ?_, ?_, ?_⟩
    · rw [vtkTetrahedron, hd]
      simp only [bind, Except.bind, pure, Except.pure, Int.toNat_natCast]
      rw [if_neg (by omega), if_neg (by omega)]
      simp only [show m + 3 - 1 = m + 2 by omega, a2, a0, a1, a3]
      rw [if_pos (by omega)]
      simp only [tabEdges, List.append_assoc]
    · rw [hSl, hlen', innerBasix, if_pos h4]
      simp
    · rw [if_pos h4, List.append_nil]
      exact hS
    · intro j hj
      refine hScov j (by omega) ?_
      rw [hlen', innerBasix, if_pos h4] at hj
      simpa using hj
  · have hnf : (m + 3 - 1) * (m + 3 - 2) / 2 = T (m + 3 - 2) := two_T _ (by omega)
    have hI : Picks (basixTet (m + 3)) ((List.range ((m + 3 - 1) * (m + 3 - 2) * (m + 3 - 3) / 6)).map fun k =>
        w (4 + 6 * (m + 3 - 1) + 4 * T (m + 3 - 2) + k)) (innerBasix (m + 3)) := by
      have h := picks_block hP (([0, 1, 2, 3].map fun i => corner (m + 3) (tetV i)) ++
        ([(2, 3), (1, 3), (1, 2), (0, 3), (0, 2), (0, 1)].flatMap fun e => edgePts (m + 3) (tetV e.1) (tetV e.2)) ++
        ([(1, 2, 3), (0, 2, 3), (0, 1, 3), (0, 1, 2)].flatMap fun f => triPts (m + 3) (tetV f.1) (tetV f.2.1) (tetV f.2.2))) [()]
        (fun _ => innerBasix (m + 3)) [] (by rw [hb]; simp) _
        (fun b _ => hinner.1) (4 + 6 * (m + 3 - 1) + 4 * T (m + 3 - 2)) (by simp [edgePts_length, triPts_length]; omega) 0 () rfl
      simpa only [Nat.mul_zero, Nat.add_zero] using h
    have hr := tetRem_map (fun i => (basixTet (m + 3))[i]?) ((List.range ((m + 3 - 1) * (m + 3 - 2) * (m + 3 - 3) / 6)).map fun k =>
        w (4 + 6 * (m + 3 - 1) + 4 * T (m + 3 - 2) + k))
    rw [hI, innerBasix, if_neg h4, tetLattice_map, tetRem_spec] at hr
    rcases hr' : tetRem ((List.range ((m + 3 - 1) * (m + 3 - 2) * (m + 3 - 3) / 6)).map fun k =>
        w (4 + 6 * (m + 3 - 1) + 4 * T (m + 3 - 2) + k)) with e | r
    · rw [hr'] at hr; cases hr
    rw [hr'] at hr
    simp only [Except.map, Except.ok.injEq] at hr
    have hperm := tetRem_perm _ _ hr'
    refine ⟨[0, 1, 2, 3] ++ tabEdges (m + 3 - 1) ++ (f2 ++ f0 ++ f1 ++ f3) ++ r, ?_, hlen, ?_, ?_, ?_⟩
    · rw [vtkTetrahedron, hd]
      simp only [bind, Except.bind, pure, Except.pure, Int.toNat_natCast]
      rw [if_neg (by omega), if_neg (by omega)]
      simp only [show m + 3 - 1 = m + 2 by omega] at hr' hnf ⊢
      simp only [a2, a0, a1, a3, hnf, hr']
      rw [if_neg (by omega)]
      simp only [tabEdges, List.append_assoc]
    · rw [List.length_append, hSl, ← hperm.length_eq, List.length_map, List.length_range, hlen', hinner.1]
    · rw [if_neg h4]
      refine hS.append ?_
      unfold Picks
      rw [← hr, List.map_map]
      rfl
    · intro j hj
      rw [hlen'] at hj
      by_cases c : j < 4 + (m + 3 - 1) * 6 + T (m + 3 - 2) * 4
      · exact List.mem_append_left _ (hScov j (by omega) c)
      · refine List.mem_append_right _ (hperm.mem_iff.1 (List.mem_map.2 ⟨j - (4 + 6 * (m + 3 - 1) + 4 * T (m + 3 - 2)), ?_, ?_⟩))
        · rw [List.mem_range, ← hinner.1]
          omega
        · have hw : w j = j := Nat.mod_eq_of_lt (by omega)
          rw [← hw]
          congr 1
          rw [hw]
          omega

end Verif.CellPerm
