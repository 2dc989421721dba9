import Verif.Lemmas.VtkTetFaces
/-!
# All remainders of a tetrahedron; the remainders are permuted, whatever their values are
-/
namespace Verif.CellPerm
open Verif.Spec

section spec
variable {α : Type} (g : Nat → Nat → Nat → α)

theorem shell_map (k : Nat) (hk : 0 < k) : (vtkTetShell (k + 1)).map (fun p => g p.1 p.2.1 p.2.2) =
    [g 0 0 0, g (k + 1) 0 0, g 0 (k + 1) 0, g 0 0 (k + 1)] ++
      ((List.range k).map (fun i => g (i + 1) 0 0) ++ (List.range k).map (fun i => g (k - i) (i + 1) 0) ++
      (List.range k).map (fun i => g 0 (k - i) 0) ++ (List.range k).map (fun i => g 0 0 (i + 1)) ++
      (List.range k).map (fun i => g (k - i) 0 (i + 1)) ++ (List.range k).map (fun i => g 0 (k - i) (i + 1))) ++
      (if k < 2 then [] else (vtkTriLattice (k - 2)).map (fun p => g (p.1 + 1) 0 (p.2 + 1)) ++
      (vtkTriLattice (k - 2)).map (fun p => g (p.2 + 1) (k - 1 - p.1 - p.2) (p.1 + 1)) ++
      (vtkTriLattice (k - 2)).map (fun p => g 0 (p.2 + 1) (p.1 + 1)) ++
      (vtkTriLattice (k - 2)).map (fun p => g (p.2 + 1) (p.1 + 1) 0)) := by
  have h3 : (k + 1 < 3) ↔ (k < 2) := by omega
  simp only [vtkTetShell, vtkTriPts, h3]
  by_cases h : k < 2
  · simp [h, edgePts, tetV, corner, comb2, Function.comp_def]
  · simp [h, edgePts, tetV, corner, comb2, Function.comp_def, triPoint, comb3, show k + 1 - 3 = k - 2 by omega]

/-- What is left of the lattice. -/
def innerTet (k : Nat) : List α := if k < 3 then [] else tetLattice (k - 3) fun x y z => g (x + 1) (y + 1) (z + 1)

theorem inner_eq (k : Nat) (hk : 2 ≤ k) :
    ((List.range (k - 1)).flatMap fun l => strip (hL g l) 1 (k - l - 2) (k - l - 2)) = innerTet g k := by
  rw [show k - 1 = (k - 2) + 1 by omega, List.range_succ, List.flatMap_append]
  have e : strip (hL g (k - 2)) 1 (k - (k - 2) - 2) (k - (k - 2) - 2) = [] := by
    rw [show k - (k - 2) - 2 = 0 by omega]; rfl
  simp only [List.flatMap_cons, List.flatMap_nil, e, List.append_nil, innerTet]
  split
  · rw [show k - 2 = 0 by omega]; rfl
  · rw [tetLattice, show k - 3 + 1 = k - 2 by omega]
    apply List.flatMap_congr
    intro l hl
    have := List.mem_range.1 hl
    rw [triLattice_eq, strip_shift, show k - 3 - l + 1 = k - l - 2 by omega]
    simp [hL, Nat.add_comm]

theorem tetStep_spec (k : Nat) : tetStep (tetLattice (k + 1) g) =
    .ok ((vtkTetShell (k + 1)).map (fun p => g p.1 p.2.1 p.2.2), innerTet g k) := by
  have hd : cellDegree .tetrahedron (tetLattice (k + 1) g).length = .ok ((k + 1 : Nat) : Int) :=
    cellDegree_tetrahedron _ _ (tetLattice_length _ _)
  have hdeg : ((k + 1 : Nat) : Int) + 1 = (k : Int) + 2 := by push_cast; ring
  unfold tetStep
  rw [hd]
  simp only [bind, Except.bind, hdeg]
  rw [tet_split, tetCorners_spec]
  simp only
  rcases k with _ | k
  · simp [pure, Except.pure, strip, innerTet, vtkTetShell, vtkTriPts, edgePts, tetV, corner]
  · rw [if_pos (by omega), tetEdges_spec g (k + 1) (by omega)]
    simp only
    rw [shell_map g (k + 1) (by omega)]
    rcases k with _ | k
    · simp [pure, Except.pure, strip, innerTet, mid, h0]
    · rw [if_pos (by push_cast; omega), tetFaces_spec g (k + 1 + 1) (by omega), inner_eq g _ (by omega), if_neg (by omega)]
      rfl

theorem tetLattice_two (k : Nat) : ∃ a b l, tetLattice (k + 1) g = a :: b :: l := by
  obtain ⟨a, b, l, h⟩ := triLattice_two k fun x y => g x y 0
  exact ⟨a, b, l ++ tetLattice k fun x y z => g x y (z + 1), by rw [tetLattice_succ, h]; rfl⟩

theorem tetLoopRem_cons (fuel : Nat) (a b : α) (l : List α) : tetLoopRem (fuel + 1) (a :: b :: l) = (do
      let (m, v) ← tetStep (a :: b :: l)
      let ms ← tetLoopRem fuel v
      return m ++ ms) := rfl

theorem tetLoopRem_spec (n : Nat) (fuel : Nat) (hf : n + 1 ≤ fuel) :
    tetLoopRem fuel (tetLattice n g) = .ok ((vtkTet n).map fun p => g p.1 p.2.1 p.2.2) := by
  induction n using Nat.strong_induction_on generalizing g fuel with
  | _ n ih =>
    obtain ⟨fuel, rfl⟩ : ∃ f, fuel = f + 1 := ⟨fuel - 1, by omega⟩
    rcases n with _ | k
    · rfl
    · obtain ⟨a, b, l, hl⟩ := tetLattice_two g k
      rw [hl, tetLoopRem_cons, ← hl, tetStep_spec]
      obtain ⟨fuel, rfl⟩ : ∃ f, fuel = f + 1 := ⟨fuel - 1, by omega⟩
      rcases k with _ | _ | _ | m
      · simp [bind, Except.bind, pure, Except.pure, innerTet, tetLoopRem, vtkTet]
      · simp [bind, Except.bind, pure, Except.pure, innerTet, tetLoopRem, vtkTet]
      · simp [bind, Except.bind, pure, Except.pure, innerTet, tetLoopRem, vtkTet]
      · have := ih m (by omega) (fun x y z => g (x + 1) (y + 1) (z + 1)) (fuel + 1) (by omega)
        have e : innerTet g (m + 1 + 1 + 1) = tetLattice m fun x y z => g (x + 1) (y + 1) (z + 1) := by
          rw [innerTet, if_neg (by omega), show m + 1 + 1 + 1 - 3 = m by omega]
        simp only [bind, Except.bind, e, this]
        simp only [pure, Except.pure, vtkTet, List.map_append, List.map_map, Function.comp_def]

theorem tetRem_spec (n : Nat) : tetRem (tetLattice n g) = .ok ((vtkTet n).map fun p => g p.1 p.2.1 p.2.2) := by
  apply tetLoopRem_spec
  have := tetLattice_length n g
  have : n + 1 ≤ (tetLattice n g).length := by
    by_contra hlt
    have h1 : (tetLattice n g).length ≤ n := by omega
    have h2 : 6 ≤ (n + 2) * (n + 3) := by nlinarith
    have : (n + 1) * 6 ≤ (n + 1) * ((n + 2) * (n + 3)) := Nat.mul_le_mul_left _ h2
    nlinarith
  omega

end spec

section map
variable {α β : Type} (f : α → β)

/-- Apply `f` to both lists. -/
def both (p : List α × List α) : List β × List β := (p.1.map f, p.2.map f)

theorem vecPop_map (v : List α) (i : Int) : vecPop (v.map f) i = (vecPop v i).map fun p => (f p.1, p.2.map f) := by
  simp only [vecPop, List.length_map]
  generalize (if i < 0 then (v.length : Int) + i else i) = p
  by_cases hp : p < 0
  · simp [hp, Except.map]
  · rw [if_neg hp, if_neg hp, List.getElem?_map]
    cases v[p.toNat]? with
    | none => rfl
    | some x => simp [Except.map, List.eraseIdx_map]

theorem popLoop_map (c : Nat → Int) (n i : Nat) (d : Int) (v : List α) :
    popLoop c n i d (v.map f) = (popLoop c n i d v).map (both f) := by
  induction n generalizing i d v with
  | zero => rfl
  | succ n ih =>
    simp only [popLoop, vecPop_map]
    rcases vecPop v d with e | ⟨x, v'⟩
    · rfl
    · simp only [Except.map, ih]
      rcases popLoop c n (i + 1) (d + c i) v' with e | ⟨xs, v''⟩
      · rfl
      · rfl

theorem popNest_map (s : Nat → Int) (count : Nat → Nat) (c : Nat → Nat → Int) (n i : Nat) (v : List α) :
    popNest s count c n i (v.map f) = (popNest s count c n i v).map (both f) := by
  induction n generalizing i v with
  | zero => rfl
  | succ n ih =>
    simp only [popNest, popLoop_map]
    rcases popLoop (c i) (count i) 0 (s i) v with e | ⟨x, v'⟩
    · rfl
    · simp only [Except.map, both, ih]
      rcases popNest s count c n (i + 1) v' with e | ⟨xs, v''⟩
      · rfl
      · simp [both, Except.map]

theorem triStep_map (v : List α) : triStep (v.map f) = (triStep v).map (both f) := by
  simp only [triStep, List.length_map, bind, Except.bind]
  rcases cellDegree .triangle v.length with e | degree
  · rfl
  simp only [vecPop_map]
  rcases vecPop v 0 with e | ⟨x0, v⟩
  · rfl
  simp only [Except.map, vecPop_map]
  rcases vecPop v (degree - 1) with e | ⟨x1, v⟩
  · rfl
  simp only [Except.map, vecPop_map]
  rcases vecPop v (-1) with e | ⟨x2, v⟩
  · rfl
  simp only [Except.map, popLoop_map]
  rcases popLoop (fun _ => 0) (degree - 1).toNat 0 0 v with e | ⟨e0, v⟩
  · rfl
  simp only [Except.map, both, popLoop_map]
  rcases popLoop (fun i => degree - i) (degree - 1).toNat 1 (-(degree * (degree - 1) / 2)) v with e | ⟨e1, v⟩
  · rfl
  simp only [Except.map, both, popLoop_map]
  rcases popLoop (fun i => -(i : Int)) (degree - 1).toNat 1 (-1) v with e | ⟨e2, v⟩
  · rfl
  simp [pure, Except.pure, both]

theorem triLoop_map (fuel : Nat) (v : List α) : triLoop fuel (v.map f) = (triLoop fuel v).map (List.map f) := by
  induction fuel generalizing v with
  | zero => rfl
  | succ fuel ih =>
    rcases v with _ | ⟨a, _ | ⟨b, l⟩⟩
    · rfl
    · rfl
    · have h := triStep_map f (a :: b :: l)
      rw [List.map_cons, List.map_cons] at h ⊢
      rw [triLoop_cons, triLoop_cons, h]
      rcases triStep (a :: b :: l) with e | ⟨m, v⟩
      · rfl
      · simp only [bind, Except.bind, Except.map, both, ih]
        rcases triLoop fuel v with e | ms
        · rfl
        · simp [pure, Except.pure, Except.map]

theorem triRem_map (v : List α) : triRem (v.map f) = (triRem v).map (List.map f) := by
  rw [triRem, List.length_map, triLoop_map]; rfl

theorem tetCorners_map (deg : Int) (v : List α) : tetCorners deg (v.map f) = (tetCorners deg v).map (both f) := by
  simp only [tetCorners, bind, Except.bind, vecPop_map]
  rcases vecPop v 0 with e | ⟨x0, v⟩
  · rfl
  simp only [Except.map, vecPop_map]
  rcases vecPop v (deg - 2) with e | ⟨x1, v⟩
  · rfl
  simp only [Except.map, vecPop_map]
  rcases vecPop v (deg * (deg + 1) / 2 - 3) with e | ⟨x2, v⟩
  · rfl
  simp only [Except.map, vecPop_map]
  rcases vecPop v (-1) with e | ⟨x3, v⟩
  · rfl
  simp [pure, Except.pure, both, Except.map]

theorem tetEdges_map (deg : Int) (v : List α) : tetEdges deg (v.map f) = (tetEdges deg v).map (both f) := by
  simp only [tetEdges, bind, popLoop_map]
  generalize popLoop (fun _ => 0) (deg - 2).toNat 0 0 v = p
  rcases p with e | ⟨e0, v⟩
  · rfl
  simp only [Except.bind, Except.map, both, popLoop_map]
  generalize popLoop _ _ _ _ v = p
  rcases p with e | ⟨e1, v⟩
  · rfl
  simp only [Except.map, both, popLoop_map]
  generalize popLoop _ _ _ _ v = p
  rcases p with e | ⟨e2, v⟩
  · rfl
  simp only [Except.map, both, popLoop_map]
  generalize popLoop _ _ _ _ v = p
  rcases p with e | ⟨e3, v⟩
  · rfl
  simp only [Except.map, both, popLoop_map]
  generalize popLoop _ _ _ _ v = p
  rcases p with e | ⟨e4, v⟩
  · rfl
  simp only [Except.map, both, popLoop_map]
  generalize popLoop _ _ _ _ v = p
  rcases p with e | ⟨e5, v⟩
  · rfl
  simp [pure, Except.pure, both]

theorem tetFaces_map (deg : Int) (v : List α) : tetFaces deg (v.map f) = (tetFaces deg v).map (both f) := by
  simp only [tetFaces, bind, popNest_map]
  generalize popNest _ _ _ _ _ v = p
  rcases p with e | ⟨d0, v⟩
  · rfl
  simp only [Except.bind, Except.map, both, triRem_map]
  rcases triRem d0 with e | m0
  · rfl
  simp only [Except.map, popNest_map]
  generalize popNest _ _ _ _ _ v = p
  rcases p with e | ⟨d1, v⟩
  · rfl
  simp only [Except.map, both, triRem_map]
  rcases triRem d1 with e | m1
  · rfl
  simp only [Except.map, popNest_map]
  generalize popNest _ _ _ _ _ v = p
  rcases p with e | ⟨d2, v⟩
  · rfl
  simp only [Except.map, both, triRem_map]
  rcases triRem d2 with e | m2
  · rfl
  simp only [Except.map, popNest_map]
  generalize popNest _ _ _ _ _ v = p
  rcases p with e | ⟨d3, v⟩
  · rfl
  simp only [Except.map, both, triRem_map]
  rcases triRem d3 with e | m3
  · rfl
  simp [pure, Except.pure, both, Except.map]

theorem tetStep_map (v : List α) : tetStep (v.map f) = (tetStep v).map (both f) := by
  simp only [tetStep, List.length_map, bind]
  rcases cellDegree .tetrahedron v.length with e | degree
  · rfl
  simp only [Except.bind, tetCorners_map]
  rcases tetCorners (degree + 1) v with e | ⟨m0, v⟩
  · rfl
  simp only [Except.map, both]
  by_cases c1 : degree + 1 > 2
  · simp only [if_pos c1, tetEdges_map]
    rcases tetEdges (degree + 1) v with e | ⟨m1, v⟩
    · rfl
    simp only [Except.map, both]
    by_cases c2 : degree + 1 > 3
    · simp only [if_pos c2, tetFaces_map]
      rcases tetFaces (degree + 1) v with e | ⟨m2, v⟩
      · rfl
      simp [pure, Except.pure, both, Except.map]
    · simp only [if_neg c2]
      simp [pure, Except.pure]
  · have c2 : ¬ degree + 1 > 3 := by omega
    simp only [if_neg c1, if_neg c2]
    simp [pure, Except.pure]

theorem tetLoopRem_map (fuel : Nat) (v : List α) : tetLoopRem fuel (v.map f) = (tetLoopRem fuel v).map (List.map f) := by
  induction fuel generalizing v with
  | zero => rfl
  | succ fuel ih =>
    rcases v with _ | ⟨a, _ | ⟨b, l⟩⟩
    · rfl
    · rfl
    · have h := tetStep_map f (a :: b :: l)
      rw [List.map_cons, List.map_cons] at h ⊢
      rw [tetLoopRem_cons, tetLoopRem_cons, h]
      rcases tetStep (a :: b :: l) with e | ⟨m, v⟩
      · rfl
      · simp only [bind, Except.bind, Except.map, both, ih]
        rcases tetLoopRem fuel v with e | ms
        · rfl
        · simp [pure, Except.pure, Except.map]

theorem tetRem_map (v : List α) : tetRem (v.map f) = (tetRem v).map (List.map f) := by
  rw [tetRem, List.length_map, tetLoopRem_map]; rfl

end map

section perm
variable {α : Type}

theorem bind_ok {β γ : Type} {a : Except Err β} {f : β → Except Err γ} {r : γ} :
    (a >>= f) = .ok r ↔ ∃ x, a = .ok x ∧ f x = .ok r := by
  cases a with
  | error e => simp [bind, Except.bind]
  | ok x => simp [bind, Except.bind]

theorem vecPop_perm (v : List α) (i : Int) (x : α) (v' : List α) (h : vecPop v i = .ok (x, v')) : v.Perm (x :: v') := by
  have key : ∀ j : Nat, ∀ y, v[j]? = some y → v.Perm (y :: v.eraseIdx j) := by
    intro j y hy
    obtain ⟨hj, rfl⟩ := List.getElem?_eq_some_iff.1 hy
    exact (List.getElem_cons_eraseIdx_perm hj).symm
  simp only [vecPop] at h
  generalize (if i < 0 then (v.length : Int) + i else i) = p at h
  split at h
  · cases h
  · split at h
    · rename_i y hy
      cases h
      exact key _ _ hy
    · cases h

theorem popLoop_perm (c : Nat → Int) (n i : Nat) (d : Int) (v xs v' : List α) (h : popLoop c n i d v = .ok (xs, v')) :
    v.Perm (xs ++ v') := by
  induction n generalizing i d v xs v' with
  | zero => cases h; exact List.Perm.refl _
  | succ n ih =>
    simp only [popLoop] at h
    rcases hv : vecPop v d with e | ⟨x, v1⟩
    · rw [hv] at h; cases h
    · rw [hv] at h
      simp only at h
      rcases hl : popLoop c n (i + 1) (d + c i) v1 with e | ⟨ys, v2⟩
      · rw [hl] at h; cases h
      · rw [hl] at h
        cases h
        exact (vecPop_perm _ _ _ _ hv).trans ((ih _ _ _ _ _ hl).cons x)

theorem popNest_perm (s : Nat → Int) (count : Nat → Nat) (c : Nat → Nat → Int) (n i : Nat) (v xs v' : List α)
    (h : popNest s count c n i v = .ok (xs, v')) : v.Perm (xs ++ v') := by
  induction n generalizing i v xs v' with
  | zero => cases h; exact List.Perm.refl _
  | succ n ih =>
    simp only [popNest] at h
    rcases hv : popLoop (c i) (count i) 0 (s i) v with e | ⟨x, v1⟩
    · rw [hv] at h; cases h
    · rw [hv] at h
      simp only at h
      rcases hl : popNest s count c n (i + 1) v1 with e | ⟨ys, v2⟩
      · rw [hl] at h; cases h
      · rw [hl] at h
        cases h
        rw [List.append_assoc]
        exact (popLoop_perm _ _ _ _ _ _ _ hv).trans ((ih _ _ _ _ hl).append_left x)

theorem triStep_perm (v m v' : List α) (h : triStep v = .ok (m, v')) : v.Perm (m ++ v') := by
  simp only [triStep, bind_ok] at h
  obtain ⟨d, -, ⟨x0, v0⟩, h0, ⟨x1, v1⟩, h1, ⟨x2, v2⟩, h2, ⟨e0, v3⟩, h3, ⟨e1, v4⟩, h4, ⟨e2, v5⟩, h5, h⟩ := h
  cases h
  have a0 := vecPop_perm _ _ _ _ h0
  have a1 := vecPop_perm _ _ _ _ h1
  have a2 := vecPop_perm _ _ _ _ h2
  have a3 := popLoop_perm _ _ _ _ _ _ _ h3
  have a4 := popLoop_perm _ _ _ _ _ _ _ h4
  have a5 := popLoop_perm _ _ _ _ _ _ _ h5
  refine a0.trans ?_
  simp only [List.cons_append, List.nil_append, List.append_assoc]
  refine List.Perm.cons _ (a1.trans (List.Perm.cons _ (a2.trans (List.Perm.cons _ ?_))))
  exact a3.trans (List.Perm.append_left _ (a4.trans (List.Perm.append_left _ a5)))

theorem triLoop_perm (fuel : Nat) (v m : List α) (h : triLoop fuel v = .ok m) : v.Perm m := by
  induction fuel generalizing v m with
  | zero => cases h
  | succ fuel ih =>
    rcases v with _ | ⟨a, _ | ⟨b, l⟩⟩
    · cases h; exact List.Perm.refl _
    · cases h; exact List.Perm.refl _
    · rw [triLoop_cons] at h
      simp only [bind_ok] at h
      obtain ⟨⟨m0, v0⟩, h0, ms, h1, h⟩ := h
      cases h
      exact (triStep_perm _ _ _ h0).trans ((ih _ _ h1).append_left _)

theorem triRem_perm (v m : List α) (h : triRem v = .ok m) : v.Perm m := triLoop_perm _ _ _ h

theorem tetStep_ok (v m v' : List α) (h : tetStep v = .ok (m, v')) : ∃ d m0 v0 m1 v1 m2 v2,
    tetCorners d v = .ok (m0, v0) ∧ (if d > 2 then tetEdges d v0 else .ok ([], v0)) = .ok (m1, v1) ∧
    (if d > 3 then tetFaces d v1 else .ok ([], v1)) = .ok (m2, v2) ∧ m = m0 ++ m1 ++ m2 ∧ v' = v2 := by
  simp only [tetStep, bind_ok] at h
  obtain ⟨d, -, ⟨m0, v0⟩, h0, h⟩ := h
  by_cases c1 : d + 1 > 2
  · simp only [if_pos c1, bind_ok] at h
    obtain ⟨⟨m1, v1⟩, h1, h⟩ := h
    by_cases c2 : d + 1 > 3
    · simp only [if_pos c2, bind_ok] at h
      obtain ⟨⟨m2, v2⟩, h2, h⟩ := h
      cases h
      exact ⟨d + 1, m0, v0, m1, v1, m2, _, h0, by rw [if_pos c1, h1], by rw [if_pos c2, h2], rfl, rfl⟩
    · simp only [if_neg c2] at h
      cases h
      exact ⟨d + 1, m0, v0, m1, _, [], _, h0, by rw [if_pos c1, h1], by rw [if_neg c2], rfl, rfl⟩
  · have c2 : ¬ d + 1 > 3 := by omega
    simp only [if_neg c1, if_neg c2] at h
    cases h
    exact ⟨d + 1, m0, _, [], _, [], _, h0, by rw [if_neg c1], by rw [if_neg c2], rfl, rfl⟩

theorem tetStep_perm (v m v' : List α) (h : tetStep v = .ok (m, v')) : v.Perm (m ++ v') := by
  obtain ⟨d, m0, v0, m1, v1, m2, v2, h0, h1, h2, rfl, rfl⟩ := tetStep_ok v m v' h
  have a0 : v.Perm (m0 ++ v0) := by
    simp only [tetCorners, bind_ok] at h0
    obtain ⟨⟨x0, w0⟩, b0, ⟨x1, w1⟩, b1, ⟨x2, w2⟩, b2, ⟨x3, w3⟩, b3, h0⟩ := h0
    cases h0
    exact (vecPop_perm _ _ _ _ b0).trans (List.Perm.cons _ ((vecPop_perm _ _ _ _ b1).trans (List.Perm.cons _
      ((vecPop_perm _ _ _ _ b2).trans (List.Perm.cons _ (vecPop_perm _ _ _ _ b3))))))
  have a1 : v0.Perm (m1 ++ v1) := by
    split at h1
    · simp only [tetEdges, bind_ok] at h1
      obtain ⟨⟨x0, w0⟩, b0, ⟨x1, w1⟩, b1, ⟨x2, w2⟩, b2, ⟨x3, w3⟩, b3, ⟨x4, w4⟩, b4, ⟨x5, w5⟩, b5, h1⟩ := h1
      cases h1
      simp only [List.append_assoc]
      exact (popLoop_perm _ _ _ _ _ _ _ b0).trans (List.Perm.append_left _ ((popLoop_perm _ _ _ _ _ _ _ b1).trans (List.Perm.append_left _
        ((popLoop_perm _ _ _ _ _ _ _ b2).trans (List.Perm.append_left _ ((popLoop_perm _ _ _ _ _ _ _ b3).trans (List.Perm.append_left _
        ((popLoop_perm _ _ _ _ _ _ _ b4).trans (List.Perm.append_left _ (popLoop_perm _ _ _ _ _ _ _ b5))))))))))
    · cases h1; exact List.Perm.refl _
  have a2 : v1.Perm (m2 ++ v') := by
    split at h2
    · simp only [tetFaces, bind_ok] at h2
      obtain ⟨⟨x0, w0⟩, b0, y0, c0, ⟨x1, w1⟩, b1, y1, c1, ⟨x2, w2⟩, b2, y2, c2, ⟨x3, w3⟩, b3, y3, c3, h2⟩ := h2
      cases h2
      simp only [List.append_assoc]
      exact (popNest_perm _ _ _ _ _ _ _ _ b0).trans (List.Perm.append (triRem_perm _ _ c0)
        ((popNest_perm _ _ _ _ _ _ _ _ b1).trans (List.Perm.append (triRem_perm _ _ c1)
        ((popNest_perm _ _ _ _ _ _ _ _ b2).trans (List.Perm.append (triRem_perm _ _ c2)
        ((popNest_perm _ _ _ _ _ _ _ _ b3).trans (List.Perm.append_right _ (triRem_perm _ _ c3))))))))
    · cases h2; exact List.Perm.refl _
  simp only [List.append_assoc]
  exact a0.trans (List.Perm.append_left _ (a1.trans (List.Perm.append_left _ a2)))

theorem tetRem_perm (v m : List α) (h : tetRem v = .ok m) : v.Perm m := by
  have : ∀ fuel (v m : List α), tetLoopRem fuel v = .ok m → v.Perm m := by
    intro fuel
    induction fuel with
    | zero => intro v m h; cases h
    | succ fuel ih =>
      intro v m h
      rcases v with _ | ⟨a, _ | ⟨b, l⟩⟩
      · cases h; exact List.Perm.refl _
      · cases h; exact List.Perm.refl _
      · rw [tetLoopRem_cons] at h
        simp only [bind_ok] at h
        obtain ⟨⟨m0, v0⟩, h0, ms, h1, h⟩ := h
        cases h
        exact (tetStep_perm _ _ _ h0).trans ((ih _ _ h1).append_left _)
  exact this _ _ _ h

end perm

end Verif.CellPerm
