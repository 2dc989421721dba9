import Verif.Model.FormIntegrals
import Verif.Spec.FormValue
import Verif.Props.C59_Integration
/-! # Facts on forms -/
namespace Verif.Integration
open Verif.Std Verif.World Verif.Spec Verif.Spec.Integration Verif.Props

theorem findId_map (ids : List Int) (R : Int → List (List Nat)) (hs : ids.Pairwise (· ≤ ·)) (id : Int) (h : id ∈ ids) :
    findId (ids.map fun i => (i, R i)) id = some (R id) := by
  have hs' : (ids.map fun i => (i, R i)).Pairwise (fun x y => x.1 ≤ y.1) := List.pairwise_map.mpr hs
  obtain ⟨x, h1, h2, h3⟩ := lowerBound_find (fun p : Int × List (List Nat) => p.1) _ hs' id
    ⟨(id, R id), List.mem_map.mpr ⟨id, h, rfl⟩, rfl⟩
  unfold findId
  simp only [h1]
  rw [if_pos h2]
  obtain ⟨i, _, rfl⟩ := List.mem_map.mp h3
  have h2 : i = id := h2
  rw [h2]

/-- The integrals that are attached. -/
theorem attach_spec (k : Kind) (all : Except Err (List (List Nat))) (subs : List (Int × List (List Nat))) (R : Int → List (List Nat)) :
    ∀ (l : List (Integral κ)) (i : Nat) (d : List (List Nat)),
      (-1 ∈ l.map (·.id) → all = .ok (R (-1))) → (∀ I ∈ l, I.id ≠ -1 → findId subs I.id = some (R I.id)) →
      (k ≠ .cell → (l.map (·.id)).count (-1) ≤ 1 ∧ (-1 ∈ l.map (·.id) → d = [])) →
      attach k all subs i d l = .ok (l.zipIdx.map fun p => (i + p.2, ⟨p.1.kernel, R p.1.id⟩)) := by
  intro l
  induction l with
  | nil => intro i d _ _ _; rfl
  | cons I l ih =>
    intro i d hall hsub hone
    have hz : ((I :: l).zipIdx.map fun p => (i + p.2, (⟨p.1.kernel, R p.1.id⟩ : Data κ))) =
        (i, ⟨I.kernel, R I.id⟩) :: l.zipIdx.map fun p => (i + 1 + p.2, ⟨p.1.kernel, R p.1.id⟩) := by
      rw [List.zipIdx_cons', List.map_cons, List.map_map]
      congr 1
      refine List.map_congr_left fun p _ => ?_
      simp only [Function.comp_apply, Prod.map]
      congr 1
      omega
    rw [hz, attach]
    by_cases hI : I.id = -1
    · rw [if_pos hI]
      have ha := hall (by simp [hI])
      have hd : (if k = .cell then R (-1) else d ++ R (-1)) = R (-1) := by
        split
        · rfl
        · next hk => rw [(hone hk).2 (by simp [hI])]; rfl
      have hrest := ih (i + 1) (R (-1)) (fun hx => ha) (fun J hJ => hsub J (List.mem_cons_of_mem _ hJ)) (fun hk => by
        have h1 := (hone hk).1
        rw [List.map_cons, hI, List.count_cons_self] at h1
        have h0 : (l.map (·.id)).count (-1) = 0 := by omega
        exact ⟨by omega, fun hx => absurd (List.count_eq_zero.mp h0) (by simpa using hx)⟩)
      rw [ha] at hrest ⊢
      simp only [bind, Except.bind, hd, hrest, hI]
    · rw [if_neg hI]
      have hrest := ih (i + 1) d (fun hx => hall (by rw [List.map_cons]; exact List.mem_cons_of_mem _ hx))
        (fun J hJ => hsub J (List.mem_cons_of_mem _ hJ)) (fun hk => by
          have h1 := hone hk
          rw [List.map_cons, List.count_cons_of_ne hI] at h1
          exact ⟨h1.1, fun hx => h1.2 (List.mem_cons_of_mem _ hx)⟩)
      rw [hrest]
      simp only [bind, Except.bind, hsub I List.mem_cons_self hI]

variable {V : Type} [AddCommMonoid V]

theorem foldl_sum (f : α → V) (l : List α) (v : V) : l.foldl (fun v x => v + f x) v = v + (l.map f).sum := by
  induction l generalizing v with
  | nil => simp
  | cons a l ih => rw [List.foldl_cons, ih, List.map_cons, List.sum_cons, add_assoc]

theorem assembleKind_spec (val : κ → List Nat → V) (l : List (Integral κ)) (R : Int → List (List Nat)) (v : V) :
    assembleKind val (l.zipIdx.map fun p => (0 + p.2, ⟨p.1.kernel, R p.1.id⟩)) v =
      some (v + (l.map fun I => ((R I.id).map (val I.kernel)).sum).sum) := by
  unfold assembleKind
  rw [List.length_map, List.length_zipIdx]
  have hfind : ∀ i (h : i < l.length), ((l.zipIdx.map fun p => (0 + p.2, (⟨p.1.kernel, R p.1.id⟩ : Data κ))).find? fun p => p.1 == i) =
      some (i, ⟨l[i].kernel, R l[i].id⟩) := by
    intro i h
    rw [List.find?_eq_some_iff_getElem]
    refine ⟨by simp, i, by simpa using h, by simp, fun j hj => ?_⟩
    simp only [List.getElem_map, List.getElem_zipIdx]
    have : 0 + (0 + j) ≠ i := by omega
    simp only [Bool.not_eq_true', beq_eq_false_iff_ne]
    simpa using this
  have gen : ∀ n ≤ l.length, (List.range n).foldlM (fun v i => ((l.zipIdx.map fun p => (0 + p.2, (⟨p.1.kernel, R p.1.id⟩ : Data κ))).find?
      fun p => p.1 == i).map fun p => v + assembleRows val p.2) v = some (v + ((l.take n).map fun I => ((R I.id).map (val I.kernel)).sum).sum) := by
    intro n
    induction n with
    | zero => intro _; simp
    | succ n ih =>
      intro hn
      rw [List.range_succ, List.foldlM_append, ih (by omega)]
      simp only [bind, Option.bind, List.foldlM_cons, List.foldlM_nil, hfind n (by omega), Option.map_some, pure]
      rw [List.take_add_one, List.getElem?_eq_getElem (by omega : n < l.length)]
      simp only [assembleRows, foldl_sum, Option.toList_some, List.map_append, List.map_cons, List.map_nil, List.sum_append, List.sum_cons,
        List.sum_nil, add_zero, zero_add, add_assoc]
  have := gen l.length (le_refl _)
  rw [List.take_length] at this
  exact this

/-- Sums over processes and over rows are sums over entities. -/
theorem visits_sum {m : Mesh} (S : Nat → Prop) [DecidablePred S] (Rw : Nat → Nat → List Nat → Prop) (rows : Nat → List (List Nat))
    (h : Visits m S Rw rows) (g : Nat → List Nat → V) (G : Nat → V) (hg : ∀ r < m.C.P, ∀ f row, Rw r f row → g r row = G f) :
    ((List.range m.C.P).map fun r => ((rows r).map (g r)).sum).sum = (((List.range (m.E.r0 m.C.P)).filter fun f => decide (S f)).map G).sum := by
  obtain ⟨fs, h1, h2⟩ := h
  rw [← h1]
  have hrow : ∀ r < m.C.P, ((rows r).map (g r)) = (fs r).map G := by
    intro r hr
    have := (h2 r hr).2
    have hgr := hg r hr
    generalize rows r = a at this
    generalize fs r = b at this
    induction this with
    | nil => rfl
    | cons hx _ ih => rw [List.map_cons, List.map_cons, ih, hgr _ _ hx]
  have : (List.range m.C.P).map (fun r => ((rows r).map (g r)).sum) = (List.range m.C.P).map (fun r => ((fs r).map G).sum) :=
    List.map_congr_left fun r hr => by rw [hrow r (List.mem_range.mp hr)]
  rw [this]
  generalize List.range m.C.P = l
  induction l with
  | nil => rfl
  | cons a l ih => rw [List.map_cons, List.sum_cons, ih, List.flatMap_cons, List.map_append, List.sum_append]

theorem sum_add (f g : α → V) (l : List α) : (l.map fun x => f x + g x).sum = (l.map f).sum + (l.map g).sum := by
  induction l with
  | nil => simp
  | cons a l ih =>
    simp only [List.map_cons, List.sum_cons, ih]
    rw [add_add_add_comm]

theorem sum_comm (f : α → β → V) (l : List α) (k : List β) :
    (l.map fun x => (k.map fun y => f x y).sum).sum = (k.map fun y => (l.map fun x => f x y).sum).sum := by
  induction l with
  | nil => simp
  | cons a l ih =>
    simp only [List.map_cons, List.sum_cons, ih]
    rw [sum_add]

end Verif.Integration
