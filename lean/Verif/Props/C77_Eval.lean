import Verif.Props.C76_Interpolate
/-!
# C77: evaluation at points gives the values of the function
-/
namespace Verif.Props
open Verif.Interp Verif.Spec.Interp

variable {T : Type} [CommRing T]

/-! ## Loops that add to an array -/

/-- `f` adds `d g` at place `g` of arrays of size `N`. -/
def Adds (N : Nat) (f : List T → Option (List T)) (d : Nat → T) : Prop :=
  ∀ u : List T, u.length = N → ∃ u', f u = some u' ∧ u'.length = N ∧ ∀ g < N, u'.getD g 0 = u.getD g 0 + d g

theorem adds_at {N : Nat} (i : Nat) (y : T) (hi : i < N) : Adds N (fun u => addAt u i y) (fun g => if i = g then y else 0) := by
  intro u hu
  have hl : i < u.length := by omega
  refine ⟨u.set i (u[i] + y), ?_, by rw [List.length_set, hu], ?_⟩
  · simp only [addAt]
    rw [List.getElem?_eq_getElem hl]
  · intro g hg
    have hgl : g < u.length := by omega
    by_cases h : i = g
    · subst h
      simp [hl]
    · simp [h]

theorem adds_list {N : Nat} {α : Type} (l : List α) (f : List T → α → Option (List T)) (d : α → Nat → T) (h : ∀ a ∈ l, Adds N (fun u => f u a) (d a)) :
    Adds N (fun u => l.foldlM f u) (fun g => (l.map fun a => d a g).sum) := by
  induction l with
  | nil =>
    intro u hu
    exact ⟨u, rfl, hu, fun g _ => by simp⟩
  | cons a l ih =>
    intro u hu
    obtain ⟨u1, e1, e2, e3⟩ := h a (by simp) u hu
    obtain ⟨u2, f1, f2, f3⟩ := ih (fun b hb => h b (List.mem_cons_of_mem _ hb)) u1 e2
    refine ⟨u2, ?_, f2, ?_⟩
    · simp only [List.foldlM_cons]
      have e1 : f u a = some u1 := e1
      rw [e1]
      exact f1
    · intro g hg
      rw [f3 g hg, e3 g hg]
      simp only [List.map_cons, List.sum_cons, add_assoc]

theorem adds_range {N : Nat} (n : Nat) (f : List T → Nat → Option (List T)) (d : Nat → Nat → T) (h : ∀ k < n, Adds N (fun u => f u k) (d k)) :
    Adds N (fun u => (List.range n).foldlM f u) (fun g => ∑ k ∈ Finset.range n, d k g) := by
  have := adds_list (List.range n) f d (fun k hk => h k (List.mem_range.mp hk))
  intro u hu
  obtain ⟨u', a, b, c⟩ := this u hu
  refine ⟨u', a, b, ?_⟩
  intro g hg
  rw [c g hg]
  congr 1

/-- A block of an element: the value of each component is added at its places. -/
theorem adds_block {N : Nat} (e : Elem T) (phi : Nat → Nat → T) (co : Nat → T) (k : Nat) (pos : Nat → List Nat) (hpos : ∀ j < e.rvs, ∀ g ∈ pos j, g < N) :
    Adds N (addBlock e phi co k pos) (fun g => ∑ i ∈ Finset.range e.dim, ∑ j ∈ Finset.range e.rvs, ((pos j).map fun g' => if g' = g then co (e.bs * i + k) * phi i j else 0).sum) := by
  unfold addBlock
  refine adds_range _ _ (fun i g => ∑ j ∈ Finset.range e.rvs, ((pos j).map fun g' => if g' = g then co (e.bs * i + k) * phi i j else 0).sum) ?_
  intro i _
  refine adds_range _ _ (fun j g => ((pos j).map fun g' => if g' = g then co (e.bs * i + k) * phi i j else 0).sum) ?_
  intro j hj
  refine adds_list _ _ (fun g' g => if g' = g then co (e.bs * i + k) * phi i j else 0) ?_
  intro g' hg'
  exact adds_at g' _ (hpos j hj g' hg')

/-! ## The places of a component -/

/-- A place is one of block `k` and component `j` at most once. -/
theorem places_once {e : Elem T} (he : ElemOk e) {k j : Nat} (hk : k < e.bs) (hj : j < e.rvs) : (evalPlaces e e.vs k j).Nodup ∧ ∀ m ∈ evalPlaces e e.vs k j, m < e.vs := by
  unfold evalPlaces
  cases hs : e.symmetric with
  | false =>
    simp only [Bool.false_eq_true, if_false]
    refine ⟨List.nodup_singleton _, ?_⟩
    intro m hm
    rw [List.mem_singleton.mp hm]
    exact comp_lt he hs hk hj
  | true =>
    obtain ⟨hr, ms, hvs, hb⟩ := he.sym hs
    have hj0 : j = 0 := by omega
    subst hj0
    obtain ⟨h1, h2, h3⟩ := rowOf_spec k
    have hlt := tri_lt h1 h2 hk hb
    obtain ⟨r, hr'⟩ : ∃ r, r = (rowOf k).1 := ⟨_, rfl⟩
    obtain ⟨c, hc⟩ : ∃ c, c = k - (rowOf k).2 := ⟨_, rfl⟩
    have hc2 : c ≤ r := by omega
    simp only [if_true, hvs, matrixSize_sq, Nat.zero_mul, Nat.zero_add, ← hr', ← hc]
    rw [← hr'] at hlt
    constructor
    · split
      · rename_i hne
        simp only [List.nodup_cons, List.mem_singleton, List.not_mem_nil, not_false_eq_true, List.nodup_nil, and_true]
        intro h
        have h : r * ms + c = r + ms * c := h
        have : c < r := by omega
        nlinarith
      · exact List.nodup_singleton _
    · intro m hm
      rcases List.mem_cons.mp hm with rfl | hm
      · nlinarith
      · split at hm
        · rw [List.mem_singleton.mp hm]
          nlinarith
        · cases hm

/-- Each component of the value is a place of exactly one block and component. -/
theorem places_of {e : Elem T} (he : ElemOk e) {m : Nat} (hm : m < e.vs) : ∃ k < e.bs, ∃ j < e.rvs, m ∈ evalPlaces e e.vs k j ∧
    (IsComp e k j m ∨ (e.symmetric ∧ ∃ r s ms, e.vs = ms * ms ∧ r < ms ∧ s < ms ∧ m = r * ms + s ∧ IsComp e k j (s * ms + r))) ∧
    ∀ k' < e.bs, ∀ j' < e.rvs, m ∈ evalPlaces e e.vs k' j' → k' = k ∧ j' = j := by
  cases hs : e.symmetric with
  | false =>
    have hvs := he.vs hs
    simp only [evalPlaces, IsComp, hs, Bool.false_eq_true, if_false, List.mem_singleton]
    refine ⟨m % e.bs, Nat.mod_lt _ he.bs, m / e.bs, ?_, ?_, ?_, ?_⟩
    · rw [Nat.div_lt_iff_lt_mul he.bs, mul_comm, ← hvs]
      exact hm
    · rw [mul_comm]
      exact (Nat.div_add_mod _ _).symm
    · left
      rw [mul_comm]
      exact (Nat.div_add_mod _ _).symm
    · rintro k' hk' j' hj' rfl
      rw [mul_comm j', Nat.mul_add_mod, Nat.mul_add_div he.bs, Nat.mod_eq_of_lt hk', Nat.div_eq_of_lt hk', Nat.add_zero]
      exact ⟨rfl, rfl⟩
  | true =>
    obtain ⟨hr, ms, hvs, hb⟩ := he.sym hs
    have hms : 0 < ms := Nat.pos_of_ne_zero fun h => by rw [hvs, h] at hm; simp at hm
    -- row and column of `m`
    obtain ⟨R, hR⟩ : ∃ R, R = m / ms := ⟨_, rfl⟩
    obtain ⟨C, hC⟩ : ∃ C, C = m % ms := ⟨_, rfl⟩
    have hRC : m = R * ms + C := by rw [hR, hC, mul_comm]; exact (Nat.div_add_mod _ _).symm
    have hRl : R < ms := by rw [hR, Nat.div_lt_iff_lt_mul hms, ← hvs]; exact hm
    have hCl : C < ms := by rw [hC]; exact Nat.mod_lt _ hms
    have hmem : ∀ k, k < e.bs → (m ∈ evalPlaces e e.vs k 0 ↔ ((rowOf k).1 = R ∧ k - (rowOf k).2 = C) ∨ ((rowOf k).1 = C ∧ k - (rowOf k).2 = R)) := by
      intro k hk
      obtain ⟨h1, h2, h3⟩ := rowOf_spec k
      have hlt := tri_lt h1 h2 hk hb
      obtain ⟨r, hr'⟩ : ∃ r, r = (rowOf k).1 := ⟨_, rfl⟩
      obtain ⟨c, hc⟩ : ∃ c, c = k - (rowOf k).2 := ⟨_, rfl⟩
      have hc2 : c ≤ r := by omega
      rw [← hr'] at hlt
      have hdm : ∀ a b, a < ms → b < ms → (R * ms + C = a * ms + b ↔ a = R ∧ b = C) := by
        intro a b ha hb'
        constructor
        · intro h
          have h1 : (R * ms + C) / ms = R := by rw [mul_comm, Nat.mul_add_div hms, Nat.div_eq_of_lt hCl, Nat.add_zero]
          have h2 : (a * ms + b) / ms = a := by rw [mul_comm, Nat.mul_add_div hms, Nat.div_eq_of_lt hb', Nat.add_zero]
          rw [h, h2] at h1
          subst h1
          exact ⟨rfl, by omega⟩
        · rintro ⟨rfl, rfl⟩
          rfl
      simp only [evalPlaces, hs, if_true, hvs, matrixSize_sq, Nat.zero_mul, Nat.zero_add, ← hr', ← hc, List.mem_cons, hRC]
      rw [hdm r c hlt (by omega)]
      by_cases hcr : c = r
      · rw [if_neg (by simp [hcr])]
        subst hcr
        simp only [List.not_mem_nil, or_false]
        constructor
        · exact Or.inl
        · rintro (h | ⟨h, h'⟩)
          · exact h
          · exact ⟨h', h⟩
      · rw [if_pos hcr, List.mem_singleton, show r + ms * c = c * ms + r by ring, hdm c r (by omega) hlt]
        tauto
    -- rows and columns of the lower triangle have a number
    have hnum : ∀ r c, c ≤ r → r < ms → ∃ k < e.bs, (rowOf k).1 = r ∧ k - (rowOf k).2 = c ∧ 2 * k = r * (r + 1) + 2 * c := by
      intro r c hc hr'
      obtain ⟨t, ht⟩ : ∃ t, r * (r + 1) = 2 * t := (Nat.even_mul_succ_self r).two_dvd
      refine ⟨t + c, ?_, ?_⟩
      · have : (r + 1) * (r + 2) ≤ ms * (ms + 1) := Nat.mul_le_mul (by omega) (by omega)
        nlinarith
      · obtain ⟨h1, h2, h3⟩ := rowOf_spec (t + c)
        have hrr : (rowOf (t + c)).1 = r := by
          rcases Nat.lt_trichotomy (rowOf (t + c)).1 r with h | h | h
          · have : ((rowOf (t + c)).1 + 1) * ((rowOf (t + c)).1 + 2) ≤ r * (r + 1) := Nat.mul_le_mul (by omega) (by omega)
            nlinarith
          · exact h
          · have : (r + 1) * (r + 2) ≤ (rowOf (t + c)).1 * ((rowOf (t + c)).1 + 1) := Nat.mul_le_mul (by omega) (by omega)
            nlinarith
        rw [hrr] at h1
        exact ⟨hrr, by omega, by omega⟩
    have huniq : ∀ k k', (rowOf k).1 = (rowOf k').1 → k - (rowOf k).2 = k' - (rowOf k').2 → k = k' := by
      intro k k' h h'
      obtain ⟨a1, a2, _⟩ := rowOf_spec k
      obtain ⟨b1, b2, _⟩ := rowOf_spec k'
      rw [h, ← b1] at a1
      omega
    rcases Nat.le_total C R with hle | hle
    · obtain ⟨k, hk, k1, k2, k3⟩ := hnum R C hle hRl
      refine ⟨k, hk, 0, by omega, (hmem k hk).mpr (Or.inl ⟨k1, k2⟩), Or.inl ?_, ?_⟩
      · simp only [IsComp, hs, if_true]
        exact ⟨R, C, ms, hle, hRl, hvs, k3, trivial, hRC⟩
      · intro k' hk' j' hj' hm'
        have hj0 : j' = 0 := by omega
        subst hj0
        refine ⟨?_, rfl⟩
        obtain ⟨b1, b2, b3⟩ := rowOf_spec k'
        rcases (hmem k' hk').mp hm' with ⟨q1, q2⟩ | ⟨q1, q2⟩
        · exact huniq _ _ (q1.trans k1.symm) (q2.trans k2.symm)
        · have : C = R := by omega
          exact huniq _ _ (by omega) (by omega)
    · obtain ⟨k, hk, k1, k2, k3⟩ := hnum C R hle hCl
      refine ⟨k, hk, 0, by omega, (hmem k hk).mpr (Or.inr ⟨k1, k2⟩), Or.inr ⟨rfl, R, C, ms, hvs, hRl, hCl, hRC, ?_⟩, ?_⟩
      · simp only [IsComp, hs, if_true]
        exact ⟨C, R, ms, hle, hCl, hvs, k3, trivial, rfl⟩
      · intro k' hk' j' hj' hm'
        have hj0 : j' = 0 := by omega
        subst hj0
        refine ⟨?_, rfl⟩
        obtain ⟨b1, b2, b3⟩ := rowOf_spec k'
        rcases (hmem k' hk').mp hm' with ⟨q1, q2⟩ | ⟨q1, q2⟩
        · have : C = R := by omega
          exact huniq _ _ (by omega) (by omega)
        · exact huniq _ _ (q1.trans k1.symm) (q2.trans k2.symm)

theorem sum_once (l : List Nat) (hl : l.Nodup) (g : Nat) (y : T) : (l.map fun g' => if g' = g then y else 0).sum = if g ∈ l then y else 0 := by
  induction l with
  | nil => simp
  | cons a l ih =>
    rw [List.nodup_cons] at hl
    rw [List.map_cons, List.sum_cons, ih hl.2]
    by_cases h : a = g
    · subst h
      simp [hl.1]
    · have : g ∈ a :: l ↔ g ∈ l := by simp [Ne.symm h]
      simp [h, this]

/-- All blocks of one point. -/
theorem adds_point {e : Elem T} (he : ElemOk e) {N n : Nat} (hN : n * e.vs + e.vs ≤ N) (phi : Nat → Nat → T) (co : Nat → T) :
    ∃ d, Adds N (fun u => (List.range e.bs).foldlM (fun u k => addBlock e phi co k (fun j => (evalPlaces e e.vs k j).map (n * e.vs + ·)) u) u) d ∧
      (∀ m < e.vs, ∃ k < e.bs, ∃ j < e.rvs,
        (IsComp e k j m ∨ (e.symmetric ∧ ∃ r s ms, e.vs = ms * ms ∧ r < ms ∧ s < ms ∧ m = r * ms + s ∧ IsComp e k j (s * ms + r))) ∧
        d (n * e.vs + m) = ∑ i ∈ Finset.range e.dim, co (e.bs * i + k) * phi i j) ∧
      ∀ g, (∀ m < e.vs, g ≠ n * e.vs + m) → d g = 0 := by
  have hmap : ∀ k j, k < e.bs → j < e.rvs → ∀ g (y : T), (((evalPlaces e e.vs k j).map (n * e.vs + ·)).map fun g' => if g' = g then y else 0).sum =
      if g ∈ (evalPlaces e e.vs k j).map (n * e.vs + ·) then y else 0 := by
    intro k j hk hj g y
    refine sum_once _ ?_ g y
    refine List.Nodup.map ?_ (places_once he hk hj).1
    intro a b hab
    have hab : n * e.vs + a = n * e.vs + b := hab
    omega
  refine ⟨fun g => ∑ k ∈ Finset.range e.bs, ∑ i ∈ Finset.range e.dim, ∑ j ∈ Finset.range e.rvs,
    (((evalPlaces e e.vs k j).map (n * e.vs + ·)).map fun g' => if g' = g then co (e.bs * i + k) * phi i j else 0).sum, ?_, ?_, ?_⟩
  · refine adds_range _ _ (fun k g => ∑ i ∈ Finset.range e.dim, ∑ j ∈ Finset.range e.rvs,
      (((evalPlaces e e.vs k j).map (n * e.vs + ·)).map fun g' => if g' = g then co (e.bs * i + k) * phi i j else 0).sum) ?_
    intro k hk
    refine adds_block e phi co k _ ?_
    intro j hj g hg
    obtain ⟨m, hm, rfl⟩ := List.mem_map.mp hg
    have := (places_once he hk hj).2 m hm
    omega
  · intro m hm
    obtain ⟨k, hk, j, hj, h1, h2, h3⟩ := places_of he hm
    refine ⟨k, hk, j, hj, h2, ?_⟩
    have hin : ∀ k' j', n * e.vs + m ∈ (evalPlaces e e.vs k' j').map (n * e.vs + ·) ↔ m ∈ evalPlaces e e.vs k' j' := by
      intro k' j'
      rw [List.mem_map]
      constructor
      · rintro ⟨a, ha, e'⟩
        have : a = m := by have e' : n * e.vs + a = n * e.vs + m := e'; omega
        rwa [← this]
      · exact fun h => ⟨m, h, rfl⟩
    simp only
    rw [Finset.sum_eq_single k]
    · refine Finset.sum_congr rfl fun i _ => ?_
      rw [Finset.sum_eq_single j]
      · rw [hmap k j hk hj, if_pos ((hin k j).mpr h1)]
      · intro j' hj' hne
        rw [hmap k j' hk (Finset.mem_range.mp hj'), if_neg]
        intro h
        exact hne (h3 k hk j' (Finset.mem_range.mp hj') ((hin _ _).mp h)).2
      · intro h
        exact absurd (Finset.mem_range.mpr hj) h
    · intro k' hk' hne
      refine Finset.sum_eq_zero fun i _ => Finset.sum_eq_zero fun j' hj' => ?_
      rw [hmap k' j' (Finset.mem_range.mp hk') (Finset.mem_range.mp hj'), if_neg]
      intro h
      exact hne (h3 k' (Finset.mem_range.mp hk') j' (Finset.mem_range.mp hj') ((hin _ _).mp h)).1
    · intro h
      exact absurd (Finset.mem_range.mpr hk) h
  · intro g hg
    refine Finset.sum_eq_zero fun k hk => Finset.sum_eq_zero fun i _ => Finset.sum_eq_zero fun j hj => ?_
    rw [hmap k j (Finset.mem_range.mp hk) (Finset.mem_range.mp hj), if_neg]
    intro h
    obtain ⟨m, hm, rfl⟩ := List.mem_map.mp h
    exact hg m ((places_once he (Finset.mem_range.mp hk) (Finset.mem_range.mp hj)).2 m hm) rfl

/-! ## Evaluation -/

/-- Values at points with cells: component `m` at point `n` is that of the expansion with the coefficients of its cell, and zero for points without a cell. -/
theorem C77_eval {e : Elem T} (he : ElemOk e) {dm : DMap} {x u : List T} {cells : List Int} (phi : Nat → Nat → Nat → T) (hne : cells ≠ [])
    (hd : ∀ c ∈ cells, 0 ≤ c → DofsOk dm (e.bs * e.dim) x.length c.toNat) (hu : u.length = cells.length * e.vs) :
    ∃ u', eval e dm x cells.length cells phi u cells.length e.vs = some u' ∧ u'.length = u.length ∧
      ∀ (n : Nat) (c : Int) (m : Nat), cells[n]? = some c → m < e.vs → ∃ y, u'[n * e.vs + m]? = some y ∧
        (c < 0 → y = 0) ∧ (0 ≤ c → IsValue e dm x c.toNat (phi n) m y) := by
  unfold eval
  rw [if_neg (by simpa using hne), if_neg (by simp [hu]), if_neg (by simp), if_neg (by simp), if_neg (by rcases he.notMixed with h | h <;> omega)]
  -- the loop over points with a given array
  have loop : ∀ (L : List Int) (k : Nat) (u : List T), (∀ n, L[n]? = cells[k + n]?) → u.length = cells.length * e.vs →
      ∃ u', (L.zipIdx k).foldlM (fun u (c : Int × Nat) =>
          if c.1 < 0 then some u
          else (dm.dofs[c.1.toNat]?).bind fun dofs => (readCell dm dofs x).bind fun l =>
            if l.length ≠ e.bs * e.dim then none
            else (List.range e.bs).foldlM (fun u k => addBlock e (phi c.2) (fun q => l.getD q 0) k (fun j => (evalPlaces e e.vs k j).map (c.2 * e.vs + ·)) u) u) u = some u' ∧
        u'.length = cells.length * e.vs ∧ (∀ g < k * e.vs, u'.getD g 0 = u.getD g 0) ∧
        ∀ (n : Nat) (c : Int) (m : Nat), k ≤ n → cells[n]? = some c → m < e.vs → (c < 0 → u'.getD (n * e.vs + m) 0 = u.getD (n * e.vs + m) 0) ∧
          (0 ≤ c → ∃ y, IsValue e dm x c.toNat (phi n) m y ∧ u'.getD (n * e.vs + m) 0 = u.getD (n * e.vs + m) 0 + y) := by
    intro L
    induction L with
    | nil =>
      intro k u hL hu
      refine ⟨u, rfl, hu, fun _ _ => rfl, ?_⟩
      intro n c m hk hc
      have := hL (n - k)
      rw [show k + (n - k) = n by omega, hc] at this
      simp at this
    | cons a L ih =>
      intro k u hL hu
      have ha : cells[k]? = some a := by simpa using (hL 0).symm
      have hkl : k < cells.length := (List.getElem?_eq_some_iff.mp ha).1
      have hL' : ∀ n, L[n]? = cells[k + 1 + n]? := by
        intro n
        have := hL (n + 1)
        rw [show k + 1 + n = k + (n + 1) by omega, ← this]
        simp
      have hN : k * e.vs + e.vs ≤ cells.length * e.vs := by nlinarith
      rw [List.zipIdx_cons, List.foldlM_cons]
      by_cases hneg : a < 0
      · rw [if_pos hneg]
        obtain ⟨u', e1, e2, e3, e4⟩ := ih (k + 1) u hL' hu
        refine ⟨u', e1, e2, fun g hg => e3 g (by nlinarith), ?_⟩
        intro n c m hk hc hm
        rcases Nat.eq_or_lt_of_le hk with rfl | hk
        · rw [ha] at hc
          cases hc
          exact ⟨fun _ => e3 _ (by nlinarith), fun h => by omega⟩
        · exact e4 n c m hk hc hm
      · rw [if_neg hneg]
        have hdc := hd a (List.mem_of_getElem? ha) (by omega)
        obtain ⟨_, ds, hds, _⟩ := id hdc
        obtain ⟨l, l1, l2, l3⟩ := readCell_ok hdc hds x rfl
        simp only [hds, l1, Option.bind_some]
        rw [if_neg (by simp [l2])]
        obtain ⟨d, d1, d2, d3⟩ := adds_point he hN (phi k) (fun q => l.getD q 0)
        obtain ⟨u1, f1, f2, f3⟩ := d1 u hu
        obtain ⟨u', e1, e2, e3, e4⟩ := ih (k + 1) u1 hL' f2
        have f1 : (List.range e.bs).foldlM (fun u k' => addBlock e (phi k) (fun q => l.getD q 0) k' (fun j => (evalPlaces e e.vs k' j).map (k * e.vs + ·)) u) u = some u1 := f1
        rw [f1]
        refine ⟨u', e1, e2, ?_, ?_⟩
        · intro g hg
          rw [e3 g (by nlinarith), f3 g (by omega), d3 g (fun m hm => by omega), add_zero]
        · intro n c m hk hc hm
          have hnl : n < cells.length := (List.getElem?_eq_some_iff.mp hc).1
          rcases Nat.eq_or_lt_of_le hk with rfl | hk
          · rw [ha] at hc
            cases hc
            refine ⟨fun h => absurd h hneg, fun _ => ?_⟩
            obtain ⟨b, hb, j, hj, h1, h2⟩ := d2 m hm
            refine ⟨_, ?_, by rw [e3 _ (by nlinarith), f3 _ (by omega)]⟩
            refine ⟨b, hb, j, hj, h1, fun i => l.getD (e.bs * i + b) 0, ?_, h2⟩
            intro i hi
            obtain ⟨g, hg⟩ := (flat_some hdc).mp (show e.bs * i + b < e.bs * e.dim by nlinarith)
            refine ⟨g, hg, ?_⟩
            have hlt := (l3 _ _ hg).2
            simp only
            rw [(l3 _ _ hg).1, List.getD_eq_getElem?_getD, List.getElem?_eq_getElem (by omega), Option.getD_some]
          · obtain ⟨q1, q2⟩ := e4 n c m hk hc hm
            have hsame : u1.getD (n * e.vs + m) 0 = u.getD (n * e.vs + m) 0 := by
              have h1 : n * e.vs + m < cells.length * e.vs := by nlinarith
              rw [f3 _ h1, d3 _ ?_, add_zero]
              intro m' hm' h
              have : (k + 1) * e.vs ≤ n * e.vs := Nat.mul_le_mul_right _ hk
              nlinarith
            rw [hsame] at q1 q2
            exact ⟨q1, q2⟩
  obtain ⟨u', e1, e2, _, e4⟩ := loop cells 0 (List.replicate u.length 0) (by simp) (by simp [hu])
  refine ⟨u', e1, by rw [e2, hu], ?_⟩
  intro n c m hc hm
  have hnl : n < cells.length := (List.getElem?_eq_some_iff.mp hc).1
  have hlt : n * e.vs + m < u'.length := by rw [e2]; nlinarith
  have hget : u'.getD (n * e.vs + m) 0 = u'[n * e.vs + m] := by simp [hlt]
  have hz : (List.replicate u.length (0 : T)).getD (n * e.vs + m) 0 = 0 := by simp [List.getD_eq_getElem?_getD, List.getElem?_replicate]; split <;> rfl
  obtain ⟨q1, q2⟩ := e4 n c m (by omega) hc hm
  rw [hz, hget] at q1 q2
  refine ⟨u'[n * e.vs + m], List.getElem?_eq_getElem hlt, q1, ?_⟩
  intro h
  obtain ⟨y, y1, y2⟩ := q2 h
  rw [zero_add] at y2
  rwa [y2]

/-- Interpolation into an element of point evaluations, followed by evaluation at an interpolation point of one of the cells, gives the value that was interpolated, if the values of
cells agree on common dofs (and are symmetric for symmetric matrices), and the basis functions are dual to the dofs. -/
theorem C77_interpolated {e : Elem T} (he : ElemOk e) {dm : DMap} {cells : List Nat} {f u : List T} (hd : ∀ c ∈ cells, DofsOk dm (e.bs * e.dim) u.length c)
    (hf : f.length = e.vs * (cells.length * e.npts)) (hm : e.mapType = 0) (hi : e.interpIdent = true) (F : Nat → T)
    (hF : ∀ (n c j g : Nat) (y : T), cells[n]? = some c → flat dm c j = some g →
      IsDof e c c (fun p m y => f[m * (cells.length * e.npts) + n * e.npts + p]? = some y) j y → y = F g)
    (hsym : e.symmetric = true → ∀ r s ms q, e.vs = ms * ms → r < ms → s < ms → f[(r * ms + s) * (cells.length * e.npts) + q]? = f[(s * ms + r) * (cells.length * e.npts) + q]?)
    (phi : Nat → Nat → Nat → Nat → T) (hphi : ∀ c ∈ cells, ∀ p < e.npts, ∀ w : Nat → T, ∑ i ∈ Finset.range e.dim, e.invTransT c w i * phi c p i 0 = w p) :
    ∃ u', interpolateData e dm cells f e.vs (cells.length * e.npts) u = some u' ∧
      ∀ (n c p m : Nat) (y : T), cells[n]? = some c → p < e.npts → m < e.vs → IsValue e dm u' c (phi c p) m y →
        f[m * (cells.length * e.npts) + n * e.npts + p]? = some y := by
  obtain ⟨u', r1, r2⟩ := C76_data_partial he hd hf (fun h => absurd hm h) (fun _ => ⟨hm, hi⟩)
  refine ⟨u', r1, ?_⟩
  have hconf := C76_conforming r2 F hF
  obtain ⟨hn, hr, hPi⟩ := he.point hi
  rintro n c p m y hc hp hmv ⟨k, hk, j, hj, hcomp, co, hco, rfl⟩
  have hj0 : j = 0 := by omega
  subst hj0
  have hcm := List.mem_of_getElem? hc
  have hnl : n < cells.length := (List.getElem?_eq_some_iff.mp hc).1
  have hcompLt : ∀ m0, IsComp e k 0 m0 → m0 < e.vs := by
    intro m0 h
    cases hs : e.symmetric with
    | false =>
      simp only [IsComp, hs, Bool.false_eq_true, if_false] at h
      rw [h]
      exact comp_lt he hs hk (by omega)
    | true =>
      simp only [IsComp, hs, if_true] at h
      obtain ⟨r, s, ms, a1, a2, a3, _, _, a6⟩ := h
      rw [a6, a3]
      nlinarith
  obtain ⟨m0, h0, hfm⟩ : ∃ m0, IsComp e k 0 m0 ∧ f[m * (cells.length * e.npts) + n * e.npts + p]? = f[m0 * (cells.length * e.npts) + n * e.npts + p]? := by
    rcases hcomp with h | ⟨hs, r, s, ms, a1, a2, a3, a4, h⟩
    · exact ⟨m, h, rfl⟩
    · refine ⟨_, h, ?_⟩
      rw [a4, add_assoc, add_assoc]
      exact hsym hs r s ms _ a1 a2 a3
  obtain ⟨w, hw⟩ : ∃ w : Nat → T, w = fun p' => f.getD (m0 * (cells.length * e.npts) + n * e.npts + p') 0 := ⟨_, rfl⟩
  have hfw : ∀ p' < e.npts, f[m0 * (cells.length * e.npts) + n * e.npts + p']? = some (w p') := by
    intro p' hp'
    have := entry_lt (hcompLt m0 h0) hnl hp'
    rw [← hf] at this
    simp [hw, this]
  have hcoeq : ∀ i < e.dim, co i = e.invTransT c w i := by
    intro i hi'
    obtain ⟨g, g1, g2⟩ := hco i hi'
    have hF' := hF n c (e.bs * i + k) g (dofOf e c c (fun p _ => w p) i) hc g1 ⟨fun p _ => w p, ?_, ?_⟩
    · rw [hconf c (e.bs * i + k) g hcm g1] at g2
      have := Option.some.inj g2
      rw [← this, ← hF', dofOf]
      refine he.transLocal _ _ _ ?_ _ hi'
      intro i' hi''
      rw [hr, Finset.sum_range_one, Finset.sum_eq_single i']
      · rw [he.ident hm, Nat.zero_mul, Nat.zero_add, hPi i' hi'' i' hi'', if_pos rfl, one_mul]
      · intro p hp hne
        have hp := Finset.mem_range.mp hp
        rw [Nat.zero_mul, Nat.zero_add, hPi i' hi'' p (by omega), if_neg (Ne.symm hne), zero_mul]
      · intro h
        exact absurd (Finset.mem_range.mpr (by omega)) h
    · intro p' hp' m' hm'
      have hm0 : m' = 0 := by omega
      subst hm0
      rw [Nat.mul_add_mod, Nat.mod_eq_of_lt hk]
      exact ⟨m0, h0, hfw p' hp'⟩
    · rw [Nat.mul_add_div he.bs, Nat.div_eq_of_lt hk, Nat.add_zero]
  rw [hfm, hfw p hp, ← hphi c hcm p hp w]
  congr 1
  refine Finset.sum_congr rfl fun i hi' => ?_
  rw [hcoeq i (Finset.mem_range.mp hi')]

/-- Numbers of points, cells and rows that differ are refused. -/
theorem C77_eval_refuses (e : Elem T) (dm : DMap) (x u : List T) (npoints : Nat) (cells : List Int) (phi : Nat → Nat → Nat → T) (us0 us1 : Nat) (hne : cells ≠ [])
    (h : npoints ≠ cells.length ∨ npoints ≠ us0) : eval e dm x npoints cells phi u us0 us1 = none := by
  unfold eval
  rw [if_neg (by simpa using hne)]
  split
  · rfl
  · split
    · rfl
    · rw [if_pos (by tauto)]

/-- Without cells the array is returned as it was given (the Python interface allocates it without initial values), for any number of points. -/
theorem C77_refuted_no_cells (e : Elem T) (dm : DMap) (x u : List T) (npoints : Nat) (phi : Nat → Nat → Nat → T) (us0 us1 : Nat) :
    eval e dm x npoints [] phi u us0 us1 = some u := by
  simp [eval]

/-! ## Examples -/

open C76ex

/-- The symmetric matrix (1, 2, 4) and a point without a cell. -/
example : eval sym0 ⟨3, [[1], [0]]⟩ [7, 8, 9, 1, 2, 4] 3 [0, -1, 1] (fun _ _ _ => 1) (List.replicate 12 5) 3 4 = some [1, 2, 2, 4, 0, 0, 0, 0, 7, 8, 8, (9 : Int)] := by decide
example : ∃ u', eval sym0 ⟨3, [[1], [0]]⟩ [7, 8, 9, 1, 2, 4] 3 [0, -1, 1] (fun _ _ _ => 1) (List.replicate 12 5) 3 4 = some u' ∧ u'.length = 12 ∧
    ∀ (n : Nat) (c : Int) (m : Nat), [0, -1, (1 : Int)][n]? = some c → m < 4 → ∃ y, u'[n * 4 + m]? = some y ∧ (c < 0 → y = 0) ∧
      (0 ≤ c → IsValue sym0 ⟨3, [[1], [0]]⟩ [7, 8, 9, 1, 2, 4] c.toNat (fun _ _ => 1) m y) :=
  C77_eval sym0_ok (dm := ⟨3, [[1], [0]]⟩) (cells := [0, -1, 1]) (fun _ _ _ => 1) (by decide) (by
    intro c hc h0
    refine ⟨by decide, ?_⟩
    simp only [List.mem_cons, List.not_mem_nil, or_false] at hc
    rcases hc with rfl | rfl | rfl
    · exact ⟨_, rfl, by decide, by decide, by decide⟩
    · omega
    · exact ⟨_, rfl, by decide, by decide, by decide⟩) rfl
example : eval p1v dm2 [0, 10, 1, 11, 2, 12, 3, 13] 2 [1, 0] (fun n i _ => if n = 0 then (if i = 0 then 1 else 0) else if i = 2 then 1 else 0) (List.replicate 4 5) 2 2 =
    some [3, 13, 2, (12 : Int)] := by decide

/-- The values of two triangles agree on their common vertices. -/
example : ∃ u', interpolateData p1v dm2 [1, 0] vals 2 6 (List.replicate 8 0) = some u' ∧
    ∀ (n c p m : Nat) (y : Int), [1, 0][n]? = some c → p < 3 → m < 2 → IsValue p1v dm2 u' c (hat p) m y → vals[m * 6 + n * 3 + p]? = some y := by
  refine C77_interpolated p1v_ok (dm := dm2) (cells := [1, 0]) (f := vals) (u := List.replicate 8 0) dm2_ok rfl rfl rfl (fun g => [0, 10, 1, 11, 2, 12, 3, 13].getD g 0) ?_ (fun h => absurd h (by decide))
    (fun _ p i j => hat p i j) ?_
  · rintro n c j g y hc hg ⟨w, h1, h2⟩
    have hj : j < 6 := (flat_some (dm2_ok c (List.mem_of_getElem? hc))).mpr ⟨g, hg⟩
    have hw : ∀ p < 3, vals[j % 2 * 6 + n * 3 + p]? = some (w p 0) := by
      intro p hp
      obtain ⟨m, q1, q2⟩ := h1 p hp 0 (by decide)
      have : m = 0 * 2 + j % 2 := q1
      rw [Nat.zero_mul, Nat.zero_add] at this
      subst this
      exact q2
    have hy : y = w (j / 2) 0 := by
      rw [h2]
      show ∑ m ∈ Finset.range 1, ∑ p ∈ Finset.range 3, (if j / 2 = m * 3 + p then (1 : Int) else 0) * w p m = _
      have : j / 2 < 3 := by omega
      simp [this]
    have hwj := hw (j / 2) (by omega)
    rw [← hy] at hwj
    have hn : n < 2 := by have := (List.getElem?_eq_some_iff.mp hc).1; simpa using this
    interval_cases n <;> cases hc <;> interval_cases j <;> cases hg <;> (cases hwj; rfl)
  · intro c _ p hp w
    have hp : p < 3 := hp
    show ∑ i ∈ Finset.range 3, w i * (if p = i then (1 : Int) else 0) = w p
    simp [hp]

end Verif.Props
