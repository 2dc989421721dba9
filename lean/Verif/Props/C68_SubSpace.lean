import Verif.Lemmas.SubSpace
/-!
# C68: degrees of freedom of sub-spaces
-/
namespace Verif.Props
open Verif.SubSpace

/-- C68: `V.sub(i).sub(j)…` has on every cell the degrees of freedom of the sub-element, in the order of the
sub-element, and it is a view: they are degrees of freedom of `V`. -/
theorem C68_view {sh : List Nat} {e : Elem} (he : e.Ok sh) {D : DofMap} {nc : Nat} (h : D.IsFor e nc) (path : List Nat) {o s : Nat}
    {e' : Elem} (hp : part e path = some (o, s, e')) :
    ∃ V, D.sub path = some V ∧ V.IsFor e' nc ∧ V.imbs = D.imbs ∧ (path ≠ [] → V.bs = 1) ∧
      ∀ c, c < nc → ∀ j, j < e'.dim → o + s * j < e.dim ∧ ∃ x, V.dof c j = some x ∧ D.dof c (o + s * j) = some x := by
  induction path generalizing e D o s e' with
  | nil =>
    simp only [part, Option.some.injEq, Prod.mk.injEq] at hp
    obtain ⟨rfl, rfl, rfl⟩ := hp
    refine ⟨D, rfl, h, rfl, fun hc => absurd rfl hc, ?_⟩
    intro c hc j hj
    rw [Nat.zero_add, Nat.one_mul]
    obtain ⟨x, hx⟩ := dof_some he h hc hj
    exact ⟨hj, x, hx, hx⟩
  | cons i path ih =>
    rw [part] at hp
    simp only [Option.bind_eq_bind, Option.bind_eq_some_iff] at hp
    obtain ⟨⟨o1, s1, e1⟩, h1, ⟨o2, s2, e2⟩, h2, h3⟩ := hp
    simp only [Option.some.injEq, Prod.mk.injEq] at h3
    obtain ⟨rfl, rfl, rfl⟩ := h3
    obtain ⟨D1, a1, a2, a3, a4, a5⟩ := extract_single he h h1
    obtain ⟨V, b1, b2, b3, b4, b5⟩ := ih (part1_ok he h1) a2 h2
    refine ⟨V, ?_, b2, by rw [b3, a4], fun _ => ?_, ?_⟩
    · unfold DofMap.sub at b1 ⊢
      rw [List.foldlM_cons, a1]
      exact b1
    · by_cases hn : path = []
      · subst hn
        cases b1
        exact a3
      · exact b4 hn
    · intro c hc j hj
      obtain ⟨c1, x, c2, c3⟩ := b5 c hc j hj
      rw [a5 c hc _ c1] at c3
      have hl := part1_lt h1 c1
      rw [show o1 + s1 * o2 + s1 * s2 * j = o1 + s1 * (o2 + s2 * j) by ring]
      exact ⟨hl, x, c2, c3⟩

/-- C68: a sub-space that does not exist is an error. -/
theorem C68_invalid {sh : List Nat} {e : Elem} (he : e.Ok sh) {D : DofMap} {nc : Nat} (h : D.IsFor e nc) (path : List Nat)
    (hp : part e path = none) : D.sub path = none := by
  induction path generalizing e D with
  | nil => cases hp
  | cons i path ih =>
    rw [part] at hp
    unfold DofMap.sub
    rw [List.foldlM_cons]
    cases h1 : part1 e i with
    | none => rw [extract_none h h1]; rfl
    | some p =>
      obtain ⟨o1, s1, e1⟩ := p
      rw [h1] at hp
      obtain ⟨D1, a1, a2, a3, a4, a5⟩ := extract_single he h h1
      rw [a1]
      refine ih (part1_ok he h1) a2 ?_
      cases h2 : part e1 path with
      | none => rfl
      | some q =>
        simp only [Option.bind_eq_bind, Option.bind_some, h2] at hp
        cases hp

/-- Positions of the dofs of all sub-elements. -/
theorem parts_perm {sh : List Nat} {e : Elem} (he : e.Ok sh) (hn : 0 < e.numSubs) :
    ((List.range e.numSubs).flatMap fun i => match part1 e i with
      | none => []
      | some p => (List.range p.2.2.dim).map fun j => p.1 + p.2.1 * j).Perm (List.range e.dim) := by
  cases e with
  | base b => simp [Elem.numSubs] at hn
  | blocked bs b =>
    have hbs : 0 < bs := hn
    have heq : ((List.range (Elem.blocked bs b).numSubs).flatMap fun i => match part1 (.blocked bs b) i with
        | none => []
        | some p => (List.range p.2.2.dim).map fun j => p.1 + p.2.1 * j) =
        (List.range bs).flatMap fun i => (List.range b.dim).map fun j => i + bs * j := by
      simp only [Elem.numSubs]
      apply List.flatMap_congr
      intro i hi
      simp [part1, List.mem_range.mp hi, Elem.dim]
    rw [heq]
    apply (List.perm_ext_iff_of_nodup ?_ List.nodup_range).mpr
    · intro x
      simp only [List.mem_flatMap, List.mem_range, List.mem_map, Elem.dim]
      constructor
      · rintro ⟨i, hi, j, hj, rfl⟩
        have := Nat.mul_le_mul_left bs hj
        rw [Nat.mul_succ] at this
        omega
      · intro hx
        exact ⟨x % bs, Nat.mod_lt _ hbs, x / bs, Nat.div_lt_of_lt_mul hx, Nat.mod_add_div x bs⟩
    · rw [List.nodup_flatMap]
      refine ⟨fun i _ => ?_, ?_⟩
      · refine List.Nodup.map ?_ List.nodup_range
        intro a c hac
        exact Nat.eq_of_mul_eq_mul_left hbs (Nat.add_left_cancel hac)
      · refine (List.nodup_range (n := bs)).imp_of_mem ?_
        intro i k hi hk hik x hx1 hx2
        obtain ⟨j, _, rfl⟩ := List.mem_map.mp hx1
        obtain ⟨j', _, hj'⟩ := List.mem_map.mp hx2
        apply hik
        have h1 : (i + bs * j) % bs = i := by rw [Nat.add_mul_mod_self_left, Nat.mod_eq_of_lt (List.mem_range.mp hi)]
        have h2 : (k + bs * j') % bs = k := by rw [Nat.add_mul_mod_self_left, Nat.mod_eq_of_lt (List.mem_range.mp hk)]
        rw [← h1, ← h2, hj']
  | mixed es =>
    have key : ∀ es : List Elem, ∀ o, ((List.range es.length).flatMap fun i => match es[i]? with
        | none => []
        | some e => (List.range e.dim).map fun j => o + ((es.take i).map Elem.dim).sum + j) =
        (List.range (es.map Elem.dim).sum).map fun j => o + j := by
      intro es
      induction es with
      | nil => intro o; rfl
      | cons a es ih =>
        intro o
        rw [List.length_cons, List.range_succ_eq_map, List.flatMap_cons, List.flatMap_map]
        simp only [List.getElem?_cons_succ, List.take_succ_cons, List.map_cons, List.sum_cons, List.getElem?_cons_zero,
          List.take_zero, List.map_nil, List.sum_nil, Nat.add_zero]
        simp only [← Nat.add_assoc]
        rw [ih (o + a.dim), List.range_add, List.map_append, List.map_map]
        simp only [Function.comp_def, Nat.add_assoc]
    have := key es 0
    simp only [Nat.zero_add, List.map_id'] at this
    refine List.Perm.of_eq (Eq.trans ?_ (this.trans ?_))
    · simp only [Elem.numSubs]
      apply List.flatMap_congr
      intro i _
      simp only [part1]
      cases es[i]? <;> simp
    · rw [Elem.dim, dims_eq]

/-- C68: the sub-spaces of a space share out its degrees of freedom: on every cell each belongs to exactly one of
them. -/
theorem C68_partition {sh : List Nat} {e : Elem} (he : e.Ok sh) (hn : 0 < e.numSubs) {D : DofMap} {nc : Nat} (h : D.IsFor e nc) :
    ∃ V : Nat → DofMap, (∀ i, i < e.numSubs → D.extractSub [i] = some (V i)) ∧
      ∀ c, c < nc → ((List.range e.numSubs).flatMap fun i => (V i).cellDofs c).Perm ((List.range e.dim).filterMap (D.dof c)) := by
  have hpart : ∀ i, i < e.numSubs → ∃ p, part1 e i = some p := by
    intro i hi
    cases hp : part1 e i with
    | none => have := (part1_none e i).mp hp; omega
    | some p => exact ⟨p, rfl⟩
  refine ⟨fun i => (D.extractSub [i]).getD ⟨.mk 0 [] [] [], 0, [], 0⟩, ?_, ?_⟩
  · intro i hi
    obtain ⟨⟨o, s, e'⟩, hp⟩ := hpart i hi
    obtain ⟨V, h1, _⟩ := extract_single he h hp
    simp only [h1, Option.getD_some]
  · intro c hc
    refine List.Perm.trans (List.Perm.of_eq ?_) ((parts_perm he hn).filterMap (D.dof c))
    rw [List.filterMap_flatMap]
    apply List.flatMap_congr
    intro i hi
    obtain ⟨⟨o, s, e'⟩, hp⟩ := hpart i (List.mem_range.mp hi)
    obtain ⟨V, h1, h2, h3, _, h5⟩ := extract_single he h hp
    simp only [h1, hp, Option.getD_some]
    have he' := part1_ok he hp
    have hw : V.width = e'.dim := by
      have := (isFor_width he' h2).1
      rw [h3] at this
      omega
    have hl := cellDofs_len he' h2 hc
    rw [hw] at hl
    have hr : V.cellDofs c = (List.range e'.dim).filterMap (fun j => V.dof c j) := by
      have hd : ∀ j, V.dof c j = (V.cellDofs c)[j]? := by
        intro j
        unfold DofMap.dof
        rw [h3, Nat.div_one]
        cases (V.cellDofs c)[j]? with
        | none => rfl
        | some x => simp [Nat.mod_one]
      simp only [hd]
      conv_lhs => rw [← map_range_getD (V.cellDofs c) 0]
      rw [hl, ← List.filterMap_eq_map]
      apply List.filterMap_congr
      intro j hj
      simp only [Function.comp]
      rw [List.getD_eq_getElem?_getD, List.getElem?_eq_getElem (by rw [hl]; exact List.mem_range.mp hj)]
      rfl
    rw [hr, List.filterMap_map]
    apply List.filterMap_congr
    intro j hj
    exact h5 c hc j (List.mem_range.mp hj)

/-! ## Concrete cases

Linear vector element and a constant, and nested mixed elements, on an interval. -/

private def linear : Basix := ⟨2, [[[0], [1]], [[]]], none⟩
private def constant : Basix := ⟨1, [[[], []], [[0]]], none⟩

private def vectorEx : Elem := .mixed [.base constant, .blocked 2 linear]

private theorem vectorEx_ok : vectorEx.Ok [2, 1] := by
  simp only [vectorEx, Elem.Ok, Oks, Basix.Ok]
  decide

/-- Two cells with a shared vertex. -/
private def vectorMap : DofMap := ⟨vectorEx.layout [], 1, [0, 1, 2, 3, 4, 5, 3, 4, 6, 7], 1⟩

private theorem vectorMap_for : vectorMap.IsFor vectorEx 2 := ⟨⟨[], rfl⟩, Or.inl rfl, by decide +kernel⟩

example : part vectorEx [1, 1] = some (2, 2, .base linear) := rfl

example := C68_view vectorEx_ok vectorMap_for [1, 1] (o := 2) (s := 2) (e' := .base linear) rfl
example := C68_partition vectorEx_ok (by decide) vectorMap_for
example : part vectorEx [1, 2] = none := rfl
example := C68_invalid vectorEx_ok vectorMap_for [1, 2] rfl

example : (vectorMap.sub [1]).map (fun V => V.arr) = some [1, 2, 3, 4, 3, 4, 6, 7] ∧
    (vectorMap.sub [1, 1]).map (fun V => V.arr) = some [2, 4, 4, 7] ∧
    (vectorMap.sub [0]).map (fun V => V.arr) = some [0, 5] := by decide +kernel

private def nestedEx : Elem := .mixed [.base constant, .mixed [.base linear, .base constant]]
private def nestedMap : DofMap := ⟨nestedEx.layout [], 1, [0, 1, 2, 3], 1⟩

/-- `V.sub({1, 0})`, with both components at once, is not `V.sub({1}).sub({0})`: `sub_view` and `sub_layout` take every
component from the top-level sub-elements.  Here the linear sub-space of a nested mixed space gets one degree of
freedom per cell in place of two. -/
theorem C68_refuted_nested : ∃ (sh : List Nat) (e : Elem) (D : DofMap) (V V' : DofMap), e.Ok sh ∧ D.IsFor e 1 ∧
    D.sub [1, 0] = some V ∧ D.extractSub [1, 0] = some V' ∧ V.arr = [1, 2] ∧ V'.arr = [1] := by
  have h1 : (nestedMap.sub [1, 0]).map (fun V => V.arr) = some [1, 2] := by decide +kernel
  have h2 : (nestedMap.extractSub [1, 0]).map (fun V => V.arr) = some [1] := by decide +kernel
  obtain ⟨V, hV, h3⟩ := Option.map_eq_some_iff.mp h1
  obtain ⟨V', hV', h4⟩ := Option.map_eq_some_iff.mp h2
  refine ⟨[2, 1], nestedEx, nestedMap, V, V', ?_, ⟨⟨[], rfl⟩, Or.inl rfl, by decide +kernel⟩, hV, hV', h3, h4⟩
  simp only [nestedEx, Elem.Ok, Oks, Basix.Ok]
  decide

end Verif.Props
