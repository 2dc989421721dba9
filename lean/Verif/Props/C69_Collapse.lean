import Verif.Lemmas.DofmapCheck
/-!
# C69: collapsed sub-spaces are copies of the sub-spaces
-/
namespace Verif.Props
open Verif.SubSpace Verif.World Verif.Spec Verif.Dofmap

/-- C69: collapsing a sub-space without blocks (a component of a vector, a scalar or mixed sub-space) of a space on any
mesh works on all ranks, and gives a copy of the sub-space. -/
theorem C69_unblocked {sh : List Nat} {e : Elem} {I : Dofmap.Input} {R : List Req} (h : SpaceOk sh e I R) (ht : Touched I)
    {info : Nat → Nat → Nat} {path : List Nat} (hne : path ≠ []) {o st : Nat} {e' : Elem} (hp : part e path = some (o, st, e'))
    (hb : e'.bs = 1) {V : Maps} (hV : IsView e I R info path V) (I' : Dofmap.Input) (hI' : I'.P = I.P) (R' : List Req) :
    ∃ N, collapseDofmap V I' R' = some N ∧ CollapseOk V N (collapsedMap V N) (fun r => Dofmap.numCells I r 0) e'.dim ∧
      ∀ r, r < I.P → (N.D r).IsFor e' (Dofmap.numCells I r 0) ∧ (N.D r).bs = 1 ∧ (N.D r).imbs = 1 := by
  obtain ⟨num, hn⟩ := numbered h
  have hv := space_viewOk h hn hne hp hb hV
  have ho := space_owners h hn hne hp hV ht
  have hP : V.W.P = I.P := by rw [hV.W, hn.P]
  refine ⟨collapsedView V, ?_, collapsed_ok hv ho, fun r hr => ⟨collapsed_isFor hv (hP ▸ hr), rfl, rfl⟩⟩
  unfold collapseDofmap
  have h0 : 0 < V.W.P := by rw [hP]; exact h.ranks
  obtain ⟨pm, hL⟩ := (hv.isFor 0 h0).1
  rw [if_neg, hI', ← hP]
  · exact buildCollapsed_eq hv ho
  · rw [hL, layout_bs, hb]
    omega

/-- The topology with other entity dofs, reordering and order of messages. -/
def withLayout (I : Dofmap.Input) (b : Basix) (reorder : Nat → Option (List (List Nat) → List Nat)) (wait : Nat → List Nat) : Dofmap.Input :=
  { I with layout := fun _ => b.ed, ndofs := fun _ => countDofs b.ed, reorder := reorder, wait := wait }

/-- The dofs of the view and of the new dofmap on the same place of a cell. -/
theorem blocked_dofs {sh : List Nat} {e : Elem} {I : Dofmap.Input} {R : List Req} (h : SpaceOk sh e I R)
    {info : Nat → Nat → Nat} {path : List Nat} (hne : path ≠ []) {o st bs : Nat} {b : Basix}
    (hp : part e path = some (o, st, .blocked bs b)) (hperm : b.perm = none) {V : Maps} (hV : IsView e I R info path V)
    {reorder : Nat → Option (List (List Nat) → List Nat)} {wait : Nat → List Nat} {R' : List Req}
    (h' : SpaceOk sh (.base b) (withLayout I b reorder wait) R') {num num' : Nat → Nat → Nat → Nat → Nat → Nat} (hn : DofsNumbered I R num)
    (hn' : DofsNumbered (withLayout I b reorder wait) R' num') {N : DofMap} {r c i k d s m : Nat} (hr : r < I.P)
    (hL : ∃ pm, N.layout = (Elem.blocked bs b).layout pm) (harr : N.arr = dofmap (withLayout I b reorder wait) R' r 0) (hbs : N.bs = bs)
    (hc : c < Dofmap.numCells I r 0) (hi : i < b.dim) (hk : k < bs) (hs : s < sh.getD d 0) (hm : (slot b.ed d s)[m]? = some i) :
    ∃ t E, SlotOf I r c d s t E ∧ HasDof (withLayout I b reorder wait) d t m ∧ HasDof I d t (before e path d s + (bs * m + k)) ∧
      E < numEnts I r d t ∧ N.dof c (bs * i + k) = some (bs * num' r d t E m + k) ∧
      (V.D r).dof c (bs * i + k) = some (num r d t E (before e path d s + (bs * m + k))) := by
  obtain rfl := part_stride hp
  have he1 := part_bs hne hp
  have he' := part_ok h.elem hp
  have hg' := part_all h.good hp
  have hb0 : 0 < bs := by omega
  have hl : bs * i + k < (Elem.blocked bs b).dim := by
    have := Nat.mul_le_mul_left bs hi
    rw [Nat.mul_succ] at this
    rw [Elem.dim]
    omega
  have hfull : (full (.blocked bs b) d s)[bs * m + k]? = some (bs * i + k) := by
    have := block_get (slot b.ed d s) bs 0 m i k hm hk
    unfold full
    rw [Elem.ed, Elem.bs, this, Nat.mul_comm i]
    congr 1
    omega
  obtain ⟨t, E, a1, a2, a3, a4⟩ := raw_part h hn hp hr hc hs hfull
  rw [he1, Nat.div_one, Nat.one_mul] at a2 a4
  obtain ⟨t', E', b1, b2, b3, b4⟩ := raw_root h' hn' (r := r) (c := c) hr hc hs hm
  obtain ⟨rfl, rfl⟩ := slotOf_unique h (slot_dim h hs).1 a1 b1
  refine ⟨t, E, a1, b2, a2, a3, ?_, ?_⟩
  · have hcd : countDofs b.ed = b.dim := by
      have := h'.elem
      rw [Elem.Ok] at this
      exact this.2.2
    have hw : N.width = b.dim := by
      unfold DofMap.width
      obtain ⟨pm, hL⟩ := hL
      rw [hL, layout_bs, hbs, Elem.bs, Nat.mul_div_cancel _ hb0]
      have h1 := layout_ed (Elem.blocked bs b) pm
      unfold Layout.numDofs
      rw [h1, Elem.ed]
      exact hcd
    unfold DofMap.dof DofMap.cellDofs
    rw [hbs, Nat.mul_add_div hb0, Nat.div_eq_of_lt hk, Nat.add_zero, Nat.mul_add_mod, Nat.mod_eq_of_lt hk, List.getElem?_take, hw,
      if_pos hi, List.getElem?_drop, harr]
    have h2 : (withLayout I b reorder wait).ndofs 0 = b.dim := hcd
    rw [h2, Nat.mul_comm] at b4
    rw [b4]
    rfl
  · obtain ⟨v1, v2, v3, v4⟩ := isView_dof h hn hne hp hV hr
    have hid : (Elem.blocked bs b).permute (info r c) (partRow I R e.bs o 1 (Elem.blocked bs b).dim r c) =
        partRow I R e.bs o 1 (Elem.blocked bs b).dim r c := by
      rw [Elem.permute]
      exact blockPermute_id bs b hg' hperm hb0 _ _ (by simp [partRow, Elem.dim])
    rw [v4 c hc _ hl, hid, he1, a4]
    simp [Nat.mod_one]

/-- C69: collapsing a blocked sub-space (a vector in a mixed space) of a space on any mesh gives a copy of the sub-space
if its element needs no permutation of dofs. -/
theorem C69_blocked_partial {sh : List Nat} {e : Elem} {I : Dofmap.Input} {R : List Req} (h : SpaceOk sh e I R) (ht : Touched I)
    {info : Nat → Nat → Nat} {path : List Nat} (hne : path ≠ []) {o st bs : Nat} {b : Basix}
    (hp : part e path = some (o, st, .blocked bs b)) (hbs : 1 < bs) (hperm : b.perm = none) {V : Maps} (hV : IsView e I R info path V)
    {reorder : Nat → Option (List (List Nat) → List Nat)} {wait : Nat → List Nat} {R' : List Req}
    (h' : SpaceOk sh (.base b) (withLayout I b reorder wait) R') :
    ∃ N, collapseDofmap V (withLayout I b reorder wait) R' = some N ∧
      CollapseOk V N (collapsedMap V N) (fun r => Dofmap.numCells I r 0) (bs * b.dim) ∧
      ∀ r, r < I.P → (N.D r).IsFor (.blocked bs b) (Dofmap.numCells I r 0) ∧ (N.D r).bs = bs ∧ (N.D r).imbs = bs := by
  obtain ⟨num, hn⟩ := numbered h
  obtain ⟨num', hn'⟩ := numbered h'
  have hP : V.W.P = I.P := by rw [hV.W, hn.P]
  have he1 := part_bs hne hp
  have he' := part_ok h.elem hp
  have hg' := part_all h.good hp
  have hb0 : 0 < bs := by omega
  have hv := fun r (hr : r < I.P) => isView_dof h hn hne hp hV hr
  have hlay : ∀ r, r < I.P → (V.D r).layout.bs = bs := by
    intro r hr
    obtain ⟨⟨pm, hL⟩, _⟩ := (hv r hr).1
    rw [hL, layout_bs]
    rfl
  have hcd : countDofs b.ed = b.dim := by
    have := h'.elem
    rw [Elem.Ok] at this
    exact this.2.2
  have hbsh : b.ed.map List.length = sh := ed_shape sh (.base b) h'.elem
  let N : Maps := { W := dofWorld (withLayout I b reorder wait) R'
                    D := fun r => { layout := (V.D r).layout, imbs := (V.D r).layout.bs, arr := dofmap (withLayout I b reorder wait) R' r 0,
                                    bs := (V.D r).layout.bs } }
  have hNb : ∀ r, r < I.P → (N.D r).bs = bs := hlay
  have hNi : ∀ r, r < I.P → (N.D r).imbs = bs := hlay
  have hVi : ∀ r, r < I.P → (V.D r).imbs = 1 := fun r hr => (hv r hr).2.1.trans he1
  have hfor : ∀ r, r < I.P → (N.D r).IsFor (.blocked bs b) (Dofmap.numCells I r 0) := by
    intro r hr
    refine ⟨(hv r hr).1.1, Or.inr (hNb r hr), ?_⟩
    rw [hNb r hr]
    show bs * (dofmap (withLayout I b reorder wait) R' r 0).length = _
    rw [hn'.length r hr]
    show bs * (Dofmap.numCells I r 0 * countDofs b.ed) = _
    rw [hcd, Elem.dim]
    ring
  have hdof : ∀ r, r < I.P → ∀ c l, c < Dofmap.numCells I r 0 → l < (Elem.blocked bs b).dim →
      ∃ d s m k t E, s < sh.getD d 0 ∧ k < bs ∧ SlotOf I r c d s t E ∧ HasDof (withLayout I b reorder wait) d t m ∧
        HasDof I d t (before e path d s + (bs * m + k)) ∧ E < numEnts I r d t ∧ (N.D r).dof c l = some (bs * num' r d t E m + k) ∧
        (V.D r).dof c l = some (num r d t E (before e path d s + (bs * m + k))) := by
    intro r hr c l hc hl
    rw [Elem.dim] at hl
    have hi : l / bs < b.dim := Nat.div_lt_of_lt_mul hl
    have hk := Nat.mod_lt l hb0
    obtain ⟨d, s, hs, hm⟩ := hg'.cover (l / bs) hi
    obtain ⟨m, hm⟩ := List.mem_iff_getElem?.mp hm
    obtain ⟨t, E, g1, g2, g3, g4, g5, g6⟩ := blocked_dofs h hne hp hperm hV h' hn hn' (N := N.D r) hr (hv r hr).1.1 rfl (hNb r hr) hc hi hk hs hm
    rw [Nat.div_add_mod] at g5 g6
    exact ⟨d, s, m, l % bs, t, E, hs, hk, g1, g2, g3, g4, g5, g6⟩
  have hdm : ∀ x k, k < bs → (bs * x + k) / bs = x ∧ (bs * x + k) % bs = k := by
    intro x k hk
    rw [Nat.mul_add_div hb0, Nat.div_eq_of_lt hk, Nat.mul_add_mod, Nat.mod_eq_of_lt hk]
    simp
  refine ⟨N, ?_, ?_, fun r hr => ⟨hfor r hr, hNb r hr, hNi r hr⟩⟩
  · unfold collapseDofmap
    rw [if_pos ⟨hVi 0 h.ranks, by rw [hlay 0 h.ranks]; exact hbs⟩]
  · have hVval : V.W.Valid := by rw [hV.W]; exact hn.valid
    have hbd : (Elem.blocked bs b).dim = bs * b.dim := by rw [Elem.dim]
    rw [← hbd]
    refine collapse_assemble he' (hn'.P.trans hP.symm) hn'.valid hVval ?_ ?_ ?_ ?_ ?_ ?_ ?_
    · intro r hr
      rw [hP] at hr
      exact ⟨(hv r hr).1, (hv r hr).2.2.1, by rw [hVi r hr]; omega⟩
    · intro r hr
      exact hfor r (hP ▸ hr)
    · intro r hr c l y hc hl hy
      rw [hP] at hr
      obtain ⟨d, s, m, k, t, E, g0, gk, g1, g2, g3, g4, g5, g6⟩ := hdof r hr c l hc hl
      rw [g6] at hy
      obtain rfl := Option.some.inj hy
      rw [hVi r hr, Nat.div_one, hV.W]
      exact hn.numbering.lt r hr d t E _ g3 g4
    · intro r hr c l x hc hl hx
      rw [hP] at hr
      obtain ⟨d, s, m, k, t, E, g0, gk, g1, g2, g3, g4, g5, g6⟩ := hdof r hr c l hc hl
      rw [g5] at hx
      obtain rfl := Option.some.inj hx
      have := hn'.numbering.lt r hr d t E m g2 g4
      have h2 := Nat.mul_le_mul_left bs this
      rw [Nat.mul_succ] at h2
      rw [hNi r hr]
      show bs * num' r d t E m + k < bs * ((dofWorld (withLayout I b reorder wait) R').size r +
        ((dofWorld (withLayout I b reorder wait) R').ghosts r).length)
      omega
    · intro r hr x hx
      rw [hP] at hr
      rw [hNi r hr] at hx
      have hx' := Nat.div_lt_of_lt_mul hx
      have hk := Nat.mod_lt x hb0
      obtain ⟨d, t, E, m, f1, f2, f3⟩ := hn'.numbering.surj r hr (x / bs) hx'
      have hs0 := f1
      obtain ⟨hdD, i0, s0, ds, q0, q1, q2, q3⟩ := hs0
      have htI : Touched (withLayout I b reorder wait) := by
        intro r hr d t m hh hd E hE
        obtain ⟨_, i1, s1, ds1, p0, p1, p2, p3⟩ := hh
        have hs1 : s1 < sh.getD d 0 := by
          have := (List.getElem?_eq_some_iff.mp p1).1
          have h3 : ((withLayout I b reorder wait).layout i1).getD d [] = b.ed.getD d [] := rfl
          rw [h3, shape_get hbsh] at this
          exact this
        have hsl : slot b.ed d s1 = ds1 := by
          unfold slot
          have h3 : (b.ed.getD d [])[s1]? = some ds1 := p1
          rw [List.getD_eq_getElem?_getD (l := b.ed.getD d []), h3]
          rfl
        have hfull : (full (.blocked bs b) d s1)[bs * m + 0]? = some (0 + ds1[m] * bs + 0) := by
          have := block_get (slot b.ed d s1) bs 0 m ds1[m] 0 (by rw [hsl, List.getElem?_eq_getElem p3]) hb0
          unfold full
          rw [Elem.ed, Elem.bs, this]
        have h4 := embed h.elem hp hs1 hfull
        rw [full_one he1] at h4
        obtain ⟨ds2, u1, u2, _⟩ := slot_layout h h4
        have hi1 : i1 = 0 := by have := h'.types; omega
        subst hi1
        exact ht r hr d t _ ⟨Nat.le_of_lt hd, 0, s1, ds2, by rw [h.types]; omega, u1, p2, (List.getElem?_eq_some_iff.mp u2).1⟩ hd E hE
      obtain ⟨c, s, k1, k2, k3⟩ := touched_slot h' htI hr f1 f2
      have hi0 : i0 = 0 := by have := h'.types; omega
      subst hi0
      have hs0' : s0 < sh.getD d 0 := by
        have := (List.getElem?_eq_some_iff.mp q1).1
        have h3 : ((withLayout I b reorder wait).layout 0).getD d [] = b.ed.getD d [] := rfl
        rw [h3, shape_get hbsh] at this
        exact this
      have hml : m < (slot b.ed d s).length := by
        have h5 : I.etype 0 d s0 = I.etype 0 d s := Option.some.inj (q2.symm.trans k3.1)
        have h6 := hg'.even d s0 s hs0' k2 h5
        have h7 : (b.ed.getD d []).getD s0 [] = ds := by
          have h3 : (b.ed.getD d [])[s0]? = some ds := q1
          rw [List.getD_eq_getElem?_getD (l := b.ed.getD d []), h3]
          rfl
        rw [h7] at h6
        unfold slot
        omega
      have hib := hg'.range d s _ (List.getElem_mem hml)
      obtain ⟨t', E', g1, g2, g3, g4, g5, g6⟩ := blocked_dofs h hne hp hperm hV h' hn hn' (N := N.D r) hr (hv r hr).1.1 rfl (hNb r hr) k1 hib hk k2
        (List.getElem?_eq_getElem hml)
      obtain ⟨rfl, rfl⟩ := slotOf_unique h (slot_dim h k2).1 k3 g1
      refine ⟨c, bs * (slot b.ed d s)[m] + x % bs, k1, ?_, ?_⟩
      · have := Nat.mul_le_mul_left bs hib
        rw [Nat.mul_succ] at this
        rw [Elem.dim]
        omega
      · rw [g5, f3, Nat.div_add_mod]
    · intro r hr r' hr' c l c' l' x y x' y' hc hl hc' hl' h1 h2 h3 h4
      rw [hP] at hr hr'
      obtain ⟨d, s, m, k, t, E, g0, gk, g1, g2, g3, g4, g5, g6⟩ := hdof r hr c l hc hl
      obtain ⟨d', s', m', k', t', E', f0, fk, f1, f2, f3, f4, f5, f6⟩ := hdof r' hr' c' l' hc' hl'
      rw [g5] at h1; rw [g6] at h2; rw [f5] at h3; rw [f6] at h4
      obtain rfl := Option.some.inj h1
      obtain rfl := Option.some.inj h2
      obtain rfl := Option.some.inj h3
      obtain rfl := Option.some.inj h4
      unfold globalDof
      rw [hNi r hr, hNi r' hr', hVi r hr, hVi r' hr', (hdm _ k gk).1, (hdm _ k gk).2, (hdm _ k' fk).1, (hdm _ k' fk).2, hV.W]
      simp only [Nat.div_one, Nat.mod_one]
      obtain ⟨a1, e1⟩ := globalOf_some (dofWorld (withLayout I b reorder wait) R') r _ (hn'.numbering.lt r hr d t E m g2 g4)
      obtain ⟨a2, e2⟩ := globalOf_some (dofWorld (withLayout I b reorder wait) R') r' _ (hn'.numbering.lt r' hr' d' t' E' m' f2 f4)
      obtain ⟨a3, e3⟩ := globalOf_some (dofWorld I R) r _ (hn.numbering.lt r hr d t E _ g3 g4)
      obtain ⟨a4, e4⟩ := globalOf_some (dofWorld I R) r' _ (hn.numbering.lt r' hr' d' t' E' _ f3 f4)
      have s1 := hn'.numbering.same r hr r' hr' d t E m d' t' E' m' g2 g4 f2 f4
      have s2 := hn.numbering.same r hr r' hr' d t E _ d' t' E' _ g3 g4 f3 f4
      rw [e1, e2] at s1
      rw [e3, e4] at s2
      have hNW : N.W = dofWorld (withLayout I b reorder wait) R' := rfl
      rw [hNW, e1, e2, e3, e4]
      simp only [Option.map_some, Option.some.injEq, Prod.mk.injEq, and_true] at s1 s2 ⊢
      rw [s1, s2]
      have hmaps : ∀ d t, (withLayout I b reorder wait).maps d t = I.maps d t := fun _ _ => rfl
      simp only [hmaps]
      constructor
      · rintro ⟨⟨rfl, rfl, rfl, hE⟩, rfl⟩
        have h5 : I.etype 0 d s = I.etype 0 d s' := Option.some.inj (g1.1.symm.trans f1.1)
        exact ⟨rfl, rfl, by rw [before_even g0 f0 h5 h.elem h.good path], hE⟩
      · rintro ⟨rfl, rfl, hpos, hE⟩
        have h5 : I.etype 0 d s = I.etype 0 d s' := Option.some.inj (g1.1.symm.trans f1.1)
        rw [before_even g0 f0 h5 h.elem h.good path] at hpos
        have h6 : bs * m + k = bs * m' + k' := by omega
        have h7 := congrArg (· / bs) h6
        have h8 := congrArg (· % bs) h6
        simp only [(hdm m k gk).1, (hdm m k gk).2, (hdm m' k' fk).1, (hdm m' k' fk).2] at h7 h8
        exact ⟨⟨rfl, rfl, h7, hE⟩, h8⟩
    · intro r hr c l x y g g' hc hl h1 h2 h3 h4 q
      rw [hP] at hr
      obtain ⟨d, s, m, k, t, E, g0, gk, g1, g2, g3, g4, g5, g6⟩ := hdof r hr c l hc hl
      rw [g5] at h1; rw [g6] at h2
      obtain rfl := Option.some.inj h1
      obtain rfl := Option.some.inj h2
      rw [hNi r hr, (hdm _ k gk).1] at h3
      rw [hVi r hr, Nat.div_one, hV.W] at h4
      obtain ⟨eg, heg⟩ := globalOf_some (I.maps d t) r E g4
      rw [hV.W]
      exact (hn'.numbering.owner r hr d t E m g2 g4 g eg h3 heg q).trans (hn.numbering.owner r hr d t E _ g3 g4 g' eg h4 heg q).symm

/-- The sub-space exists (C68). -/
theorem view_exists {sh : List Nat} {e : Elem} {I : Dofmap.Input} {R : List Req} (h : SpaceOk sh e I R) (info : Nat → Nat → Nat)
    {path : List Nat} (hne : path ≠ []) {o st : Nat} {e' : Elem} (hp : part e path = some (o, st, e')) : ∃ V, IsView e I R info path V := by
  obtain ⟨num, hn⟩ := numbered h
  refine ⟨⟨dofWorld I R, fun r => (((spaceMaps e I R info).D r).sub path).getD ⟨.mk 0 [] [] [], 0, [], 0⟩⟩, rfl, ?_⟩
  intro r hr
  obtain ⟨v, hv, _⟩ := view_dof h hn info hne hp hr
  show _ = some ((((spaceMaps e I R info).D r).sub path).getD _)
  rw [hv]
  rfl

/-- C69: `Function::collapse` gives a function with the same values: on every cell, the coefficients of the new function are
those of the old one at the dofs of the sub-space. -/
theorem C69_function {V N : Maps} {map : Nat → List Nat} {nc : Nat → Nat} {n : Nat} (h : CollapseOk V N map nc n) {α : Type}
    {r : Nat} (hr : r < V.W.P) (x : List α) (hx : x.length = (V.D r).imbs * (V.W.size r + (V.W.ghosts r).length)) :
    ∃ y, collapseValues (map r) x = some y ∧ y.length = (N.D r).imbs * (N.W.size r + (N.W.ghosts r).length) ∧
      ∀ c, c < nc r → ∀ l, l < n → ∃ i j v, (N.D r).dof c l = some i ∧ (V.D r).dof c l = some j ∧ y[i]? = some v ∧ x[j]? = some v := by
  have hin : ∀ j ∈ map r, j < x.length := by
    intro j hj
    obtain ⟨i, hi⟩ := List.mem_iff_getElem?.mp hj
    rw [hx]
    exact h.range r hr i j hi
  have hm : ∀ l : List Nat, (∀ j ∈ l, j < x.length) → ∃ y : List α, l.mapM (fun i => x[i]?) = some y ∧ y.length = l.length ∧
      ∀ i j : Nat, l[i]? = some j → ∃ v, y[i]? = some v ∧ x[j]? = some v := by
    intro l
    induction l with
    | nil => intro _; exact ⟨[], rfl, rfl, fun i j hij => by simp at hij⟩
    | cons a l ih =>
      intro hl
      obtain ⟨y, h1, h2, h3⟩ := ih fun j hj => hl j (by simp [hj])
      have ha := hl a (by simp)
      refine ⟨x[a] :: y, ?_, by simp [h2], ?_⟩
      · rw [List.mapM_cons, List.getElem?_eq_getElem ha, h1]
        rfl
      · intro i j hij
        cases i with
        | zero =>
          simp at hij
          subst hij
          exact ⟨x[a], rfl, List.getElem?_eq_getElem ha⟩
        | succ i => exact h3 i j hij
  obtain ⟨y, h1, h2, h3⟩ := hm (map r) hin
  refine ⟨y, h1, by rw [h2, h.size r hr], ?_⟩
  intro c hc l hl
  obtain ⟨i, j, g1, g2, g3⟩ := h.cell r hr c hc l hl
  obtain ⟨v, k1, k2⟩ := h3 i j g3
  exact ⟨i, j, v, g1, g2, k1, k2⟩

/-! ## A concrete case

A quadratic vector with two components and a constant, on two intervals, one per rank; rank 0 has the cell of rank 1 as a
ghost. -/

private def collapseExMap (d : Nat) : World where
  P := 2
  size r := if d = 0 then [2, 1].getD r 0 else [1, 1].getD r 0
  ghosts r := if d = 0 then [[2], [1]].getD r [] else [[1], []].getD r []
  owners r := if d = 0 then [[1], [0]].getD r [] else [[1], []].getD r []

private def quadraticEx : Basix := { dim := 3, ed := [[[0], [1]], [[2]]], perm := none }
private def constantEx : Basix := { dim := 1, ed := [[[], []], [[0]]], perm := none }
private def mixedEx : Elem := .mixed [.blocked 2 quadraticEx, .base constantEx]

private def collapseExInput (ed : EDofs) (n : Nat) : Dofmap.Input where
  P := 2
  D := 1
  nct := 1
  types _ := [7]
  maps d _ := collapseExMap d
  etype _ _ _ := 7
  conn r _ _ _ := some ([[[0, 1], [1, 2]], [[1, 0]]].getD r [])
  layout _ := ed
  ndofs _ := n
  reorder _ := none
  wait _ := [0, 1]

private theorem quadraticEx_good : Basix.Good [2, 1] (fun _ _ => 7) quadraticEx :=
  good_of_check _ rfl (by decide) (by decide) (by decide) (fun _ hf => by cases hf)

private theorem constantEx_good : Basix.Good [2, 1] (fun _ _ => 7) constantEx :=
  good_of_check _ rfl (by decide) (by decide) (by decide) (fun _ hf => by cases hf)

private theorem mixedEx_space : SpaceOk [2, 1] mixedEx (collapseExInput mixedEx.ed 7) [⟨0, 0, 2⟩, ⟨1, 0, 3⟩] where
  ranks := by decide
  elem := by simp only [mixedEx, Elem.Ok, Oks, Basix.Ok]; decide
  good := ⟨quadraticEx_good, constantEx_good, trivial⟩
  topo := dofmapOk_of_check _ [⟨0, 0, 2⟩, ⟨1, 0, 3⟩] rfl (by decide +kernel) (by decide +kernel) (by decide +kernel) (by decide +kernel)
    (by decide +kernel) (by decide +kernel) (by decide +kernel) (by decide +kernel) (by decide +kernel) (by decide +kernel)
    (by decide +kernel) (fun _ _ _ h => by cases h) (by decide +kernel)
  types := rfl
  dims := rfl
  layout := rfl
  ndofs := by decide +kernel
  req := by decide +kernel

private theorem mixedEx_touched : Touched (collapseExInput mixedEx.ed 7) := touched_of_check _ (by decide +kernel)

private theorem quadraticEx_space : SpaceOk [2, 1] (.base quadraticEx) (withLayout (collapseExInput mixedEx.ed 7) quadraticEx (fun _ => none)
    fun _ => [0, 1]) [⟨0, 0, 1⟩, ⟨1, 0, 1⟩] where
  ranks := by decide
  elem := by simp only [Elem.Ok, Basix.Ok]; decide
  good := quadraticEx_good
  topo := dofmapOk_of_check _ [⟨0, 0, 1⟩, ⟨1, 0, 1⟩] rfl (by decide +kernel) (by decide +kernel) (by decide +kernel) (by decide +kernel)
    (by decide +kernel) (by decide +kernel) (by decide +kernel) (by decide +kernel) (by decide +kernel) (by decide +kernel)
    (by decide +kernel) (fun _ _ _ h => by cases h) (by decide +kernel)
  types := rfl
  dims := rfl
  layout := rfl
  ndofs := by decide +kernel
  req := by decide +kernel

example (V : Maps) (hV : IsView mixedEx (collapseExInput mixedEx.ed 7) [⟨0, 0, 2⟩, ⟨1, 0, 3⟩] (fun _ _ => 0) [0, 1] V) :=
  C69_unblocked mixedEx_space mixedEx_touched (by decide) (o := 1) (st := 2) (e' := .base quadraticEx) rfl rfl hV
    (collapseExInput mixedEx.ed 7) rfl []

example (V : Maps) (hV : IsView mixedEx (collapseExInput mixedEx.ed 7) [⟨0, 0, 2⟩, ⟨1, 0, 3⟩] (fun _ _ => 0) [0] V) :=
  C69_blocked_partial mixedEx_space mixedEx_touched (by decide) (o := 0) (st := 1) rfl (by decide) rfl hV quadraticEx_space

/-! ## Elements with permutations -/

/-- Swap the entries `k` and `k + 1`. -/
def swapEdge (reflected : Bool) (k : Nat) (l : List Nat) : List Nat :=
  if reflected then (l.set k (l.getD (k + 1) 0)).set (k + 1) (l.getD k 0) else l

/-- A cubic triangle: `permute_inv` swaps the two dofs of reflected edges. -/
def cubicEx : Basix where
  dim := 10
  ed := [[[0], [1], [2]], [[3, 4], [5, 6], [7, 8]], [[9]]]
  perm := some fun info l => swapEdge (info.testBit 2) 7 (swapEdge (info.testBit 1) 5 (swapEdge (info.testBit 0) 3 l))

private def pointEx : Basix := { dim := 1, ed := [[[], [], []], [[], [], []], [[0]]], perm := none }
private def cubicMixed : Elem := .mixed [.blocked 2 cubicEx, .base pointEx]

/-- Two triangles with the vertices `(0, 1, 2)` and `(2, 1, 3)`. -/
private def cubicInput : Dofmap.Input where
  P := 1
  D := 2
  nct := 1
  types _ := [7]
  maps d _ := { P := 1, size := fun _ => [4, 5, 2].getD d 0, ghosts := fun _ => [], owners := fun _ => [] }
  etype _ _ _ := 7
  conn _ _ d _ := some ([[[0, 1, 2], [2, 1, 3]], [[0, 1, 2], [3, 4, 0]]].getD d [])
  layout _ := cubicMixed.ed
  ndofs _ := 21
  reorder _ := none
  wait _ := [0, 1, 2]

private theorem cubicEx_good : Basix.Good [3, 3, 1] (fun _ _ => 7) cubicEx := by
  refine good_of_check _ rfl (by decide) (by decide) (by decide) ?_
  intro f hf info l hl
  obtain rfl := Option.some.inj hf
  match l, hl with
  | [a0, a1, a2, a3, a4, a5, a6, a7, a8, a9], _ =>
    simp only
    generalize info.testBit 0 = x0
    generalize info.testBit 1 = x1
    generalize info.testBit 2 = x2
    refine ⟨?_, ?_⟩
    · cases x0 <;> cases x1 <;> cases x2 <;> rfl
    · intro d hd s hs
      have hd' : d < 3 := hd
      interval_cases d
      · have hs' : s < 3 := hs
        interval_cases s <;> cases x0 <;> cases x1 <;> cases x2 <;> exact List.Perm.refl _
      · have hs' : s < 3 := hs
        interval_cases s <;> cases x0 <;> cases x1 <;> cases x2 <;>
          first | exact List.Perm.refl _ | exact List.Perm.swap _ _ _
      · have hs' : s < 1 := hs
        interval_cases s
        cases x0 <;> cases x1 <;> cases x2 <;> exact List.Perm.refl _

private theorem pointEx_good : Basix.Good [3, 3, 1] (fun _ _ => 7) pointEx :=
  good_of_check _ rfl (by decide) (by decide) (by decide) (fun _ hf => by cases hf)

private theorem cubicMixed_space : SpaceOk [3, 3, 1] cubicMixed cubicInput [⟨0, 0, 2⟩, ⟨1, 0, 4⟩, ⟨2, 0, 3⟩] where
  ranks := by decide
  elem := by simp only [cubicMixed, Elem.Ok, Oks, Basix.Ok]; decide
  good := ⟨cubicEx_good, pointEx_good, trivial⟩
  topo := dofmapOk_of_check _ [⟨0, 0, 2⟩, ⟨1, 0, 4⟩, ⟨2, 0, 3⟩] rfl (by decide +kernel) (by decide +kernel) (by decide +kernel)
    (by decide +kernel) (by decide +kernel) (by decide +kernel) (by decide +kernel) (by decide +kernel) (by decide +kernel)
    (by decide +kernel) (by decide +kernel) (fun _ _ _ h => by cases h) (by decide +kernel)
  types := rfl
  dims := rfl
  layout := rfl
  ndofs := by decide +kernel
  req := by decide +kernel

private theorem cubicEx_space : SpaceOk [3, 3, 1] (.base cubicEx) (withLayout cubicInput cubicEx (fun _ => none) fun _ => [0, 1, 2])
    [⟨0, 0, 1⟩, ⟨1, 0, 2⟩, ⟨2, 0, 1⟩] where
  ranks := by decide
  elem := by simp only [Elem.Ok, Basix.Ok]; decide
  good := cubicEx_good
  topo := dofmapOk_of_check _ [⟨0, 0, 1⟩, ⟨1, 0, 2⟩, ⟨2, 0, 1⟩] rfl (by decide +kernel) (by decide +kernel) (by decide +kernel)
    (by decide +kernel) (by decide +kernel) (by decide +kernel) (by decide +kernel) (by decide +kernel) (by decide +kernel)
    (by decide +kernel) (by decide +kernel) (fun _ _ _ h => by cases h) (by decide +kernel)
  types := rfl
  dims := rfl
  layout := rfl
  ndofs := by decide +kernel
  req := by decide +kernel

/-- The second triangle has its edge to the first one reflected. -/
private def cubicInfo (_ c : Nat) : Nat := if c = 1 then 4 else 0

/-- A blocked sub-space with an element that needs permutations: `collapse` builds the new dofmap without them.  Here two
dofs of the sub-space on the common edge of two cells are different, but the new dofmap has the same dof there, so that
no values of the new function are right on both cells. -/
theorem C69_refuted_permuted : ∃ (sh : List Nat) (e : Elem) (I : Dofmap.Input) (R R' : List Req) (info : Nat → Nat → Nat) (bs o st : Nat)
    (b : Basix) (path : List Nat) (V N : Maps) (reorder : Nat → Option (List (List Nat) → List Nat)) (wait : Nat → List Nat),
    SpaceOk sh e I R ∧ Touched I ∧ path ≠ [] ∧ part e path = some (o, st, .blocked bs b) ∧ 1 < bs ∧ IsView e I R info path V ∧
      SpaceOk sh (.base b) (withLayout I b reorder wait) R' ∧
      collapseDofmap V (withLayout I b reorder wait) R' = some N ∧
      (∃ c l c' l' x y y', c < Dofmap.numCells I 0 0 ∧ l < bs * b.dim ∧ c' < Dofmap.numCells I 0 0 ∧ l' < bs * b.dim ∧
        (N.D 0).dof c l = some x ∧ (N.D 0).dof c' l' = some x ∧
        (V.D 0).dof c l = some y ∧ (V.D 0).dof c' l' = some y' ∧ y ≠ y') ∧
      ∀ map, ¬ CollapseOk V N map (fun r => Dofmap.numCells I r 0) (bs * b.dim) := by
  obtain ⟨V, hV⟩ := view_exists cubicMixed_space cubicInfo (path := [0]) (by decide) (o := 0) (st := 1) (e' := .blocked 2 cubicEx) rfl
  have hv : (((spaceMaps cubicMixed cubicInput [⟨0, 0, 2⟩, ⟨1, 0, 4⟩, ⟨2, 0, 3⟩] cubicInfo).D 0).sub [0]).map
      (fun v => (v.imbs, v.layout.bs, v.width, v.dof 0 6, v.dof 1 14)) = some (1, 2, 20, some 6, some 8) := by decide +kernel
  rw [hV.D 0 (by decide)] at hv
  simp only [Option.map_some, Option.some.injEq, Prod.mk.injEq] at hv
  obtain ⟨v1, v2, vw, v3, v4⟩ := hv
  let N : Maps := { W := dofWorld (withLayout cubicInput cubicEx (fun _ => none) fun _ => [0, 1, 2]) [⟨0, 0, 1⟩, ⟨1, 0, 2⟩, ⟨2, 0, 1⟩]
                    D := fun r => { layout := (V.D r).layout, imbs := (V.D r).layout.bs,
                                    arr := dofmap (withLayout cubicInput cubicEx (fun _ => none) fun _ => [0, 1, 2])
                                      [⟨0, 0, 1⟩, ⟨1, 0, 2⟩, ⟨2, 0, 1⟩] r 0,
                                    bs := (V.D r).layout.bs } }
  have hN : collapseDofmap V (withLayout cubicInput cubicEx (fun _ => none) fun _ => [0, 1, 2]) [⟨0, 0, 1⟩, ⟨1, 0, 2⟩, ⟨2, 0, 1⟩] = some N := by
    unfold collapseDofmap
    rw [if_pos ⟨v1, by rw [v2]; decide⟩]
  have hL : ∃ pm, (V.D 0).layout = (Elem.blocked 2 cubicEx).layout pm := by
    obtain ⟨num, hn⟩ := numbered cubicMixed_space
    exact (isView_dof cubicMixed_space hn (by decide) (o := 0) (st := 1) (e' := .blocked 2 cubicEx) rfl hV (by decide : 0 < 1)).1.1
  have hdof : ∀ c l, (N.D 0).dof c l = ((((dofmap (withLayout cubicInput cubicEx (fun _ => none) fun _ => [0, 1, 2])
      [⟨0, 0, 1⟩, ⟨1, 0, 2⟩, ⟨2, 0, 1⟩] 0 0).drop (10 * c)).take 10)[l / 2]?).map fun x => 2 * x + l % 2 := by
    intro c l
    have hw : (N.D 0).width = 10 := by
      obtain ⟨pm, hL⟩ := hL
      show (V.D 0).layout.numDofs * (V.D 0).layout.bs / (V.D 0).layout.bs = 10
      rw [hL]
      simp only [Elem.layout, Layout.numDofs, Layout.ed, Layout.bs]
      decide +kernel
    unfold DofMap.dof DofMap.cellDofs
    rw [hw]
    show Option.map (fun x => (V.D 0).layout.bs * x + l % (V.D 0).layout.bs) _ = _
    rw [show (N.D 0).bs = 2 from v2, v2]
  have hx : (N.D 0).dof 0 6 = some 6 ∧ (N.D 0).dof 1 14 = some 6 := by
    rw [hdof, hdof]
    decide +kernel
  refine ⟨[3, 3, 1], cubicMixed, cubicInput, _, _, cubicInfo, 2, 0, 1, cubicEx, [0], V, N, _, _, cubicMixed_space,
    touched_of_check _ (by decide +kernel), by decide, rfl, by decide, hV, cubicEx_space, hN,
    ⟨0, 6, 1, 14, 6, 6, 8, by decide, by decide, by decide, by decide, hx.1, hx.2, v3, v4, by decide⟩, ?_⟩
  intro map hc
  have hP : (0 : Nat) < V.W.P := by rw [hV.W]; decide
  obtain ⟨x, y, a1, a2, a3⟩ := hc.cell 0 hP 0 (by decide) 6 (by decide)
  obtain ⟨x', y', b1, b2, b3⟩ := hc.cell 0 hP 1 (by decide) 14 (by decide)
  rw [hx.1] at a1
  rw [hx.2] at b1
  rw [v3] at a2
  rw [v4] at b2
  obtain rfl := Option.some.inj a1
  obtain rfl := Option.some.inj b1
  obtain rfl := Option.some.inj a2
  obtain rfl := Option.some.inj b2
  rw [a3] at b3
  cases b3

end Verif.Props
