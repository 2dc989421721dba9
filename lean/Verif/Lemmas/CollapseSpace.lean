import Verif.Lemmas.SubPerm
import Verif.Lemmas.Collapse
import Verif.Props.C68_SubSpace
/-!
# Collapsing sub-spaces of a space
-/
namespace Verif.SubSpace
open Verif.World Verif.Spec Verif.Std Verif.Dofmap

/-- A space on a distributed mesh with one cell type: a consistent topology, and an element that fits it. -/
structure SpaceOk (sh : List Nat) (e : Elem) (I : Dofmap.Input) (R : List Req) : Prop where
  ranks : 0 < I.P
  elem : e.Ok sh
  good : e.All (Basix.Good sh (I.etype 0))
  topo : Dofmap.Ok I
  types : I.nct = 1
  dims : sh.length = I.D + 1
  layout : I.layout 0 = e.ed
  ndofs : I.ndofs 0 = countDofs e.ed
  req : ∀ r, r < I.P → required I r = some R

/-- Every entity with dofs on a rank is in a cell on this rank. -/
def Touched (I : Dofmap.Input) : Prop :=
  ∀ r, r < I.P → ∀ d et j, Props.HasDof I d et j → d < I.D → ∀ E, E < numEnts I r d et →
    ∃ c, c < Dofmap.numCells I r 0 ∧ ∃ (cn : List (List Nat)) (row : List Nat), I.conn r 0 d et = some cn ∧ cn[c]? = some row ∧ E ∈ row

/-- The space of `create_dofmap` on all ranks. -/
def spaceMaps (e : Elem) (I : Dofmap.Input) (R : List Req) (info : Nat → Nat → Nat) : Maps where
  W := dofWorld I R
  D r := createDofmap e (dofmap I R r 0) (info r)

/-- Entity `s` of dimension `d` of cell `c` is the local entity `E` of type number `t`. -/
def SlotOf (I : Dofmap.Input) (r c d s t E : Nat) : Prop :=
  (I.types d)[t]? = some (I.etype 0 d s) ∧ ((d = I.D ∧ E = c) ∨ (d < I.D ∧ ∃ (cn : List (List Nat)) (row : List Nat), I.conn r 0 d t = some cn ∧
    cn[c]? = some row ∧ row[slotPos I 0 d s]? = some E))

/-- What C42 says. -/
structure DofsNumbered (I : Dofmap.Input) (R : List Req) (num : Nat → Nat → Nat → Nat → Nat → Nat) : Prop where
  P : (dofWorld I R).P = I.P
  valid : (dofWorld I R).Valid
  numbering : Props.DofNumbering I (dofWorld I R) num
  length : ∀ r, r < I.P → (dofmap I R r 0).length = Dofmap.numCells I r 0 * I.ndofs 0
  cell : ∀ r, r < I.P → ∀ c, c < Dofmap.numCells I r 0 → ∀ l, l < I.ndofs 0 →
    ∃ d et e j, Attached I r 0 c l d et e j ∧ Props.HasDof I d et j ∧ e < numEnts I r d et ∧
      (dofmap I R r 0)[c * I.ndofs 0 + l]? = some (num r d et e j)

theorem countP_pos (p : Nat → Bool) (n k : Nat) (h : k < (List.range n).countP p) :
    ∃ s, s < n ∧ p s = true ∧ (List.range s).countP p = k := by
  induction n with
  | zero => simp at h
  | succ n ih =>
    rw [List.range_succ, List.countP_append] at h
    by_cases hk : k < (List.range n).countP p
    · obtain ⟨s, h1, h2⟩ := ih hk
      exact ⟨s, by omega, h2⟩
    · by_cases hp : p n = true
      · refine ⟨n, by omega, hp, ?_⟩
        simp [hp] at h
        omega
      · simp [hp] at h
        omega

theorem full_slot {e : Elem} (hb : 0 < e.bs) {d s p L : Nat} (h : (full e d s)[p]? = some L) :
    (slot e.ed d s)[p / e.bs]? = some (L / e.bs) ∧ p % e.bs = L % e.bs := by
  unfold full at h
  generalize slot e.ed d s = ds at *
  generalize e.bs = bs at *
  induction ds generalizing p with
  | nil => simp at h
  | cons a ds ih =>
    rw [List.flatMap_cons] at h
    by_cases hp : p < bs
    · rw [List.getElem?_append_left (by simpa using hp), List.getElem?_map, List.getElem?_range hp, Option.map_some,
        Option.some.injEq] at h
      rw [Nat.div_eq_of_lt hp, ← h, Nat.mul_comm, Nat.zero_add, Nat.mul_add_div hb, Nat.div_eq_of_lt hp, Nat.mul_add_mod]
      simp
    · rw [List.getElem?_append_right (by simp; omega), List.length_map, List.length_range] at h
      obtain ⟨h1, h2⟩ := ih h
      have hp' : p = (p - bs) + bs := by omega
      rw [hp', Nat.add_div_right _ hb, Nat.add_mod_right]
      exact ⟨by rw [List.getElem?_cons_succ]; exact h1, h2⟩

section
variable {sh : List Nat} {e : Elem} {I : Dofmap.Input} {R : List Req}

theorem numbered (h : SpaceOk sh e I R) : ∃ num, DofsNumbered I R num := by
  obtain ⟨R0, h1, h2, h3, num, h4, h5⟩ := Props.C42_dofmap h.topo h.ranks
  have := (h1 0 h.ranks).symm.trans (h.req 0 h.ranks)
  obtain rfl := Option.some.inj this
  exact ⟨num, h2, h3, h4, fun r hr => (h5 r hr 0 (by rw [h.types]; omega)).1, fun r hr => (h5 r hr 0 (by rw [h.types]; omega)).2⟩

theorem slot_layout (h : SpaceOk sh e I R) {d s p L : Nat} (hp : (slot e.ed d s)[p]? = some L) :
    ∃ ds : List Nat, ((I.layout 0).getD d [])[s]? = some ds ∧ ds[p]? = some L ∧ slot e.ed d s = ds := by
  rw [h.layout]
  unfold slot at *
  rw [List.getD_eq_getElem?_getD (l := e.ed.getD d [])] at hp ⊢
  cases hs : (e.ed.getD d [])[s]? with
  | none => rw [hs] at hp; simp at hp
  | some ds => rw [hs] at hp; exact ⟨ds, rfl, hp, rfl⟩

theorem slot_dim (h : SpaceOk sh e I R) {d s : Nat} (hs : s < sh.getD d 0) : d ≤ I.D ∧ s < ((I.layout 0).getD d []).length := by
  constructor
  · by_contra hc
    rw [List.getD_eq_getElem?_getD, List.getElem?_eq_none (by rw [h.dims]; omega)] at hs
    simp at hs
  · rw [h.layout, shape_get (ed_shape sh e h.elem)]
    exact hs

/-- The entry of the dofmap for a dof of an entity. -/
theorem raw_root (h : SpaceOk sh e I R) {num : Nat → Nat → Nat → Nat → Nat → Nat} (hn : DofsNumbered I R num) {r c d s p L : Nat} (hr : r < I.P)
    (hc : c < Dofmap.numCells I r 0) (hs : s < sh.getD d 0) (hp : (slot e.ed d s)[p]? = some L) :
    ∃ t E, SlotOf I r c d s t E ∧ Props.HasDof I d t p ∧ E < numEnts I r d t ∧
      (dofmap I R r 0)[c * I.ndofs 0 + L]? = some (num r d t E p) := by
  have h0 : 0 < I.nct := by rw [h.types]; omega
  obtain ⟨ds, hds, hdp, -⟩ := slot_layout h hp
  have hd := (slot_dim h hs).1
  have hL := h.topo.dof_lt 0 h0 d hd s ds hds L (List.mem_of_getElem? hdp)
  obtain ⟨d', t, E, j, ⟨s', ds', a1, a2, a3, a4, a5⟩, b1, b2, b3⟩ := hn.cell r hr c hc L hL
  obtain ⟨rfl, rfl, rfl⟩ := h.topo.dof_unique 0 h0 L d s p ds d' s' j ds' hd a4 hds hdp a1 a2
  exact ⟨t, E, ⟨a3, a5⟩, b1, b2, b3⟩

theorem types_inj (h : SpaceOk sh e I R) {d t t' x : Nat} (hd : d ≤ I.D) (h1 : (I.types d)[t]? = some x) (h2 : (I.types d)[t']? = some x) :
    t = t' := by
  obtain ⟨l1, e1⟩ := List.getElem?_eq_some_iff.mp h1
  obtain ⟨l2, e2⟩ := List.getElem?_eq_some_iff.mp h2
  exact (h.topo.types_nodup d hd).getElem_inj_iff.mp (e1.trans e2.symm)

theorem slotOf_unique (h : SpaceOk sh e I R) {r c d s t E t' E' : Nat} (hd : d ≤ I.D) (h1 : SlotOf I r c d s t E)
    (h2 : SlotOf I r c d s t' E') : t = t' ∧ E = E' := by
  obtain rfl := types_inj h hd h1.1 h2.1
  refine ⟨rfl, ?_⟩
  rcases h1.2 with ⟨a1, a2⟩ | ⟨a1, cn, row, a2, a3, a4⟩
  · rcases h2.2 with ⟨b1, b2⟩ | ⟨b1, _⟩
    · omega
    · omega
  · rcases h2.2 with ⟨b1, b2⟩ | ⟨b1, cn', row', b2, b3, b4⟩
    · omega
    · rw [a2] at b2
      obtain rfl := Option.some.inj b2
      rw [a3] at b3
      obtain rfl := Option.some.inj b3
      rw [a4] at b4
      exact Option.some.inj b4

/-- Every entity is an entity of a cell. -/
theorem touched_slot (h : SpaceOk sh e I R) (ht : Touched I) {r d t j E : Nat} (hr : r < I.P) (hd : Props.HasDof I d t j)
    (hE : E < numEnts I r d t) : ∃ c s, c < Dofmap.numCells I r 0 ∧ s < sh.getD d 0 ∧ SlotOf I r c d s t E := by
  have h0 : 0 < I.nct := by rw [h.types]; omega
  obtain ⟨hdD, i, s0, ds, hi, g1, g2, g3⟩ := id hd
  rw [h.types] at hi
  obtain rfl : i = 0 := by omega
  have hs0 := (List.getElem?_eq_some_iff.mp g1).1
  have hsh : ((I.layout 0).getD d []).length = sh.getD d 0 := by rw [h.layout, shape_get (ed_shape sh e h.elem)]
  rcases Nat.lt_or_eq_of_le hdD with hlt | rfl
  · obtain ⟨c, hc, cn, row, c1, c2, c3⟩ := ht r hr d t j hd hlt E hE
    obtain ⟨cn', d1, d2⟩ := h.topo.conn r hr 0 h0 d hlt t s0 hs0 g2
    rw [c1] at d1
    obtain rfl := Option.some.inj d1
    obtain ⟨row', f1, f2, f3⟩ := d2 c hc
    rw [c2] at f1
    obtain rfl := Option.some.inj f1
    obtain ⟨k, hk⟩ := List.mem_iff_getElem?.mp c3
    have hkl := (List.getElem?_eq_some_iff.mp hk).1
    rw [f2] at hkl
    obtain ⟨s, k1, k2, k3⟩ := countP_pos _ _ _ hkl
    rw [decide_eq_true_eq] at k2
    refine ⟨c, s, hc, by omega, by rw [k2]; exact g2, Or.inr ⟨hlt, cn, row, c1, c2, ?_⟩⟩
    unfold slotPos
    rw [k2, k3]
    exact hk
  · have h1 := h.topo.one_cell 0 h0
    obtain rfl : s0 = 0 := by omega
    have h2 := h.topo.etype_cell 0 h0
    obtain rfl := types_inj h hdD g2 h2
    exact ⟨E, 0, hE, by omega, g2, Or.inl ⟨rfl, rfl⟩⟩

/-! ## The dofmap of the space -/

theorem ndofs_pos (h : SpaceOk sh e I R) : 0 < I.ndofs 0 ∧ I.ndofs 0 * e.bs = e.dim := by
  have h1 := countDofs_dim sh e h.elem
  have h2 := dim_pos sh e h.elem
  rw [h.ndofs]
  refine ⟨?_, h1⟩
  rcases Nat.eq_zero_or_pos (countDofs e.ed) with hz | hz
  · rw [hz] at h1; omega
  · exact hz

/-- A row of the array of `build_dofmap_data`. -/
def rawRow (I : Dofmap.Input) (R : List Req) (r c : Nat) : List Nat := ((dofmap I R r 0).drop (c * I.ndofs 0)).take (I.ndofs 0)

theorem rawRow_get {r c l : Nat} (hl : l < I.ndofs 0) : (rawRow I R r c)[l]? = (dofmap I R r 0)[c * I.ndofs 0 + l]? := by
  unfold rawRow
  rw [List.getElem?_take, if_pos hl, List.getElem?_drop]

theorem rawRow_length (hn : DofsNumbered I R num) {r c : Nat} (hr : r < I.P) (hc : c < Dofmap.numCells I r 0) :
    (rawRow I R r c).length = I.ndofs 0 := by
  unfold rawRow
  rw [List.length_take, List.length_drop, hn.length r hr]
  have : (c + 1) * I.ndofs 0 ≤ Dofmap.numCells I r 0 * I.ndofs 0 := Nat.mul_le_mul_right _ hc
  rw [Nat.add_mul] at this
  omega

theorem permuteScalar_length {et : Nat → Nat → Nat} (he : e.Ok sh) (ha : e.All (Basix.Good sh et)) (info : Nat) (l : List Nat)
    (hl : l.length = countDofs e.ed) : (e.permuteScalar info l).length = countDofs e.ed := by
  have h1 := countDofs_dim sh e he
  cases e with
  | base b =>
    rw [Elem.bs, Nat.mul_one] at h1
    rw [h1] at hl ⊢
    exact permute_length info (.base b) ha l hl
  | blocked bs b =>
    rw [Elem.Ok] at he
    have h2 : countDofs (Elem.blocked bs b).ed = b.dim := he.2.2.2
    rw [h2] at hl ⊢
    exact basix_length ha info l hl
  | mixed es =>
    rw [Elem.bs, Nat.mul_one] at h1
    rw [h1] at hl ⊢
    exact permute_length info (.mixed es) ha l hl

/-- `create_dofmap` gives a dofmap for the element, and its entries. -/
theorem create_ok (h : SpaceOk sh e I R) {num : Nat → Nat → Nat → Nat → Nat → Nat} (hn : DofsNumbered I R num) (info : Nat → Nat → Nat)
    {r : Nat} (hr : r < I.P) :
    ((spaceMaps e I R info).D r).IsFor e (Dofmap.numCells I r 0) ∧ ((spaceMaps e I R info).D r).bs = e.bs ∧
      ((spaceMaps e I R info).D r).imbs = e.bs ∧ ∀ c, c < Dofmap.numCells I r 0 →
        ((spaceMaps e I R info).D r).cellDofs c = e.permuteScalar (info r c) (rawRow I R r c) := by
  obtain ⟨n1, n2⟩ := ndofs_pos h
  have hL : (e.layout []).numDofs = I.ndofs 0 := by
    rw [h.ndofs, ← layout_ed e []]; rfl
  have hlen := hn.length r hr
  have harr : ((spaceMaps e I R info).D r).arr =
      ((List.range (Dofmap.numCells I r 0)).map fun c => e.permuteScalar (info r c) (rawRow I R r c)).flatten := by
    show (createDofmap e (dofmap I R r 0) (info r)).arr = _
    unfold createDofmap
    simp only
    rw [hL, hlen, Nat.mul_div_cancel _ n1]
    rfl
  have hrows : ∀ row ∈ (List.range (Dofmap.numCells I r 0)).map fun c => e.permuteScalar (info r c) (rawRow I R r c), row.length = I.ndofs 0 := by
    intro row hrow
    obtain ⟨c, hc, rfl⟩ := List.mem_map.mp hrow
    rw [List.mem_range] at hc
    rw [h.ndofs]
    exact permuteScalar_length h.elem h.good _ _ (by rw [rawRow_length hn hr hc, h.ndofs])
  have hfor : ((spaceMaps e I R info).D r).IsFor e (Dofmap.numCells I r 0) := by
    refine ⟨⟨[], rfl⟩, Or.inr (layout_bs e []), ?_⟩
    rw [harr, flatten_len _ _ hrows, List.length_map, List.length_range, ← n2]
    show (e.layout []).bs * _ = _
    rw [layout_bs]
    ring
  refine ⟨hfor, layout_bs e [], layout_bs e [], ?_⟩
  intro c hc
  have hw : ((spaceMaps e I R info).D r).width = I.ndofs 0 := by
    have := (isFor_width h.elem hfor).1
    have hb : ((spaceMaps e I R info).D r).bs = e.bs := layout_bs e []
    rw [hb, ← n2] at this
    exact Nat.eq_of_mul_eq_mul_right (bs_pos sh e h.elem) this
  unfold DofMap.cellDofs
  rw [hw, harr]
  exact flatten_block _ _ hrows c _ (by rw [List.getElem?_map, List.getElem?_range hc]; rfl)

/-- Part of a row. -/
def partRow (I : Dofmap.Input) (R : List Req) (bs o st n r c : Nat) : List Nat :=
  (List.range n).map fun j => (rawRow I R r c).getD ((o + st * j) / bs) 0

theorem partRow_get (h : SpaceOk sh e I R) {num : Nat → Nat → Nat → Nat → Nat → Nat} (hn : DofsNumbered I R num) {path : List Nat} {o st : Nat}
    {e' : Elem} (hp : part e path = some (o, st, e')) {r c j : Nat} (hr : r < I.P) (hc : c < Dofmap.numCells I r 0) (hj : j < e'.dim) :
    (partRow I R e.bs o st e'.dim r c)[j]? = (dofmap I R r 0)[c * I.ndofs 0 + (o + st * j) / e.bs]? := by
  obtain ⟨n1, n2⟩ := ndofs_pos h
  have hlt : (o + st * j) / e.bs < I.ndofs 0 := by
    have := part_lt hp hj
    rw [← n2, Nat.mul_comm (I.ndofs 0)] at this
    exact Nat.div_lt_of_lt_mul this
  have hlen := rawRow_length hn hr hc
  unfold partRow
  rw [List.getElem?_map, List.getElem?_range hj, ← rawRow_get hlt, Option.map_some, List.getD_eq_getElem?_getD,
    List.getElem?_eq_getElem (by rw [hlen]; exact hlt)]
  rfl

/-- The dofs of a view. -/
theorem view_dof (h : SpaceOk sh e I R) {num : Nat → Nat → Nat → Nat → Nat → Nat} (hn : DofsNumbered I R num) (info : Nat → Nat → Nat)
    {path : List Nat} (hne : path ≠ []) {o st : Nat} {e' : Elem} (hp : part e path = some (o, st, e')) {r : Nat} (hr : r < I.P) :
    ∃ V, ((spaceMaps e I R info).D r).sub path = some V ∧ V.IsFor e' (Dofmap.numCells I r 0) ∧ V.imbs = e.bs ∧ V.bs = 1 ∧
      ∀ c, c < Dofmap.numCells I r 0 → ∀ j, j < e'.dim →
        V.dof c j = ((e'.permute (info r c) (partRow I R e.bs o st e'.dim r c))[j]?).map fun z => e.bs * z + o % e.bs := by
  obtain ⟨c1, c2, c3, c4⟩ := create_ok h hn info hr
  obtain ⟨V, v1, v2, v3, v4, v5⟩ := Props.C68_view h.elem c1 path hp
  obtain ⟨n1, n2⟩ := ndofs_pos h
  refine ⟨V, v1, v2, v3.trans c3, v4 hne, ?_⟩
  intro c hc j hj
  obtain ⟨w1, x, w2, w3⟩ := v5 c hc j hj
  rw [w2, ← w3]
  unfold DofMap.dof
  rw [c2, c4 c hc]
  have hlen := rawRow_length hn hr hc
  cases path with
  | nil => exact absurd rfl hne
  | cons i path =>
    have hmix : e.bs = 1 → e.permuteScalar (info r c) (rawRow I R r c) = e.permute (info r c) (rawRow I R r c) →
        (e.permuteScalar (info r c) (rawRow I R r c))[(o + st * j) / e.bs]?.map (fun x => e.bs * x + (o + st * j) % e.bs) =
        (e'.permute (info r c) (partRow I R e.bs o st e'.dim r c))[j]?.map fun z => e.bs * z + o % e.bs := by
      intro hb hs
      rw [hs, hb, Nat.div_one, part_perm h.good hp (info r c) _ (by rw [hlen, ← n2, hb, Nat.mul_one]) j hj]
      have : partRow I R 1 o st e'.dim r c = pick (rawRow I R r c) o st e'.dim := by
        unfold partRow pick
        simp only [Nat.div_one]
      rw [this]
      simp only [Nat.mod_one]
    cases e with
    | base b => exact absurd (part_base hp).1 (by simp)
    | mixed es => exact hmix rfl rfl
    | blocked bs b =>
      obtain ⟨rfl, hi, rfl, rfl, rfl⟩ := part_blocked hp
      have hb : (Elem.blocked st b).bs = st := rfl
      have h1 : ∀ j, (o + st * j) / st = j := by
        intro j
        rw [Nat.add_comm, Nat.mul_add_div (by omega), Nat.div_eq_of_lt hi, Nat.add_zero]
      have h2 : (o + st * j) % st = o := by
        rw [Nat.add_comm, Nat.mul_add_mod, Nat.mod_eq_of_lt hi]
      have h3 : partRow I R st o st (Elem.base b).dim r c = rawRow I R r c := by
        have hd : (rawRow I R r c).length = (Elem.base b).dim := by
          rw [hlen, h.ndofs]
          have := h.elem
          rw [Elem.Ok] at this
          exact this.2.2.2
        unfold partRow
        simp only [h1]
        rw [← hd]
        exact map_range_getD _ 0
      rw [hb, h1, h2, h3, Nat.mod_eq_of_lt hi]
      congr 2

/-- The entry for a dof of a sub-element. -/
theorem raw_part (h : SpaceOk sh e I R) {num : Nat → Nat → Nat → Nat → Nat → Nat} (hn : DofsNumbered I R num) {path : List Nat} {o st : Nat}
    {e' : Elem} (hp : part e path = some (o, st, e')) {r c d s m j : Nat} (hr : r < I.P)
    (hc : c < Dofmap.numCells I r 0) (hs : s < sh.getD d 0) (hm : (full e' d s)[m]? = some j) :
    ∃ t E, SlotOf I r c d s t E ∧ Props.HasDof I d t ((before e path d s + st * m) / e.bs) ∧ E < numEnts I r d t ∧
      (partRow I R e.bs o st e'.dim r c)[j]? = some (num r d t E ((before e path d s + st * m) / e.bs)) := by
  have h1 := embed h.elem hp hs hm
  obtain ⟨h2, -⟩ := full_slot (bs_pos sh e h.elem) h1
  obtain ⟨t, E, a1, a2, a3, a4⟩ := raw_root h hn hr hc hs h2
  have hj := full_lt hs e' (part_ok h.elem hp) (part_all h.good hp) (List.mem_of_getElem? hm)
  exact ⟨t, E, a1, a2, a3, by rw [partRow_get h hn hp hr hc hj, a4]⟩

/-- `V` is the sub-space of a path on all ranks. -/
structure IsView (e : Elem) (I : Dofmap.Input) (R : List Req) (info : Nat → Nat → Nat) (path : List Nat) (V : Maps) : Prop where
  W : V.W = dofWorld I R
  D : ∀ r, r < I.P → ((spaceMaps e I R info).D r).sub path = some (V.D r)

theorem isView_dof (h : SpaceOk sh e I R) {num : Nat → Nat → Nat → Nat → Nat → Nat} (hn : DofsNumbered I R num) {info : Nat → Nat → Nat}
    {path : List Nat} (hne : path ≠ []) {o st : Nat} {e' : Elem} (hp : part e path = some (o, st, e')) {V : Maps}
    (hV : IsView e I R info path V) {r : Nat} (hr : r < I.P) :
    (V.D r).IsFor e' (Dofmap.numCells I r 0) ∧ (V.D r).imbs = e.bs ∧ (V.D r).bs = 1 ∧
      ∀ c, c < Dofmap.numCells I r 0 → ∀ j, j < e'.dim →
        (V.D r).dof c j = ((e'.permute (info r c) (partRow I R e.bs o st e'.dim r c))[j]?).map fun z => e.bs * z + o % e.bs := by
  obtain ⟨v, h1, h2⟩ := view_dof h hn info hne hp hr
  rw [hV.D r hr] at h1
  obtain rfl := Option.some.inj h1
  exact h2

/-- Every dof of the view is a dof of an entity of the cell. -/
theorem view_entity (h : SpaceOk sh e I R) {num : Nat → Nat → Nat → Nat → Nat → Nat} (hn : DofsNumbered I R num) {info : Nat → Nat → Nat}
    {path : List Nat} (hne : path ≠ []) {o st : Nat} {e' : Elem} (hp : part e path = some (o, st, e')) {V : Maps}
    (hV : IsView e I R info path V) {r c l y : Nat} (hr : r < I.P) (hc : c < Dofmap.numCells I r 0) (hl : l < e'.dim)
    (hy : (V.D r).dof c l = some y) : ∃ d s m t E, s < sh.getD d 0 ∧ m < (full e' d s).length ∧ SlotOf I r c d s t E ∧
      Props.HasDof I d t ((before e path d s + st * m) / e.bs) ∧ E < numEnts I r d t ∧
      y = e.bs * num r d t E ((before e path d s + st * m) / e.bs) + o % e.bs := by
  obtain ⟨v1, v2, v3, v4⟩ := isView_dof h hn hne hp hV hr
  have he' := part_ok h.elem hp
  have hg' := part_all h.good hp
  obtain ⟨d, s, hs, hj⟩ := full_cover e' he' hg' hl
  rw [v4 c hc l hl, Option.map_eq_some_iff] at hy
  obtain ⟨z, hz, rfl⟩ := hy
  have hperm := perm_entity (info r c) hs e' he' hg' (partRow I R e.bs o st e'.dim r c) (by simp [partRow])
  have hmem := hperm.mem_iff.mp (List.mem_filterMap.mpr ⟨l, hj, hz⟩)
  obtain ⟨j, hj', hzj⟩ := List.mem_filterMap.mp hmem
  obtain ⟨m, hm⟩ := List.mem_iff_getElem?.mp hj'
  obtain ⟨t, E, a1, a2, a3, a4⟩ := raw_part h hn hp hr hc hs hm
  rw [hzj] at a4
  obtain rfl := Option.some.inj a4
  exact ⟨d, s, m, t, E, hs, (List.getElem?_eq_some_iff.mp hm).1, a1, a2, a3, rfl⟩

/-- Every dof of the sub-element on an entity of the cell is a dof of the view. -/
theorem entity_view (h : SpaceOk sh e I R) {num : Nat → Nat → Nat → Nat → Nat → Nat} (hn : DofsNumbered I R num) {info : Nat → Nat → Nat}
    {path : List Nat} (hne : path ≠ []) {o st : Nat} {e' : Elem} (hp : part e path = some (o, st, e')) {V : Maps}
    (hV : IsView e I R info path V) {r c d s m t E : Nat} (hr : r < I.P) (hc : c < Dofmap.numCells I r 0) (hs : s < sh.getD d 0)
    (hm : m < (full e' d s).length) (hS : SlotOf I r c d s t E) :
    ∃ l, l < e'.dim ∧ (V.D r).dof c l = some (e.bs * num r d t E ((before e path d s + st * m) / e.bs) + o % e.bs) := by
  obtain ⟨v1, v2, v3, v4⟩ := isView_dof h hn hne hp hV hr
  have he' := part_ok h.elem hp
  have hg' := part_all h.good hp
  obtain ⟨t', E', a1, a2, a3, a4⟩ := raw_part h hn hp hr hc hs (List.getElem?_eq_getElem hm)
  obtain ⟨rfl, rfl⟩ := slotOf_unique h (slot_dim h hs).1 hS a1
  have hperm := perm_entity (info r c) hs e' he' hg' (partRow I R e.bs o st e'.dim r c) (by simp [partRow])
  have hmem := hperm.mem_iff.mpr (List.mem_filterMap.mpr ⟨_, List.getElem_mem hm, a4⟩)
  obtain ⟨l, hl, hzl⟩ := List.mem_filterMap.mp hmem
  have hl' := full_lt hs e' he' hg' hl
  exact ⟨l, hl', by rw [v4 c hc l hl', hzl]; rfl⟩

theorem mem_arr {V : DofMap} {e' : Elem} (he' : e'.Ok sh) {nc : Nat} (hV : V.IsFor e' nc) (h1 : V.bs = 1) (x : Nat) :
    x ∈ V.arr ↔ ∃ c l, c < nc ∧ l < e'.dim ∧ V.dof c l = some x := by
  obtain ⟨w1, w2, w3, w4⟩ := isFor_width he' hV
  rw [h1, Nat.mul_one] at w1
  have hd : ∀ c l, l < e'.dim → V.dof c l = V.arr[e'.dim * c + l]? := by
    intro c l hl
    rw [dof_one h1]
    unfold DofMap.cellDofs
    rw [List.getElem?_take, w1, if_pos hl, List.getElem?_drop]
  constructor
  · intro hx
    obtain ⟨i, hi⟩ := List.mem_iff_getElem?.mp hx
    have hlt := (List.getElem?_eq_some_iff.mp hi).1
    rw [w4, w1, Nat.mul_comm] at hlt
    refine ⟨i / e'.dim, i % e'.dim, Nat.div_lt_of_lt_mul hlt, Nat.mod_lt _ (by omega), ?_⟩
    rw [hd _ _ (Nat.mod_lt _ (by omega)), Nat.div_add_mod]
    exact hi
  · rintro ⟨c, l, hc, hl, hx⟩
    rw [hd c l hl] at hx
    exact List.mem_of_getElem? hx

/-- A view of an element without blocks. -/
theorem space_viewOk (h : SpaceOk sh e I R) {num : Nat → Nat → Nat → Nat → Nat → Nat} (hn : DofsNumbered I R num) {info : Nat → Nat → Nat}
    {path : List Nat} (hne : path ≠ []) {o st : Nat} {e' : Elem} (hp : part e path = some (o, st, e')) (hb : e'.bs = 1) {V : Maps}
    (hV : IsView e I R info path V) : ViewOk V sh e' (fun r => Dofmap.numCells I r 0) e.bs (o % e.bs) := by
  have hP : V.W.P = I.P := by rw [hV.W, hn.P]
  have hbs := bs_pos sh e h.elem
  have hv := fun r (hr : r < V.W.P) => isView_dof h hn hne hp hV (hP ▸ hr : r < I.P)
  refine ⟨part_ok h.elem hp, hb, by rw [hV.W]; exact hn.valid, hbs, fun r hr => (hv r hr).1, fun r hr => (hv r hr).2.2.1,
    fun r hr => (hv r hr).2.1, ?_⟩
  intro r hr x hx
  obtain ⟨c, l, hc, hl, hd⟩ := (mem_arr (part_ok h.elem hp) (hv r hr).1 (hv r hr).2.2.1 x).mp hx
  obtain ⟨d, s, m, t, E, a1, a2, a3, a4, a5, rfl⟩ := view_entity h hn hne hp hV (hP ▸ hr) hc hl hd
  have := hn.numbering.lt r (hP ▸ hr) d t E _ a4 a5
  rw [Nat.mul_add_mod, Nat.mod_mod, Nat.mul_add_div hbs, Nat.div_eq_of_lt (Nat.mod_lt _ hbs), Nat.add_zero, hV.W]
  exact ⟨rfl, this⟩

theorem maps_ok (h : SpaceOk sh e I R) {d t j : Nat} (hd : Props.HasDof I d t j) : (I.maps d t).P = I.P ∧ (I.maps d t).Valid := by
  obtain ⟨hdD, i, s0, ds, hi, g1, g2, g3⟩ := hd
  exact h.topo.valid d hdD t (List.getElem?_eq_some_iff.mp g2).1

/-- The owner of a dof of the view has it in its view. -/
theorem space_owners (h : SpaceOk sh e I R) {num : Nat → Nat → Nat → Nat → Nat → Nat} (hn : DofsNumbered I R num) {info : Nat → Nat → Nat}
    {path : List Nat} (hne : path ≠ []) {o st : Nat} {e' : Elem} (hp : part e path = some (o, st, e')) {V : Maps}
    (hV : IsView e I R info path V) (ht : Touched I) : OwnersHave V e.bs := by
  have hP : V.W.P = I.P := by rw [hV.W, hn.P]
  have hbs := bs_pos sh e h.elem
  have he' := part_ok h.elem hp
  have hg' := part_all h.good hp
  intro r hr x hx g q hg ho
  rw [hP] at hr
  obtain ⟨v1, v2, v3, v4⟩ := isView_dof h hn hne hp hV hr
  obtain ⟨c, l, hc, hl, hd⟩ := (mem_arr he' v1 v3 x).mp hx
  obtain ⟨d, s, m, t, E, a1, a2, a3, a4, a5, rfl⟩ := view_entity h hn hne hp hV hr hc hl hd
  rw [Nat.mul_add_div hbs, Nat.div_eq_of_lt (Nat.mod_lt _ hbs), Nat.add_zero, hV.W] at hg
  rw [hV.W] at ho
  obtain ⟨m1, m2⟩ := maps_ok h a4
  obtain ⟨eg, heg⟩ := Props.globalOf_some (I.maps d t) r E a5
  have hown := (hn.numbering.owner r hr d t E _ a4 a5 g eg hg heg q).mp ho
  have hq : q < I.P := by have := hown.1; omega
  have hE' : eg - (I.maps d t).r0 q < (I.maps d t).size q := by have := hown.2; omega
  have hgE' := Props.owner_has (I.maps d t) q eg hown
  have hlt : eg - (I.maps d t).r0 q < numEnts I q d t := by unfold numEnts; omega
  obtain ⟨c', s', k1, k2, k3⟩ := touched_slot h ht hq a4 hlt
  have htype : I.etype 0 d s = I.etype 0 d s' := Option.some.inj (a3.1.symm.trans k3.1)
  obtain ⟨l', b1, b2⟩ := entity_view h hn hne hp hV hq k1 k2 (m := m) (by rw [← full_even a1 k2 htype e' he' hg']; exact a2) k3
  obtain ⟨u1, u2, u3, u4⟩ := isView_dof h hn hne hp hV hq
  refine ⟨_, (mem_arr he' u1 u3 _).mpr ⟨c', l', k1, b1, b2⟩, ?_⟩
  rw [Nat.mul_add_div hbs, Nat.div_eq_of_lt (Nat.mod_lt _ hbs), Nat.add_zero, hV.W, ← before_even a1 k2 htype h.elem h.good path, ← hg]
  exact ((hn.numbering.same q hq r hr d t _ _ d t E _ a4 hlt a4 a5).mpr ⟨rfl, rfl, rfl, hgE'.trans heg.symm⟩)

/-! ## Blocked sub-spaces -/

theorem part_stride {e : Elem} {path : List Nat} {o st bs : Nat} {b : Basix} (h : part e path = some (o, st, .blocked bs b)) : st = 1 := by
  induction path generalizing e o with
  | nil => simp [part] at h; omega
  | cons i path ih =>
    cases e with
    | base b' => exact absurd (part_base h).1 (by simp)
    | blocked bs' b' => have := (part_blocked h).2.2.2.2; cases this
    | mixed es =>
      obtain ⟨e1, o2, h1, h2, _⟩ := part_mixed h
      exact ih h2

theorem part_bs {e : Elem} {path : List Nat} (hne : path ≠ []) {o st bs : Nat} {b : Basix} (h : part e path = some (o, st, .blocked bs b)) :
    e.bs = 1 := by
  cases path with
  | nil => exact absurd rfl hne
  | cons i path =>
    cases e with
    | base b' => rfl
    | blocked bs' b' => have := (part_blocked h).2.2.2.2; cases this
    | mixed es => rfl

end

end Verif.SubSpace
