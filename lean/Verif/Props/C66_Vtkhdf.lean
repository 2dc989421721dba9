import Verif.Lemmas.VtkhdfMesh
/-!
# C66: meshes are the same after they are written to and read from VTKHDF files
-/
namespace Verif.Props
open Verif.Vtkhdf Verif.Spec
open Verif.CellPerm (Err)
open Verif.Connectivity (CellType)

/-- A written cell: the number of the type in VTK, and the same nodes, listed in VTK's order. -/
def Written (c : Kind × List Int) (f : Nat × List Int) : Prop :=
  f.1 = vtkNumberOf c.1.type ∧ f.2.Perm c.2 ∧
    ∀ P V, VtkOrder c.1.type c.1.nodes P V → ∀ pos, PlacedAt c.2 pos P → PlacedAt f.2 pos V

/-- A cell that was read: the same nodes, listed in the order of DOLFINx. -/
def ReadBack (t : CellType) (f : Nat × List Int) (row : List Int) : Prop :=
  row.Perm f.2 ∧ ∀ P V, VtkOrder t f.2.length P V → ∀ pos, PlacedAt f.2 pos V → PlacedAt row pos P

theorem globRow_length (m : Mesh α) (r : Nat) (row : List Nat) : (globRow m r row).length = row.length := by simp [globRow]

theorem ownedCells_mem (m : Mesh α) (hm : MeshValid m) (c : Kind × List Int) (h : c ∈ ownedCells m) :
    c.1 ∈ m.kinds ∧ c.2.length = c.1.nodes := by
  simp only [ownedCells, List.mem_flatMap, List.mem_map, List.mem_range] at h
  obtain ⟨r, hr, k, hk, row, hrow, rfl⟩ := h
  refine ⟨hk, ?_⟩
  simp only [List.length_map]
  exact hm.width r hr k hk row (List.mem_of_mem_take hrow)

theorem rankCells_owned (m : Mesh α) :
    (List.range m.geom.P).flatMap (rankCells m) = (ownedCells m).map fun c => (vtkType c.1.type, vtkRow (table c.1) c.2) := by
  simp only [ownedCells, List.map_flatMap, List.map_map]
  rfl

theorem kind_tables (m : Mesh α) (hm : MeshValid m) (k : Kind) (hk : k ∈ m.kinds) : ∃ p, Tables k.type k.nodes (table k) p := by
  obtain ⟨⟨P, V, ho⟩, hN⟩ := hm.order k hk
  obtain ⟨t, p, hT⟩ := tables k.type k.nodes P V ho hN
  have : table k = t := by rw [table, hT.map]
  exact ⟨p, this ▸ hT⟩

/-- Every owned cell of a mesh that is distributed over any number of processes is described once in the file, with
its type and its nodes in VTK's order, and row `g` of the points holds the coordinates of node `g`. Only the last type of
cells may have ghost cells, and the connectivity has less than `2 ^ 31` entries. -/
theorem C66_write_partial (m : Mesh α) (hm : MeshValid m) (hg : GhostsLast m) (hs : entries m < 2147483648) :
    ∃ f cs, writeMesh m = .ok f ∧ Describes f cs ∧ List.Forall₂ Written (ownedCells m) cs ∧ f.npoints = f.points.length ∧
      f.points = (List.range m.geom.P).flatMap fun r => (m.x r).take (m.geom.size r) := by
  obtain ⟨f, hf, hp, hn, hd⟩ := writeMesh_ok m hm hg hs
  refine ⟨f, _, hf, hd, ?_, hn, hp⟩
  rw [rankCells_owned, List.forall₂_map_right_iff, List.forall₂_same]
  intro c hc
  obtain ⟨hk, hl⟩ := ownedCells_mem m hm c hc
  obtain ⟨p, hT⟩ := kind_tables m hm c.1 hk
  exact ⟨by cases c.1.type <;> rfl, (hT.mix c.2 hl).2, fun P V ho pos hpos => hT.write P V ho c.2 pos hl hpos⟩

/-- Reading, with the rows given by `rowOf`. -/
theorem C66_aux_read (f : File α) (cs : List (Nat × List Int)) (h : Describes f cs) (hp : f.npoints = f.points.length)
    (hr : ∀ c ∈ cs, ∃ t d, VtkNumber c.1 t d ∧ c.2.length = lagrangeNodes t d ∧ d ≤ 255 ∧ c.2.length ≤ 65536)
    (Q gdim : Nat) (hQ : 0 < Q) (hg : gdim ≤ 3) :
    ∃ res, readMesh f Q gdim = .ok res ∧ res.cells.length = Q ∧ res.points.length = Q ∧
      res.points.flatten = f.points.map (·.take gdim) ∧
      (∀ (i : Nat) t d, res.kinds[i]? = some (t, d) → ∃ ty rows, VtkNumber ty t d ∧
        List.Forall₂ (ReadBack t) (cs.filter fun c => decide (c.1 = ty ∧ c.2.length = lagrangeNodes t d)) rows ∧ rows ≠ [] ∧
        res.cells.flatMap (fun q => q i) = rows.flatten) ∧
      (∀ c ∈ cs, ∃ (i : Nat) (t : CellType) (d : Nat), res.kinds[i]? = some (t, d) ∧ VtkNumber c.1 t d ∧
        c.2.length = lagrangeNodes t d ∧ res.cells.flatMap (fun q => q i) =
          (cs.filter fun c' => decide (c'.1 = c.1 ∧ c'.2.length = lagrangeNodes t d)).flatMap rowOf) := by
  have hr' : ∀ c ∈ cs, ∃ t d, Readable c t d := hr
  refine ⟨_, readMesh_ok f cs h hr' hp Q gdim hQ hg, by simp, by simp, ?_, ?_, ?_⟩
  · simp only [← List.flatMap_def]
    rw [← List.map_flatMap, parts_all _ _ hQ]
  · intro i t d hi
    simp only [List.getElem?_map, Option.map_eq_some_iff] at hi
    obtain ⟨k, hk, he⟩ := hi
    obtain ⟨c, hc, rfl⟩ := (mem_allKinds cs Q hQ k).1 (List.mem_of_getElem? hk)
    obtain ⟨t', d', hrd⟩ := hr' c hc
    have hko := kindOf_eq c t' d' hrd
    have hnum := hrd.1
    obtain ⟨deg, hv, -⟩ := number_degree _ _ _ hnum
    rw [hko] at he hk
    simp only [typeOf, hv, Prod.mk.injEq] at he
    obtain ⟨rfl, rfl⟩ := he
    have hidx : ∀ c'' ∈ cs, (decide (i = (allKinds cs Q).idxOf (kindOf c'')) = true ↔ kindOf c'' = (c.1, d')) := by
      intro c'' hc''
      have hm := (mem_allKinds cs Q hQ _).2 ⟨c'', hc'', rfl⟩
      rw [decide_eq_true_eq]
      have hlt := List.idxOf_lt_length_of_mem hm
      have hget : (allKinds cs Q)[(allKinds cs Q).idxOf (kindOf c'')]? = some (kindOf c'') := by
        rw [List.getElem?_eq_getElem hlt, List.getElem_idxOf]
      constructor
      · intro he
        rw [← he, hk] at hget
        exact (Option.some.inj hget).symm
      · intro he
        rw [he] at hget hlt ⊢
        obtain ⟨h1, h2⟩ := List.getElem?_eq_some_iff.1 hk
        obtain ⟨h3, h4⟩ := List.getElem?_eq_some_iff.1 hget
        exact (allKinds_nodup cs Q).getElem_inj_iff.1 (h2.trans h4.symm)
    have hfil : (cs.filter fun c'' => decide (i = (allKinds cs Q).idxOf (kindOf c''))) =
        cs.filter fun c'' => decide (c''.1 = c.1 ∧ c''.2.length = lagrangeNodes t' d') := by
      apply List.filter_congr
      intro c'' hc''
      obtain ⟨t2, d2, hrd2⟩ := hr' c'' hc''
      rw [Bool.eq_iff_iff, hidx c'' hc'', kind_iff c'' t' t2 d' d2 c.1 hrd2 hnum, decide_eq_true_eq]
    refine ⟨c.1, (cs.filter fun c'' => decide (c''.1 = c.1 ∧ c''.2.length = lagrangeNodes t' d')).map rowOf, hnum, ?_, ?_, ?_⟩
    · rw [List.forall₂_map_right_iff, List.forall₂_same]
      intro c'' hc''
      rw [List.mem_filter, decide_eq_true_eq] at hc''
      obtain ⟨hcm, h1, h2⟩ := hc''
      obtain ⟨t2, d2, hrd2⟩ := hr' c'' hcm
      obtain ⟨m, p, hT, hrow⟩ := rowOf_eq c'' t2 d2 hrd2
      have ht : t2 = t' := by
        obtain ⟨deg2, hv2, -⟩ := number_degree _ _ _ hrd2.1
        rw [h1, hv] at hv2
        cases hv2
        rfl
      subst ht
      rw [hrow]
      exact ⟨(hT.mix c''.2 rfl).1, fun P V ho pos hpos => hT.read P V ho c''.2 pos rfl hpos⟩
    · intro he
      have : c ∈ cs.filter fun c'' => decide (c''.1 = c.1 ∧ c''.2.length = lagrangeNodes t' d') := by
        rw [List.mem_filter, decide_eq_true_eq]
        exact ⟨hc, rfl, hrd.2.1⟩
      rw [List.map_eq_nil_iff] at he
      rw [he] at this
      cases this
    · rw [← List.flatMap_def, ← hfil, ← cells_all cs Q hQ, List.flatMap_map]
  · intro c hc
    obtain ⟨t, d, hrd⟩ := hr' c hc
    have hko := kindOf_eq c t d hrd
    have hm := (mem_allKinds cs Q hQ _).2 ⟨c, hc, rfl⟩
    have hlt := List.idxOf_lt_length_of_mem hm
    obtain ⟨deg, hv, -⟩ := number_degree _ _ _ hrd.1
    refine ⟨(allKinds cs Q).idxOf (kindOf c), t, d, ?_, hrd.1, hrd.2.1, ?_⟩
    · rw [List.getElem?_map, List.getElem?_eq_getElem hlt, List.getElem_idxOf, hko]
      simp [typeOf, hv]
    · rw [List.flatMap_map, cells_all cs Q hQ (fun c'' => decide ((allKinds cs Q).idxOf (kindOf c) = (allKinds cs Q).idxOf (kindOf c'')))]
      congr 1
      apply List.filter_congr
      intro c'' hc''
      obtain ⟨t2, d2, hrd2⟩ := hr' c'' hc''
      rw [Bool.eq_iff_iff, decide_eq_true_eq, decide_eq_true_eq, ← kind_iff c'' t t2 d d2 c.1 hrd2 hrd.1, ← hko, List.idxOf_inj hm]
      exact eq_comm

/-- A file that describes cells of the readable types is read on any number of processes: each process gets part of
the cells and points; together these are the cells of the file (sorted by type and degree, nodes in the order of
DOLFINx) and its points. -/
theorem C66_read (f : File α) (cs : List (Nat × List Int)) (h : Describes f cs) (hp : f.npoints = f.points.length)
    (hr : ∀ c ∈ cs, ∃ t d, VtkNumber c.1 t d ∧ c.2.length = lagrangeNodes t d ∧ d ≤ 255 ∧ c.2.length ≤ 65536)
    (Q gdim : Nat) (hQ : 0 < Q) (hg : gdim ≤ 3) :
    ∃ res, readMesh f Q gdim = .ok res ∧ res.cells.length = Q ∧ res.points.length = Q ∧
      res.points.flatten = f.points.map (·.take gdim) ∧
      (∀ (i : Nat) t d, res.kinds[i]? = some (t, d) → ∃ ty rows, VtkNumber ty t d ∧
        List.Forall₂ (ReadBack t) (cs.filter fun c => decide (c.1 = ty ∧ c.2.length = lagrangeNodes t d)) rows ∧ rows ≠ [] ∧
        res.cells.flatMap (fun q => q i) = rows.flatten) ∧
      ∀ c ∈ cs, ∃ (i : Nat) (t : CellType) (d : Nat) (rows : List (List Int)), res.kinds[i]? = some (t, d) ∧ VtkNumber c.1 t d ∧
        c.2.length = lagrangeNodes t d ∧ res.cells.flatMap (fun q => q i) = rows.flatten ∧
        List.Forall₂ (ReadBack t) (cs.filter fun c' => decide (c'.1 = c.1 ∧ c'.2.length = lagrangeNodes t d)) rows := by
  obtain ⟨res, h1, h2, h3, h4, h5, h6⟩ := C66_aux_read f cs h hp hr Q gdim hQ hg
  refine ⟨res, h1, h2, h3, h4, h5, fun c hc => ?_⟩
  obtain ⟨i, t, d, h7, h8, h9, h10⟩ := h6 c hc
  refine ⟨i, t, d, (cs.filter fun c' => decide (c'.1 = c.1 ∧ c'.2.length = lagrangeNodes t d)).map rowOf, h7, h8, h9, ?_, ?_⟩
  · rw [h10, List.flatMap_def]
  · rw [List.forall₂_map_right_iff, List.forall₂_same]
    intro c'' hc''
    rw [List.mem_filter, decide_eq_true_eq] at hc''
    obtain ⟨hcm, h11, h12⟩ := hc''
    obtain ⟨t2, d2, hrd2⟩ := hr c'' hcm
    obtain ⟨m, p, hT, hrow⟩ := rowOf_eq c'' t2 d2 hrd2
    have ht : t2 = t := by
      obtain ⟨deg, hv, -⟩ := number_degree _ _ _ h8
      obtain ⟨deg2, hv2, -⟩ := number_degree _ _ _ hrd2.1
      rw [h11, hv] at hv2
      cases hv2
      rfl
    subst ht
    rw [hrow]
    exact ⟨(hT.mix c''.2 rfl).1, fun P V ho pos hpos => hT.read P V ho c''.2 pos rfl hpos⟩

theorem vtkType_inj (a b : CellType) (h : vtkType a = vtkType b) : a = b := by
  cases a <;> cases b <;> first | rfl | (exact absurd h (by decide))

theorem supported_number {t : CellType} {d : Nat} (h : Supported t d) : VtkNumber (vtkType t) t d ∧ d ≤ 255 := by
  cases t <;> simp only [Supported] at h
  · subst h; exact ⟨.point, by decide⟩
  · exact ⟨.lagrangeCurve d h.1, h.2⟩
  · exact ⟨.lagrangeTriangle d h.1, h.2⟩
  · exact ⟨.lagrangeQuadrilateral d h.1, h.2⟩
  · exact ⟨.lagrangeTetrahedron d h.1, h.2⟩
  all_goals first | exact ⟨.lagrangeHexahedron d h.1, h.2⟩ | (subst h; first | exact ⟨.pyramid, by decide⟩ | exact ⟨.lagrangeWedge, by decide⟩)

/-- A mesh that is written by any number of processes and read by any number of processes has the same cells, with
the nodes in the same order, and the same coordinates. This holds for intervals, triangles, quadrilaterals, tetrahedra and
hexahedra of all degrees up to 255 and for linear prisms and pyramids. -/
theorem C66_roundtrip_partial (m : Mesh α) (hm : MeshValid m) (hg : GhostsLast m) (hs : entries m < 2147483648)
    (hsup : ∀ k ∈ m.kinds, ∃ d, Supported k.type d ∧ k.nodes = lagrangeNodes k.type d)
    (Q gdim : Nat) (hQ : 0 < Q) (hgd : gdim ≤ 3) :
    ∃ f res, writeMesh m = .ok f ∧ readMesh f Q gdim = .ok res ∧ res.cells.length = Q ∧ res.points.length = Q ∧
      res.points.flatten = ((List.range m.geom.P).flatMap fun r => (m.x r).take (m.geom.size r)).map (·.take gdim) ∧
      res.kinds.Nodup ∧ (∀ x ∈ res.kinds, ∃ c ∈ ownedCells m, c.1.type = x.1 ∧ c.1.nodes = lagrangeNodes x.1 x.2) ∧
      ∀ c ∈ ownedCells m, ∃ (i d : Nat), res.kinds[i]? = some (c.1.type, d) ∧ c.1.nodes = lagrangeNodes c.1.type d ∧
        res.cells.flatMap (fun q => q i) =
          ((ownedCells m).filter fun c' => decide (c'.1.type = c.1.type ∧ c'.1.nodes = c.1.nodes)).flatMap Prod.snd := by
  have hk : ∀ k ∈ m.kinds, ∃ d, VtkNumber (vtkType k.type) k.type d ∧ k.nodes = lagrangeNodes k.type d ∧ d ≤ 255 := by
    intro k hkm
    obtain ⟨d, hd, hn⟩ := hsup k hkm
    obtain ⟨h1, h2⟩ := supported_number hd
    exact ⟨d, h1, hn, h2⟩
  obtain ⟨f, hf, hp, hn, hd⟩ := writeMesh_ok m hm hg hs
  rw [rankCells_owned] at hd
  have hlen : ∀ c ∈ ownedCells m, (vtkRow (table c.1) c.2).length = c.1.nodes := by
    intro c hc
    obtain ⟨hkm, hl⟩ := ownedCells_mem m hm c hc
    obtain ⟨p, hT⟩ := kind_tables m hm c.1 hkm
    rw [vtkRow_length, hT.lenM]
  have hread : ∀ c ∈ ownedCells m, ∃ d, Readable (vtkType c.1.type, vtkRow (table c.1) c.2) c.1.type d := by
    intro c hc
    obtain ⟨hkm, hl⟩ := ownedCells_mem m hm c hc
    obtain ⟨d, hnum, hnd, h255⟩ := hk c.1 hkm
    exact ⟨d, hnum, by rw [← hnd]; exact hlen c hc, h255, by rw [hlen c hc]; exact (hm.order c.1 hkm).2⟩
  have hr : ∀ c ∈ (ownedCells m).map fun c => (vtkType c.1.type, vtkRow (table c.1) c.2), ∃ t d, Readable c t d := by
    intro c0 hc0
    obtain ⟨c, hc, rfl⟩ := List.mem_map.1 hc0
    obtain ⟨d, h⟩ := hread c hc
    exact ⟨_, d, h⟩
  have hrow : ∀ c ∈ ownedCells m, rowOf (vtkType c.1.type, vtkRow (table c.1) c.2) = c.2 := by
    intro c hc
    obtain ⟨hkm, hl⟩ := ownedCells_mem m hm c hc
    obtain ⟨p, hT⟩ := kind_tables m hm c.1 hkm
    obtain ⟨d, h⟩ := hread c hc
    obtain ⟨m', p', hT', hr'⟩ := rowOf_eq _ _ d h
    simp only [hlen c hc] at hT'
    have hpp := hT'.perm
    rw [hT.perm] at hpp
    cases hpp
    rw [hr']
    exact hT.back c.2 hl
  obtain ⟨res, h1, h2, h3, h4, h5, h6⟩ := C66_aux_read f _ hd hn hr Q gdim hQ hgd
  have hres := readMesh_ok f _ hd hr hn Q gdim hQ hgd
  rw [h1] at hres
  have hkinds : res.kinds = (allKinds ((ownedCells m).map fun c => (vtkType c.1.type, vtkRow (table c.1) c.2)) Q).map
      fun k => (typeOf k.1, k.2) := congrArg Parts.kinds (Except.ok.inj hres)
  refine ⟨f, res, hf, h1, h2, h3, by rw [h4, hp], ?_, ?_, ?_⟩
  · rw [hkinds]
    refine List.Nodup.map_on ?_ (allKinds_nodup _ Q)
    intro x hx y hy he
    obtain ⟨cx, hcx, rfl⟩ := (mem_allKinds _ Q hQ x).1 hx
    obtain ⟨cy, hcy, rfl⟩ := (mem_allKinds _ Q hQ y).1 hy
    obtain ⟨cx, hcx, rfl⟩ := List.mem_map.1 hcx
    obtain ⟨cy, hcy, rfl⟩ := List.mem_map.1 hcy
    have ht : ∀ t, typeOf (vtkType t) = t := by intro t; cases t <;> rfl
    simp only [kindOf, ht, Prod.mk.injEq] at he ⊢
    exact ⟨by rw [he.1], he.2⟩
  · intro x hx
    rw [hkinds] at hx
    obtain ⟨k, hkm, rfl⟩ := List.mem_map.1 hx
    obtain ⟨c0, hc0, rfl⟩ := (mem_allKinds _ Q hQ k).1 hkm
    obtain ⟨c, hc, rfl⟩ := List.mem_map.1 hc0
    obtain ⟨d, h⟩ := hread c hc
    have ht : ∀ t, typeOf (vtkType t) = t := by intro t; cases t <;> rfl
    rw [kindOf_eq _ _ d h]
    refine ⟨c, hc, (ht _).symm, ?_⟩
    simp only [ht]
    rw [← hlen c hc]
    exact h.2.1
  · intro c hc
    obtain ⟨i, t, d, h7, h8, h9, h10⟩ := h6 _ (List.mem_map.2 ⟨c, hc, rfl⟩)
    obtain ⟨d', hrd⟩ := hread c hc
    have ht : t = c.1.type := by
      obtain ⟨deg, hv, -⟩ := number_degree _ _ _ h8
      obtain ⟨deg2, hv2, -⟩ := number_degree _ _ _ hrd.1
      rw [hv] at hv2
      cases hv2
      rfl
    subst ht
    simp only [hlen c hc] at h9
    refine ⟨i, d, h7, h9, ?_⟩
    rw [h10, List.filter_map, List.flatMap_map, ← h9]
    have hfil : ((ownedCells m).filter ((fun c' : Nat × List Int => decide (c'.1 = vtkType c.1.type ∧ c'.2.length = c.1.nodes)) ∘
        fun c => (vtkType c.1.type, vtkRow (table c.1) c.2))) =
        (ownedCells m).filter fun c' => decide (c'.1.type = c.1.type ∧ c'.1.nodes = c.1.nodes) := by
      apply List.filter_congr
      intro c' hc'
      simp only [Function.comp, hlen c' hc']
      rw [Bool.eq_iff_iff, decide_eq_true_eq, decide_eq_true_eq]
      exact ⟨fun h => ⟨vtkType_inj _ _ h.1, h.2⟩, fun h => ⟨by rw [h.1], h.2⟩⟩
    rw [hfil]
    apply List.flatMap_congr
    intro c' hc'
    exact hrow c' (List.mem_filter.1 hc').1

/-! ## What does not hold -/

theorem ok_of {β : Type} (x : Except Err β) (y : β) (h : x.toOption = some y) : x = .ok y := by
  cases x with
  | error e => cases h
  | ok z => cases h; rfl

/-- The error, if there is one. -/
def errorOf {β : Type} : Except Err β → Option Err
  | .error e => some e
  | .ok _ => none

theorem error_of {β : Type} (x : Except Err β) (e : Err) (h : errorOf x = some e) : x = .error e := by
  cases x with
  | error e' => cases h; rfl
  | ok z => cases h

/-- What can be compared of the result of reading: kinds, and cells of the first two kinds on every process. -/
def partsView (x : Except Err (Parts Nat)) : Option (List (CellType × Nat) × List (List Int) × List (List Int)) :=
  x.toOption.map fun r => (r.kinds, r.cells.map fun q => q 0, r.cells.map fun q => q 1)

theorem view_of (x : Except Err (Parts Nat)) (k : List (CellType × Nat)) (a b : List (List Int)) (h : partsView x = some (k, a, b)) :
    ∃ r, x = .ok r ∧ r.kinds = k ∧ (r.cells.map fun q => q 0) = a ∧ (r.cells.map fun q => q 1) = b := by
  cases x with
  | error e => cases h
  | ok r =>
    simp only [partsView, Except.toOption, Option.map_some, Option.some.injEq, Prod.mk.injEq] at h
    exact ⟨r, rfl, h.1, h.2.1, h.2.2⟩

/-- Two processes; process 0 owns a prism, process 1 owns a pyramid and has the prism as ghost cell. -/
def mixedMesh : Mesh Nat where
  kinds := [⟨.prism, 6, fun r => if r = 0 then 1 else 0, fun _ => [[0, 1, 2, 3, 4, 5].map fun v => v]⟩,
    ⟨.pyramid, 5, fun r => if r = 1 then 1 else 0, fun r => if r = 1 then [[1, 2, 4, 5, 0]] else []⟩]
  geom := ⟨2, fun r => if r = 0 then 6 else 1, fun r => if r = 1 then [0, 1, 2, 3, 4] else [], fun r => if r = 1 then [0, 0, 0, 0, 0] else []⟩
  x := fun r => if r = 0 then [[0, 0, 0], [1, 0, 0], [0, 1, 0], [0, 0, 1], [1, 0, 1], [0, 1, 1]] else [[2, 2, 2]]

theorem mixedMesh_valid : MeshValid mixedMesh where
  coords := by decide
  owned := by
    intro r hr k hk
    simp only [mixedMesh, List.mem_cons, List.not_mem_nil, or_false] at hk hr
    rcases hk with rfl | rfl <;> interval_cases r <;> decide
  width := by
    intro r hr k hk
    simp only [mixedMesh, List.mem_cons, List.not_mem_nil, or_false] at hk hr
    rcases hk with rfl | rfl <;> interval_cases r <;> decide
  nodes := by
    intro r hr k hk row hrow v hv
    have : (globalOf mixedMesh.geom r v).isSome = true := by
      simp only [mixedMesh, List.mem_cons, List.not_mem_nil, or_false] at hk hr
      revert v
      revert row
      rcases hk with rfl | rfl <;> interval_cases r <;> decide
    exact Option.isSome_iff_exists.1 this
  order := by
    intro k hk
    simp only [mixedMesh, List.mem_cons, List.not_mem_nil, or_false] at hk
    rcases hk with rfl | rfl
    · exact ⟨⟨_, _, .prism 6 (by omega)⟩, by decide⟩
    · exact ⟨⟨_, _, .pyramid 5 (by omega)⟩, by decide⟩

/-- Ghost cells are counted in the offsets: a mesh with several types of cells and with ghost cells is written to a file
that does not describe any cells, and that cannot be read. -/
theorem C66_refuted_ghosts : MeshValid mixedMesh ∧ entries mixedMesh < 2147483648 ∧
    ∃ f, writeMesh mixedMesh = .ok f ∧ (∀ cs, ¬ Describes f cs) ∧ readMesh f 1 3 = .error .range := by
  refine ⟨mixedMesh_valid, by decide +kernel, ⟨[[0, 0, 0], [1, 0, 0], [0, 1, 0], [0, 0, 1], [1, 0, 1], [0, 1, 1], [2, 2, 2]], 7,
    [0, 6, 12], [0, 1, 2, 3, 4, 5, 0, 1, 4, 3, 6], [73, 14]⟩, ok_of _ _ (by decide +kernel), ?_, error_of _ _ (by decide +kernel)⟩
  intro cs h
  have h1 := h.length
  have h2 := h.offsets cs.length (le_refl _)
  have h3 := congrArg List.length h.connectivity
  have hl : cs.length = 2 := by simpa using h1.symm
  rw [List.length_flatten, List.map_map] at h3
  have h4 : ((cs.take cs.length).map fun x => x.2.length) = cs.map (List.length ∘ Prod.snd) := by rw [List.take_length]; rfl
  rw [h4, ← h3, hl] at h2
  simp at h2

/-- One type of cells and one process. -/
def oneKind (t : CellType) (N n : Nat) (row : List Nat) : Mesh Nat where
  kinds := [⟨t, N, fun _ => n, fun _ => List.replicate n row⟩]
  geom := ⟨1, fun _ => N, fun _ => [], fun _ => []⟩
  x := fun _ => List.replicate N [0, 0, 0]

theorem oneKind_valid (t : CellType) (N n : Nat) (row : List Nat) (hrow : row.length = N) (hv : ∀ v ∈ row, v < N)
    (ho : ∃ P V, VtkOrder t N P V) (hN : N ≤ 65536) : MeshValid (oneKind t N n row) ∧ GhostsLast (oneKind t N n row) := by
  refine ⟨⟨?_, ?_, ?_, ?_, ?_⟩, ?_⟩
  · intro r _
    simp [oneKind]
  · intro r _ k hk
    simp only [oneKind, List.mem_singleton] at hk
    subst hk
    simp
  · intro r _ k hk row' hr
    simp only [oneKind, List.mem_singleton] at hk
    subst hk
    rw [(List.mem_replicate.1 hr).2, hrow]
  · intro r _ k hk row' hr v hvr
    simp only [oneKind, List.mem_singleton] at hk
    subst hk
    rw [(List.mem_replicate.1 hr).2] at hvr
    have h : v < (oneKind t N n row).geom.size r := hv v hvr
    exact ⟨_, by rw [globalOf, if_pos h]⟩
  · intro k hk
    simp only [oneKind, List.mem_singleton] at hk
    subst hk
    exact ⟨ho, hN⟩
  · intro r _ i hi
    simp [oneKind] at hi

theorem write_fails (m : Mesh α) (h : innerProduct (m.kinds.map fun k => (k.nodes, k.start m.geom.P)) < 0) (f : File α) : writeMesh m ≠ .ok f := by
  intro hf
  simp only [writeMesh, bind, Except.bind] at hf
  split at hf
  · cases hf
  split at hf
  · cases hf
  split at hf
  · cases hf
  rw [writeDataset, if_pos h] at hf
  cases hf

theorem oneKind_size (t : CellType) (N n : Nat) (row : List Nat) :
    innerProduct ((oneKind t N n row).kinds.map fun k => (k.nodes, k.start (oneKind t N n row).geom.P)) = wrap32 ((N : Int) * (n : Int)) := by
  have h : (oneKind t N n row).kinds.map (fun k => (k.nodes, k.start (oneKind t N n row).geom.P)) = [(N, n)] := by
    simp [oneKind, Kind.start, Offsets.excl]
  rw [h, innerProduct, List.foldl_cons, List.foldl_nil, Int.zero_add]

theorem wrap_negative (n : Nat) (h0 : 268435456 ≤ n) (h1 : n < 536870912) : wrap32 (((8 : Nat) : Int) * (n : Int)) < 0 := by
  rw [wrap32]
  omega

/-- The sizes of the data sets are added up in 32 bit integers: a mesh of `2 ^ 28` hexahedra cannot be written. -/
theorem C66_refuted_large (n : Nat) (h0 : 268435456 ≤ n) (h1 : n < 536870912) :
    MeshValid (oneKind .hexahedron 8 n [0, 1, 2, 3, 4, 5, 6, 7]) ∧ GhostsLast (oneKind .hexahedron 8 n [0, 1, 2, 3, 4, 5, 6, 7]) ∧
    ∀ f, writeMesh (oneKind .hexahedron 8 n [0, 1, 2, 3, 4, 5, 6, 7]) ≠ .ok f := by
  obtain ⟨hv, hg⟩ := oneKind_valid .hexahedron 8 n [0, 1, 2, 3, 4, 5, 6, 7] rfl (by decide)
    ⟨_, _, .hexahedron 1 (by omega)⟩ (by omega)
  refine ⟨hv, hg, write_fails _ ?_⟩
  rw [oneKind_size]
  exact wrap_negative n h0 h1

/-- Prisms of degree two can be written, but not be read. -/
theorem C66_refuted_prism : MeshValid (oneKind .prism 18 1 (List.range 18)) ∧ GhostsLast (oneKind .prism 18 1 (List.range 18)) ∧
    lagrangeNodes .prism 2 = 18 ∧ ∃ f, writeMesh (oneKind .prism 18 1 (List.range 18)) = .ok f ∧ readMesh f 1 3 = .error .layout := by
  obtain ⟨h1, h2⟩ := oneKind_valid .prism 18 1 (List.range 18) (by simp) (by simp) ⟨_, _, .prism 18 (by omega)⟩ (by omega)
  exact ⟨h1, h2, rfl, ⟨List.replicate 18 [0, 0, 0], 18, [0, 18], [0, 1, 2, 3, 4, 5, 6, 9, 7, 12, 14, 13, 8, 10, 11, 15, 17, 16], [73]⟩,
    ok_of _ _ (by decide +kernel), error_of _ _ (by decide +kernel)⟩

/-- Pyramids of degree two are read as pyramids of degree one, for which the cells have too many nodes. -/
theorem C66_refuted_pyramid : MeshValid (oneKind .pyramid 14 1 (List.range 14)) ∧ GhostsLast (oneKind .pyramid 14 1 (List.range 14)) ∧
    lagrangeNodes .pyramid 2 = 14 ∧ lagrangeNodes .pyramid 1 = 5 ∧ ∃ f res, writeMesh (oneKind .pyramid 14 1 (List.range 14)) = .ok f ∧
      readMesh f 1 3 = .ok res ∧ res.kinds = [(.pyramid, 1)] ∧ (res.cells.flatMap fun q => q 0).length = 14 := by
  obtain ⟨h1, h2⟩ := oneKind_valid .pyramid 14 1 (List.range 14) (by simp) (by simp) ⟨_, _, .pyramid 14 (by omega)⟩ (by omega)
  obtain ⟨r, hr, hk, hc, -⟩ := view_of (readMesh (⟨List.replicate 14 [0, 0, 0], 14, [0, 14], [0, 1, 3, 2, 4, 5, 8, 10, 6, 7, 9, 12, 11, 13], [14]⟩ : File Nat) 1 3)
    [(.pyramid, 1)] [List.range' 0 14] [[]] (by decide +kernel)
  refine ⟨h1, h2, rfl, rfl, _, r, ok_of _ _ (by decide +kernel), hr, hk, ?_⟩
  rw [List.flatMap_def, hc]
  rfl

/-! ## Examples -/

/-- Two types of cells on two processes, without ghost cells: a hexahedron and two pyramids. -/
def mixedOwned : Mesh Nat where
  kinds := [⟨.hexahedron, 8, fun r => if r = 0 then 1 else 0, fun r => if r = 0 then [[0, 1, 2, 3, 4, 5, 6, 7]] else []⟩,
    ⟨.pyramid, 5, fun _ => 1, fun r => if r = 0 then [[4, 5, 6, 7, 8]] else [[1, 2, 3, 4, 0]]⟩]
  geom := ⟨2, fun r => if r = 0 then 9 else 1, fun r => if r = 1 then [0, 1, 2, 3] else [], fun r => if r = 1 then [0, 0, 0, 0] else []⟩
  x := fun r => if r = 0 then [[0, 0, 0], [1, 0, 0], [0, 1, 0], [1, 1, 0], [0, 0, 1], [1, 0, 1], [0, 1, 1], [1, 1, 1], [1, 1, 2]] else [[5, 5, 5]]

example : MeshValid mixedOwned ∧ GhostsLast mixedOwned ∧ entries mixedOwned = 18 := by
  refine ⟨⟨by decide, ?_, ?_, ?_, ?_⟩, ?_, by decide⟩
  · intro r hr k hk
    simp only [mixedOwned, List.mem_cons, List.not_mem_nil, or_false] at hk hr
    rcases hk with rfl | rfl <;> interval_cases r <;> decide
  · intro r hr k hk
    simp only [mixedOwned, List.mem_cons, List.not_mem_nil, or_false] at hk hr
    rcases hk with rfl | rfl <;> interval_cases r <;> decide
  · intro r hr k hk row hrow v hv
    have : (globalOf mixedOwned.geom r v).isSome = true := by
      simp only [mixedOwned, List.mem_cons, List.not_mem_nil, or_false] at hk hr
      revert v
      revert row
      rcases hk with rfl | rfl <;> interval_cases r <;> decide
    exact Option.isSome_iff_exists.1 this
  · intro k hk
    simp only [mixedOwned, List.mem_cons, List.not_mem_nil, or_false] at hk
    rcases hk with rfl | rfl
    · exact ⟨⟨_, _, .hexahedron 1 (by omega)⟩, by decide⟩
    · exact ⟨⟨_, _, .pyramid 5 (by omega)⟩, by decide⟩
  · intro r hr i hi k hk
    have : i = 0 := by simp only [mixedOwned, List.length_cons, List.length_nil] at hi; omega
    subst this
    simp only [mixedOwned, List.getElem?_cons_zero, Option.some.injEq] at hk hr
    subst hk
    interval_cases r <;> decide

/-- The file, and what three processes read. -/
example : ∃ f res, writeMesh mixedOwned = .ok f ∧ f.offsets = [0, 8, 13, 18] ∧ f.types = [72, 14, 14] ∧
    f.connectivity = [0, 1, 3, 2, 4, 5, 7, 6, 4, 5, 7, 6, 8, 0, 1, 3, 2, 9] ∧ readMesh f 3 2 = .ok res ∧
    res.kinds = [(.pyramid, 1), (.hexahedron, 1)] ∧ (res.cells.map fun q => q 0) = [[], [4, 5, 6, 7, 8], [0, 1, 2, 3, 9]] ∧
    (res.cells.map fun q => q 1) = [[0, 1, 2, 3, 4, 5, 6, 7], [], []] := by
  obtain ⟨r, hr, hk, h0, h1⟩ := view_of (readMesh (⟨[[0, 0, 0], [1, 0, 0], [0, 1, 0], [1, 1, 0], [0, 0, 1], [1, 0, 1], [0, 1, 1], [1, 1, 1],
    [1, 1, 2], [5, 5, 5]], 10, [0, 8, 13, 18], [0, 1, 3, 2, 4, 5, 7, 6, 4, 5, 7, 6, 8, 0, 1, 3, 2, 9], [72, 14, 14]⟩ : File Nat) 3 2)
    [(.pyramid, 1), (.hexahedron, 1)] [[], [4, 5, 6, 7, 8], [0, 1, 2, 3, 9]] [[0, 1, 2, 3, 4, 5, 6, 7], [], []] (by decide +kernel)
  exact ⟨_, r, ok_of _ _ (by decide +kernel), rfl, rfl, rfl, hr, hk, h0, h1⟩

end Verif.Props
