import Verif.Lemmas.Xdmf
import Verif.Lemmas.WorldCheck
import Verif.Props.C73_EntityData
/-!
# C74: meshes and tags survive XDMF files
-/
namespace Verif.Props.C74
open Verif.Xdmf Verif.Spec Verif.Spec.Xdmf Verif.CellPerm Verif.Std
open Verif.Connectivity (CellType)
open Verif.Vtkhdf (part parts_all vtkRow vtkRow_length vtkRow_perm)

variable {α V : Type}

theorem numVertices_pos (t : CellType) : 0 < numVertices t := by cases t <;> decide

theorem not_flat (t : CellType) : ¬ (cellDim t = 2 ∧ (t = .prism ∨ t = .pyramid)) := by cases t <;> decide

theorem addTopology_ok (m : Mesh α) (dim n d : Nat) (ents : Nat → List Nat) (hn : (m.closure dim 0).length = n)
    (hs : (entityType m.type dim, n, d) ∈ supported) (base : Nat → Nat → List Int) {p vm : List Nat} (K : Known (entityType m.type dim) n p vm)
    (hb : ∀ r < m.geom.P, ∀ e ∈ ents r, entityRow m dim r vm e = some (vtkRow vm (base r e)))
    {name : Name} (hname : vtkCellTypeStr (entityType m.type dim) n = .ok name) :
    ∃ rows, rows = (List.range m.geom.P).flatMap (fun r => (ents r).map fun e => vtkRow vm (base r e)) ∧
      addTopologyData m dim ents = .ok ⟨name, ⟨[rows.length, n], [rows.length, n], rows⟩⟩ := by
  refine ⟨_, rfl, ?_⟩
  have h1 : ((List.range m.geom.P).mapM fun r => (ents r).mapM (entityRow m dim r vm)) =
      some ((List.range m.geom.P).map fun r => (ents r).map fun e => vtkRow vm (base r e)) :=
    mapM_some _ _ _ fun r hr => mapM_some _ _ _ fun e he => hb r (List.mem_range.1 hr) e he
  simp only [addTopologyData, if_neg (not_flat m.type), hn, hname, K.perm, K.map, bind, Except.bind, h1, checked, addDataItem_ok, pure,
    Except.pure]
  rfl

theorem part_map {β γ : Type} (f : β → γ) (l : List β) (Q q : Nat) : part (l.map f) Q q = (part l Q q).map f := by
  simp only [part, List.length_map, List.map_drop, List.map_take]

theorem readTopology_ok {t : CellType} {n d : Nat} {p vm : List Nat} (K : Known t n p vm) (name : Name) (hname : getCellType name = .ok (t, d))
    (L : List (List Int)) (hL : L ≠ []) (hrow : ∀ row ∈ L, row.length = n) (Q q : Nat) (hq : q < Q) (rows : List (List Int))
    (hrows : rows = L.map (vtkRow vm)) :
    readTopologyData ⟨name, ⟨[rows.length, n], [rows.length, n], rows⟩⟩ q Q = .ok ((part L Q q).flatten, n) := by
  have hn : 0 < n := lt_of_lt_of_le (numVertices_pos t) K.enough
  have hne : rows ≠ [] := by rw [hrows]; simpa using hL
  have hw : ∀ row ∈ part rows Q q, row.length = n := by
    intro row h
    have h := part_sub _ _ _ _ h
    rw [hrows] at h
    obtain ⟨x, _, rfl⟩ := List.mem_map.1 h
    rw [vtkRow_length, K.lenM]
  have hlen : (part rows Q q).flatten.length / n = (part rows Q q).length := by
    rw [flatten_length _ n hw, Nat.mul_div_cancel _ hn]
  simp only [readTopologyData, hname, bind, Except.bind, List.getElem?_cons_succ, List.getElem?_cons_zero, getDataset_ok n rows hne Q q hq, hlen,
    readVtk_rows t n p K.perm K.lenP K.ltP _ hw, pure, Except.pure]
  congr 3
  rw [hrows, part_map, List.map_map]
  have : ∀ row ∈ part L Q q, (vtkRow p ∘ vtkRow vm) row = row := fun row h => vtkRow_back K row (hrow row (part_sub _ _ _ _ h))
  rw [List.map_congr_left this, List.map_id']

theorem entityRow_cell (m : Mesh α) (n : Nat) (hc : CellsOk m n) {t : CellType} {p vm : List Nat} (K : Known t n p vm) (r : Nat) (hr : r < m.geom.P) (c : Nat)
    (h : c < (m.dofmap r).length) : entityRow m (cellDim m.type) r vm c = some (vtkRow vm (globalRow m r ((m.dofmap r).getD c []))) := by
  have hmem : (m.dofmap r).getD c [] ∈ m.dofmap r := by rw [getD_at _ _ h]; exact List.getElem_mem _
  have hw := hc.width r hr _ hmem
  have hg : (m.dofmap r)[c]? = some ((m.dofmap r).getD c []) := by rw [getD_at _ _ h]; exact List.getElem?_eq_getElem h
  simp only [entityRow, if_true, hg, Option.bind_eq_bind, Option.bind_some]
  rw [nodeRow_ok m r n vm (List.range ((m.dofmap r).getD c []).length) _ (by rw [List.length_range, hw]) K.lenM K.ltM
    (fun d hd => List.mem_range.1 hd) (hc.nodes r hr _ hmem)]
  congr 3
  apply List.ext_getElem
  · simp
  · intro i h1 h2
    simp only [List.getElem_map, List.getElem_range]
    rw [getD_at _ _ h2]

theorem entityType_self (t : CellType) : entityType t (cellDim t) = t := by simp [entityType]

/-- The width of coordinates in the file. -/
theorem coords_row [Zero α] (m : Mesh α) (h : PointsOk m) (r : Nat) (hr : r < m.geom.P) (row : List α) (hrow : row ∈ m.x r) :
    row.take m.gdim ++ List.replicate ((if m.gdim = 1 then 2 else m.gdim) - m.gdim) 0 = row.take (if m.gdim = 3 then 3 else 2) := by
  have h3 := h.three r hr row hrow
  have h0 := h.zero r hr row hrow
  obtain ⟨h1, h2⟩ := h.gdim
  match row, h3 with
  | [a, b, c], _ =>
    generalize m.gdim = g at *
    interval_cases g
    · have := h0 1 (by omega) (by omega)
      simp only [List.getElem?_cons_succ, List.getElem?_cons_zero, Option.some.injEq] at this
      subst this
      rfl
    · rfl
    · rfl

/-- C74: a mesh that is written to an XDMF file on any number of processes and read on any number of processes has the same cells, with the same nodes in
the same order, of the same type, and the same coordinates, which are given by two numbers, or three in space.  In the file, the nodes of cells are in
VTK's order. -/
theorem C74_mesh_partial [Zero α] (m : Mesh α) (n d : Nat) (hs : (m.type, n, d) ∈ supported) (hc : CellsOk m n) (hp : PointsOk m)
    (hcells : cells m ≠ []) (hpoints : points m ≠ []) :
    ∃ t g, addMesh m = .ok (t, g) ∧ getCellType t.name = .ok (m.type, d) ∧ List.Forall₂ (VtkRow m.type) (cells m) t.item.rows ∧
      ∀ Q, ∃ (cs : Nat → List (List Int)) (xs : Nat → List (List α)),
        (∀ q < Q, readTopologyData t q Q = .ok ((cs q).flatten, n) ∧ ∀ row ∈ cs q, row.length = n) ∧
        (∀ q < Q, readGeometryData g q Q = .ok ((xs q).flatten, if m.gdim = 3 then 3 else 2) ∧
          ∀ row ∈ xs q, row.length = if m.gdim = 3 then 3 else 2) ∧
        (0 < Q → (List.range Q).flatMap cs = cells m ∧ (List.range Q).flatMap xs = (points m).map (·.take (if m.gdim = 3 then 3 else 2))) := by
  obtain ⟨p, vm, K⟩ := known m.type n d hs
  obtain ⟨name, hn1, hn2⟩ := known_name m.type n d hs
  have hnode : ∀ row ∈ cells m, row.length = n := by
    intro row h
    obtain ⟨r, hr, h⟩ := List.mem_flatMap.1 h
    obtain ⟨x, hx, rfl⟩ := List.mem_map.1 h
    rw [globalRow, List.length_map]
    exact hc.width r (List.mem_range.1 hr) x (List.mem_of_mem_take hx)
  obtain ⟨rows, hrows, htopo⟩ := addTopology_ok m (cellDim m.type) n d (fun r => List.range (m.owned (cellDim m.type) r))
    (by rw [hc.closure, List.length_range]) (by rw [entityType_self]; exact hs) (fun r c => globalRow m r ((m.dofmap r).getD c []))
    (by rw [entityType_self]; exact K)
    (fun r hr c hcc => entityRow_cell m n hc K r hr c (lt_of_lt_of_le (List.mem_range.1 hcc) (hc.owned r hr))) (by rw [entityType_self]; exact hn1)
  have hrows' : rows = (cells m).map (vtkRow vm) := by
    rw [hrows, cells, List.map_flatMap]
    apply List.flatMap_congr
    intro r hr
    rw [List.map_map]
    exact Verif.Vtkhdf.map_range_take (m.dofmap r) _ (hc.owned r (List.mem_range.1 hr)) (fun row => vtkRow vm (globalRow m r row)) []
  have hw : (if m.gdim = 1 then 2 else m.gdim) = if m.gdim = 3 then 3 else 2 := by
    obtain ⟨h1, h2⟩ := hp.gdim
    generalize m.gdim = g at *
    interval_cases g <;> rfl
  have hx : ((List.range m.geom.P).mapM fun r => (List.range (m.geom.size r)).mapM fun i => (m.x r)[i]?.map fun row =>
      row.take m.gdim ++ List.replicate ((if m.gdim = 1 then 2 else m.gdim) - m.gdim) 0) =
      some ((List.range m.geom.P).map fun r => ((m.x r).take (m.geom.size r)).map (·.take (if m.gdim = 3 then 3 else 2))) := by
    apply mapM_some
    intro r hr
    have hr := List.mem_range.1 hr
    rw [mapM_some _ _ fun i => ((m.x r).getD i []).take (if m.gdim = 3 then 3 else 2)]
    · congr 1
      exact Verif.Vtkhdf.map_range_take (m.x r) _ (hp.coords r hr) (fun row => row.take (if m.gdim = 3 then 3 else 2)) []
    · intro i hi
      have hi : i < (m.x r).length := lt_of_lt_of_le (List.mem_range.1 hi) (hp.coords r hr)
      rw [List.getElem?_eq_getElem hi, getD_at _ _ hi, Option.map_some, coords_row m hp r hr _ (List.getElem_mem _)]
  have hpt : ((List.range m.geom.P).map fun r => ((m.x r).take (m.geom.size r)).map (·.take (if m.gdim = 3 then 3 else 2))).flatten =
      (points m).map (·.take (if m.gdim = 3 then 3 else 2)) := by
    rw [points, List.map_flatMap, List.flatMap_def]
  have hgeo : addGeometryData m = .ok ⟨decide (m.gdim = 3), ⟨[((points m).map (·.take (if m.gdim = 3 then 3 else 2))).length, if m.gdim = 3 then 3 else 2],
      [((points m).map (·.take (if m.gdim = 3 then 3 else 2))).length, if m.gdim = 3 then 3 else 2],
      (points m).map (·.take (if m.gdim = 3 then 3 else 2))⟩⟩ := by
    have hg := hp.gdim
    simp only [addGeometryData, if_neg (show ¬ (m.gdim = 0 ∨ 3 < m.gdim) by omega), hx, checked, bind, Except.bind, pure, Except.pure, addDataItem_ok, hpt]
    rw [hw]
  refine ⟨_, _, by simp only [addMesh, htopo, hgeo, bind, Except.bind, pure, Except.pure]; rfl, hn2, ?_, ?_⟩
  · show List.Forall₂ _ _ rows
    rw [hrows', List.forall₂_map_right_iff, List.forall₂_same]
    intro row h
    have hl := hnode row h
    refine ⟨vtkRow_perm vm n K.permM row hl, ?_⟩
    intro P W ho pos hpos
    rw [hl] at ho
    obtain ⟨mm, pp, T⟩ := Verif.Vtkhdf.tables m.type n P W ho K.order
    have e1 : pp = p := by have := T.perm; rw [K.perm] at this; injection this with this; exact this.symm
    obtain ⟨t0, ht0, hP, hr⟩ := Verif.CellPerm.vtk_table m.type n P W ho K.order
    obtain ⟨p0, hp0, hpt0, -⟩ := Verif.CellPerm.reorder_main t0 n P W K.order hP hr
    have e2 : t0 = mm := by have := T.map; rw [ht0] at this; injection this
    have e3 : p0 = p := by
      have := K.perm
      simp only [permVtk, ht0, hp0, bind, Except.bind] at this
      injection this
    have e4 : vm = mm := by
      rw [e3, K.map, e2] at hpt0
      injection hpt0
    rw [e4]
    exact T.write P W ho row pos hl hpos
  · intro Q
    refine ⟨part (cells m) Q, part ((points m).map (·.take (if m.gdim = 3 then 3 else 2))) Q, ?_, ?_, ?_⟩
    · intro q hq
      exact ⟨readTopology_ok K name hn2 (cells m) hcells hnode Q q hq rows hrows', fun row h => hnode row (part_sub _ _ _ _ h)⟩
    · intro q hq
      constructor
      · by_cases h3 : m.gdim = 3
        · simp only [readGeometryData, h3, decide_true, if_true, List.length_cons, List.length_nil, List.getElem?_cons_succ, List.getElem?_cons_zero,
            Nat.zero_add, ne_eq, not_true_eq_false, or_self, if_false, bind, Except.bind, pure, Except.pure, Nat.reduceAdd]
          rw [getDataset_ok _ _ (by simpa using hpoints) Q q hq]
        · simp only [readGeometryData, h3, decide_false, if_false, List.length_cons, List.length_nil, List.getElem?_cons_succ, List.getElem?_cons_zero,
            Nat.zero_add, ne_eq, not_true_eq_false, or_self, if_false, bind, Except.bind, pure, Except.pure, Bool.false_eq_true, Nat.reduceAdd]
          rw [getDataset_ok _ _ (by simpa using hpoints) Q q hq]
      · intro row h
        obtain ⟨x, hx, rfl⟩ := List.mem_map.1 (part_sub _ _ _ _ h)
        obtain ⟨r, hr, hx⟩ := List.mem_flatMap.1 hx
        have := hp.three r (List.mem_range.1 hr) x (List.mem_of_mem_take hx)
        rw [List.length_take, this]
        split <;> rfl
    · intro hQ
      exact ⟨parts_all _ _ hQ, parts_all _ _ hQ⟩

/-! ## Tags -/

open Verif.Spec.EntityData (OkNodes Ok At Value allEnts)
open Verif.MeshTags (createMeshtags)

theorem active_iff (l : List Nat) (hl : l.Pairwise (· < ·)) (b k e : Nat) (hk : l[k]? = some e) :
    k < lowerBound (fun i => decide (i < b)) l ↔ e < b := by
  have hp : Partitioned (fun i => decide (i < b)) l := by
    intro i j hi hj hij h
    rcases Nat.lt_or_eq_of_le hij with hlt | rfl
    · have := List.pairwise_iff_getElem.1 hl i j hi hj hlt
      simp only [decide_eq_true_eq] at h ⊢
      omega
    · exact h
  obtain ⟨h1, h2, h3⟩ := lowerBound_spec _ l hp
  obtain ⟨hkl, rfl⟩ := List.getElem?_eq_some_iff.1 hk
  constructor
  · intro h; simpa using h2 k hkl h
  · intro h
    by_contra hc
    have := h3 k hkl (by omega)
    simp at this
    omega

theorem filter_take {vd l : List Nat} {nv : Nat} (h : VerticesFirst vd l nv) : (l.filter fun d => decide (d ∈ vd)) = l.take nv := by
  conv_lhs => rw [← List.take_append_drop nv l]
  rw [List.filter_append, List.filter_eq_self.2 (by intro d hd; simpa using h.1 d hd), List.filter_eq_nil_iff.2 (by intro d hd; simpa using h.2 d hd),
    List.append_nil]

/-- The row of an entity. -/
theorem entity_base (m : Mesh α) (vd : List Nat) (dim n N : Nat) (hE : EntitiesOk m vd dim n) (hC : CellEntities m dim n)
    (hN : ∀ r < m.geom.P, ∀ row ∈ m.dofmap r, ∀ v ∈ row, ∀ g, globalOf m.geom r v = some g → g < N) {t : CellType} {p vm : List Nat} (K : Known t n p vm)
    (r : Nat) (hr : r < m.geom.P) (e : Nat) (he : e < m.owned dim r) :
    ∃ row : List Int, entityRow m dim r vm e = some (vtkRow vm row) ∧ row.length = n ∧
      VertexNodes m vd dim r e (row.take (numVertices (entityType m.type dim))) ∧ ∀ x ∈ row, 0 ≤ x ∧ x < (N : Int) := by
  have main : ∀ (c j : Nat) (ents xs : List Nat), (m.c2e dim r)[c]? = some ents → ents[j]? = some e → (m.dofmap r)[c]? = some xs →
      (globalRow m r ((m.closure dim j).map fun d => xs.getD d 0)).length = n ∧
      VertexNodes m vd dim r e ((globalRow m r ((m.closure dim j).map fun d => xs.getD d 0)).take (numVertices (entityType m.type dim))) ∧
      (∀ x ∈ globalRow m r ((m.closure dim j).map fun d => xs.getD d 0), 0 ≤ x ∧ x < (N : Int)) ∧
      nodeRow (m.geom.map r) vm (m.closure dim j) xs = some (vtkRow vm (globalRow m r ((m.closure dim j).map fun d => xs.getD d 0))) := by
    intro c j ents xs h1 h2 h3
    have hents := List.mem_of_getElem? h1
    have hxs := List.mem_of_getElem? h3
    have hj : j < ents.length := (List.getElem?_eq_some_iff.1 h2).1
    have hd := hE.dofs r hr ents hents j hj xs hxs
    have hl := hE.length r hr ents hents j hj
    refine ⟨by simp [globalRow, hl], ⟨c, j, ents, xs, h1, h2, h3, ?_⟩, ?_, nodeRow_ok m r n vm _ xs hl K.lenM K.ltM hd (hE.nodes r hr xs hxs)⟩
    · rw [filter_take (hE.vertices r hr ents hents j hj)]
      simp only [globalRow, List.map_take]
    · intro x hx
      obtain ⟨v, hv, rfl⟩ := List.mem_map.1 hx
      obtain ⟨d, hd', rfl⟩ := List.mem_map.1 hv
      have hlt := hd d hd'
      have hmem : xs.getD d 0 ∈ xs := by rw [getD_at _ _ hlt]; exact List.getElem_mem _
      obtain ⟨g, hg⟩ := hE.nodes r hr xs hxs _ hmem
      have := hN r hr xs hxs _ hmem g hg
      rw [hg, Option.getD_some]
      omega
  by_cases hdim : dim = cellDim m.type
  · obtain ⟨hc1, hc2, hc3⟩ := hC hdim
    obtain ⟨h1, h2⟩ := hc3 r hr e he
    obtain ⟨c, cs, ents, xs, g1, g2, g3, g4⟩ := hE.cell r hr e he
    rw [h2] at g1
    simp only [Option.some.injEq, List.cons.injEq] at g1
    obtain ⟨rfl, rfl⟩ := g1
    obtain ⟨k1, k2, k3, k4⟩ := main e 0 [e] xs h1 rfl g4
    refine ⟨_, ?_, k1, k2, k3⟩
    rw [entityRow, if_pos hdim, g4, ← k4, hc1]
    simp only [Option.bind_eq_bind, Option.bind_some]
    rw [hc2 r hr xs (List.mem_of_getElem? g4)]
  · obtain ⟨c, cs, ents, xs, g1, g2, g3, g4⟩ := hE.cell r hr e he
    have hj : ents[ents.idxOf e]? = some e := by
      rw [List.getElem?_eq_getElem (List.idxOf_lt_length_iff.2 g3), List.getElem_idxOf]
    obtain ⟨k1, k2, k3, k4⟩ := main c (ents.idxOf e) ents xs g2 hj g4
    refine ⟨_, ?_, k1, k2, k3⟩
    rw [entityRow, if_neg hdim, g1]
    simp only [Option.bind_eq_bind, Option.bind_some, List.getElem?_cons_zero, g2, if_pos g3, g4, k4]

theorem part_zip {β γ : Type} (l : List β) (l' : List γ) (h : l.length = l'.length) (Q q : Nat) :
    (part l Q q).zip (part l' Q q) = part (l.zip l') Q q := by
  have hz : (l.zip l').length = l.length := by rw [List.length_zip]; omega
  simp only [part, hz, ← h]
  simp only [List.zip, List.drop_zipWith, List.take_zipWith]

theorem part_length' {β : Type} (l : List β) (Q q : Nat) (hq : q < Q) :
    (part l Q q).length = (LocalRange.localRange q l.length Q).2 - (LocalRange.localRange q l.length Q).1 := by
  have := Verif.Vtkhdf.range_le Q l.length q hq
  rw [part, List.length_take, List.length_drop]
  omega

/-- What a process reads of tags. -/
theorem readTagData_ok {t : CellType} {n d : Nat} {p vm : List Nat} (K : Known t n p vm) (name : Name) (hname : getCellType name = .ok (t, d))
    (L : List (List Int)) (hL : L ≠ []) (hrow : ∀ row ∈ L, row.length = n) (vals : List V) (hv : vals.length = L.length) (Q q : Nat) (hq : q < Q)
    (rows : List (List Int)) (hrows : rows = L.map (vtkRow vm)) :
    readTagData (⟨name, ⟨[rows.length, n], [rows.length, n], rows⟩⟩,
      ⟨[(vals.map fun v => [v]).length, 1], [(vals.map fun v => [v]).length, 1], vals.map fun v => [v]⟩) q Q =
      .ok ((part (L.zip vals) Q q).map fun x => ((vtkRow p x.1).map Int.toNat, x.2)) := by
  have hn : 0 < n := lt_of_lt_of_le (numVertices_pos t) K.enough
  have hvne : (vals.map fun v => [v]) ≠ [] := by
    intro h0
    rw [List.map_eq_nil_iff] at h0
    rw [h0] at hv
    exact hL (List.length_eq_zero_iff.1 hv.symm)
  have hpart : ∀ row ∈ part L Q q, row.length = n := fun row h => hrow row (part_sub _ _ _ _ h)
  have hlen : (part L Q q).flatten.length / n = (part L Q q).length := by rw [flatten_length _ n hpart, Nat.mul_div_cancel _ hn]
  have hvals : (part (vals.map fun v => [v]) Q q).flatten = part vals Q q := by
    rw [part_map, ← List.flatMap_def, List.flatMap_singleton']
  have hpl : (part L Q q).length = (part vals Q q).length := by rw [part_length' _ _ _ hq, part_length' _ _ _ hq, hv]
  have hw : ∀ row ∈ (part L Q q).map (vtkRow p), row.length = n := by
    intro row h
    obtain ⟨x, _, rfl⟩ := List.mem_map.1 h
    rw [vtkRow_length, K.lenP]
  have hcut := cut_flatten ((part L Q q).map (vtkRow p)) n hw
  rw [List.length_map] at hcut
  simp only [readTagData, readTopology_ok K name hname L hL hrow Q q hq rows hrows, getDataset_ok 1 _ hvne Q q hq, hname, bind, Except.bind, hlen,
    readVtk_rows t n p K.perm K.lenP K.ltP _ hpart, hvals, if_neg (show ¬ (part vals Q q).length < (part L Q q).length by omega), hcut, pure, Except.pure]
  congr 1
  rw [← part_zip L vals hv.symm, List.map_map]
  rw [List.zip_map_left]
  rfl

theorem perm_toNat (l : List Int) (h : ∀ x ∈ l, 0 ≤ x) (ns : List Nat) : (l.map Int.toNat).Perm ns ↔ l.Perm (ns.map fun k : Nat => (k : Int)) := by
  have e1 : (l.map Int.toNat).map (fun k : Nat => (k : Int)) = l := by
    rw [List.map_map]
    conv_rhs => rw [← List.map_id l]
    apply List.map_congr_left
    intro x hx
    have := h x hx
    simp only [Function.comp_apply, id]
    omega
  have e2 : (ns.map fun k : Nat => (k : Int)).map Int.toNat = ns := by
    rw [List.map_map]
    conv_rhs => rw [← List.map_id ns]
    apply List.map_congr_left
    intro x _
    simp
  constructor
  · intro hp
    have := hp.map fun k : Nat => (k : Int)
    rwa [e1] at this
  · intro hp
    have := hp.map Int.toNat
    rwa [e2] at this

theorem vertexNodes_take {I : EntityData.Input V} {nv : Nat} (h : VerticesFirst I.vertexDofs I.layout nv) (row : List Nat)
    (hl : row.length = I.layout.length) : Verif.Spec.EntityData.vertexNodes I row = row.take nv := by
  have e : row.zip I.layout = (row.zip I.layout).take nv ++ (row.zip I.layout).drop nv := (List.take_append_drop _ _).symm
  have e1 : (row.zip I.layout).take nv = (row.take nv).zip (I.layout.take nv) := by simp only [List.zip, List.take_zipWith]
  have e2 : (row.zip I.layout).drop nv = (row.drop nv).zip (I.layout.drop nv) := by simp only [List.zip, List.drop_zipWith]
  rw [Verif.Spec.EntityData.vertexNodes, e, List.filter_append, e1, e2,
    List.filter_eq_self.2 (by intro x hx; simpa using h.1 x.2 (List.of_mem_zip hx).2),
    List.filter_eq_nil_iff.2 (by intro x hx; simpa using h.2 x.2 (List.of_mem_zip hx).2), List.append_nil, List.map_fst_zip]
  simp [hl]

theorem vtkRow_vertices {t : CellType} {n : Nat} {p vm : List Nat} (K : Known t n p vm) (row : List Int) (hl : row.length = n) :
    ((vtkRow p row).take (numVertices t)).Perm (row.take (numVertices t)) := by
  have h1 : (vtkRow p row).take (numVertices t) = (p.take (numVertices t)).map fun k => row.getD k 0 := by
    rw [vtkRow, List.map_take]
  have h2 := K.vertices.map fun k => row.getD k 0
  have h3 : ((List.range (numVertices t)).map fun k => row.getD k 0) = row.take (numVertices t) := by
    have := Verif.Vtkhdf.map_range_take row (numVertices t) (by rw [hl]; exact K.enough) id 0
    simpa using this
  rw [h1, ← h3]
  exact h2

theorem entity_dim (t : CellType) (dim : Nat) (h : dim ≤ cellDim t) : cellDim (entityType t dim) = dim := by
  have : dim ≤ 3 := le_trans h (by cases t <;> decide)
  interval_cases dim <;> cases t <;> first | rfl | (exact absurd h (by decide))

/-- C74: tags that are written to an XDMF file and read, on any numbers of processes, are at the same entities: on every process, an entity (owned or
ghost) has a tag if and only if the entity with the same vertex nodes had this tag on the process that owned it. -/
theorem C74_tags_partial [LinearOrder V] (m : Mesh α) (dim n d : Nat) (hdim : dim ≤ cellDim m.type) (hs : (entityType m.type dim, n, d) ∈ supported)
    (T : Target) (hQ : 0 < T.Q) (hE : EntitiesOk m T.vertexDofs dim n) (hC : CellEntities m dim n)
    (hN : ∀ r < m.geom.P, ∀ row ∈ m.dofmap r, ∀ v ∈ row, ∀ g, globalOf m.geom r v = some g → g < T.N)
    (t : Tags V) (ht : TagsOk m t) (hsome : ∃ r e v, OwnedTag m dim t r e v)
    (hT : Ok (T.input dim fun _ => ([] : List (List Nat × V)))) (hlay : (T.closure dim).length = n)
    (hfirst : VerticesFirst T.vertexDofs (T.closure dim) (numVertices (entityType m.type dim)))
    (hd : ∀ q < T.Q, DistinctEntities (T.etov dim q)) (enodes : Nat → Nat → List Nat)
    (hen : ∀ q < T.Q, ∀ (e : Nat) (vs : List Nat), (T.etov dim q)[e]? = some vs →
      List.Forall₂ (At (T.input dim fun _ => ([] : List (List Nat × V))) q) (enodes q e) vs) :
    ∃ f out, addMeshtags m dim t = .ok f ∧ readMeshtags f T = .ok out ∧ out.length = T.Q ∧ ∀ q < T.Q, ∃ ind vals, out[q]? = some (ind, vals) ∧
      ind.length = vals.length ∧ ind.Pairwise (· < ·) ∧ ∀ (i : Int) v, TagOf ind vals i v ↔ ∃ e : Nat, i = e ∧ e < (T.etov dim q).length ∧
        ∃ r e' ns, OwnedTag m dim t r e' v ∧ VertexNodes m T.vertexDofs dim r e' ns ∧ ns.Perm ((enodes q e).map fun k : Nat => (k : Int)) := by
  obtain ⟨p, vm, K⟩ := known _ n d hs
  obtain ⟨name, hn1, hn2⟩ := known_name _ n d hs
  have hbase := fun r hr e he => entity_base m T.vertexDofs dim n T.N hE hC hN K r hr e he
  choose! base hb1 hb2 hb3 hb4 using hbase
  -- the entities that are written
  have hact : ∀ r < m.geom.P, ∀ e ∈ (t.indices r).take (numActive m dim t r), e < m.owned dim r := by
    intro r hr e he
    obtain ⟨k, hk⟩ := List.mem_iff_getElem?.1 he
    rw [List.getElem?_take] at hk
    split at hk
    · rename_i hlt
      exact (active_iff _ (ht.sorted r hr) _ k e hk).1 hlt
    · cases hk
  obtain ⟨rows, hrows, htopo⟩ := addTopology_ok m dim n d (fun r => (t.indices r).take (numActive m dim t r)) hE.first hs base K
    (fun r hr e he => hb1 r hr e (hact r hr e he)) hn1
  obtain ⟨L, hL⟩ : ∃ L, L = (List.range m.geom.P).flatMap fun r => ((t.indices r).take (numActive m dim t r)).map (base r) := ⟨_, rfl⟩
  obtain ⟨vals, hvals⟩ : ∃ vals, vals = (List.range m.geom.P).flatMap fun r => (t.values r).take (numActive m dim t r) := ⟨_, rfl⟩
  have hrows' : rows = L.map (vtkRow vm) := by
    rw [hrows, hL, List.map_flatMap]
    apply List.flatMap_congr
    intro r _
    rw [List.map_map]; rfl
  have hvitem : addDataItem 1 ((List.range m.geom.P).map fun r => ((t.values r).take (numActive m dim t r)).map fun v => [v]) =
      .ok ⟨[(vals.map fun v => [v]).length, 1], [(vals.map fun v => [v]).length, 1], vals.map fun v => [v]⟩ := by
    rw [addDataItem_ok, hvals, List.map_flatMap, List.flatMap_def]
  have hzip : L.zip vals = (List.range m.geom.P).flatMap fun r =>
      (((t.indices r).take (numActive m dim t r)).map (base r)).zip ((t.values r).take (numActive m dim t r)) := by
    rw [hL, hvals]
    apply Verif.Exchange.zip_flatMap
    intro r hr
    rw [List.length_map, List.length_take, List.length_take, ht.length r (List.mem_range.1 hr)]
  have hlen : vals.length = L.length := by
    rw [hL, hvals, List.length_flatMap, List.length_flatMap]
    congr 1
    apply List.map_congr_left
    intro r hr
    rw [List.length_map, List.length_take, List.length_take, ht.length r (List.mem_range.1 hr)]
  have hmem : ∀ row v, (row, v) ∈ L.zip vals ↔ ∃ r e, OwnedTag m dim t r e v ∧ row = base r e := by
    intro row v
    rw [hzip, List.mem_flatMap]
    constructor
    · rintro ⟨r, hr, h⟩
      have hr := List.mem_range.1 hr
      obtain ⟨k, hk⟩ := List.mem_iff_getElem?.1 h
      rw [List.getElem?_zip_eq_some, List.getElem?_map, List.getElem?_take, List.getElem?_take] at hk
      split at hk
      · rename_i hlt
        obtain ⟨h1, h2⟩ := hk
        rw [Option.map_eq_some_iff] at h1
        obtain ⟨e, h1, h3⟩ := h1
        exact ⟨r, e, ⟨hr, (active_iff _ (ht.sorted r hr) _ k e h1).1 hlt, k, h1, h2⟩, h3.symm⟩
      · simp at hk
    · rintro ⟨r, e, ⟨hr, he, k, h1, h2⟩, rfl⟩
      refine ⟨r, List.mem_range.2 hr, List.mem_iff_getElem?.2 ⟨k, ?_⟩⟩
      have hlt := (active_iff _ (ht.sorted r hr) _ k e h1).2 he
      rw [List.getElem?_zip_eq_some, List.getElem?_map, List.getElem?_take, List.getElem?_take]
      have hlt' : k < numActive m dim t r := hlt
      simp only [if_pos hlt', h1, h2, Option.map_some]
      exact ⟨trivial, trivial⟩
  have hLmem : ∀ row ∈ L, ∃ r e, r < m.geom.P ∧ e < m.owned dim r ∧ row = base r e := by
    intro row h
    rw [hL] at h
    obtain ⟨r, hr, h⟩ := List.mem_flatMap.1 h
    obtain ⟨e, he, rfl⟩ := List.mem_map.1 h
    exact ⟨r, e, List.mem_range.1 hr, hact r (List.mem_range.1 hr) e he, rfl⟩
  have hrow : ∀ row ∈ L, row.length = n := by
    intro row h
    obtain ⟨r, e, hr, he, rfl⟩ := hLmem row h
    exact hb2 r hr e he
  have hLne : L ≠ [] := by
    obtain ⟨r, e, v, h⟩ := hsome
    have := (hmem (base r e) v).2 ⟨r, e, h, rfl⟩
    intro h0
    rw [h0] at this
    simp at this
  obtain ⟨F, hF⟩ : ∃ F : Topo × Item V, F = (⟨name, ⟨[rows.length, n], [rows.length, n], rows⟩⟩,
      ⟨[(vals.map fun v => [v]).length, 1], [(vals.map fun v => [v]).length, 1], vals.map fun v => [v]⟩) := ⟨_, rfl⟩
  have hwrite : addMeshtags m dim t = .ok F := by
    simp only [addMeshtags, htopo, hvitem, bind, Except.bind, pure, Except.pure, hF]
  have hread : ∀ q ∈ List.range T.Q, readTagData F q T.Q = .ok ((part (L.zip vals) T.Q q).map fun x => ((vtkRow p x.1).map Int.toNat, x.2)) := by
    intro q hq
    rw [hF]
    exact readTagData_ok K name hn2 L hLne hrow vals hlen T.Q q (List.mem_range.1 hq) rows hrows'
  have hdata := mapM_ok_map (List.range T.Q) (fun q => readTagData F q T.Q) _ hread
  obtain ⟨data, hdd⟩ : ∃ data, data = (List.range T.Q).map fun q => (part (L.zip vals) T.Q q).map fun x => ((vtkRow p x.1).map Int.toNat, x.2) := ⟨_, rfl⟩
  obtain ⟨I, hI⟩ : ∃ I, I = T.input dim fun q => data.getD q [] := ⟨_, rfl⟩
  have hents : ∀ q < T.Q, I.ents q = (part (L.zip vals) T.Q q).map fun x => ((vtkRow p x.1).map Int.toNat, x.2) := by
    intro q hq
    rw [hI]
    show data.getD q [] = _
    rw [hdd, getD_at _ _ (by simpa using hq)]
    simp
  have hall : allEnts I = (L.zip vals).map fun x => ((vtkRow p x.1).map Int.toNat, x.2) := by
    have hP : I.P = T.Q := by rw [hI]; rfl
    rw [allEnts, hP]
    conv_rhs => rw [← parts_all (L.zip vals) T.Q hQ]
    rw [List.map_flatMap]
    apply List.flatMap_congr
    intro q hq
    exact hents q (List.mem_range.1 hq)
  have hlayI : I.layout = T.closure dim := by rw [hI]; rfl
  have hvd : I.vertexDofs = T.vertexDofs := by rw [hI]; rfl
  have hOk : Ok I := by
    rw [hI]
    refine ⟨hT.vertexDofs, hT.layout, hT.numVert, hT.pos, ?_, hT.nodes, hT.cells, hT.vertex, hT.node⟩
    intro q hq x hx
    rw [← hI, hents q hq] at hx
    obtain ⟨y, hy, rfl⟩ := List.mem_map.1 hx
    obtain ⟨r, e, hr, he, hbe⟩ := hLmem y.1 (List.of_mem_zip (part_sub _ _ _ _ hy)).1
    constructor
    · show ((vtkRow p y.1).map Int.toNat).length = (T.closure dim).length
      rw [List.length_map, vtkRow_length, K.lenP, hlay]
    · intro k hk
      show k < T.N
      obtain ⟨z, hz, rfl⟩ := List.mem_map.1 hk
      rw [hbe] at hz
      obtain ⟨j, hj, rfl⟩ := List.mem_map.1 hz
      have hj' : j < (base r e).length := by rw [hb2 r hr e he]; exact K.ltP j hj
      have := hb4 r hr e he ((base r e).getD j 0) (by rw [getD_at _ _ hj']; exact List.getElem_mem _)
      omega
  have hverts : ∀ r < m.geom.P, ∀ e < m.owned dim r, ∀ ns : List Nat,
      (Verif.Spec.EntityData.vertexNodes I ((vtkRow p (base r e)).map Int.toNat)).Perm ns ↔
        ((base r e).take (numVertices (entityType m.type dim))).Perm (ns.map fun k : Nat => (k : Int)) := by
    intro r hr e he ns
    rw [vertexNodes_take (nv := numVertices (entityType m.type dim)) (by rw [hlayI, hvd]; exact hfirst) _
      (by rw [List.length_map, vtkRow_length, K.lenP, hlayI, hlay]), ← List.map_take]
    rw [← perm_toNat _ (fun x hx => (hb4 r hr e he x (List.mem_of_mem_take hx)).1)]
    have := (vtkRow_vertices K (base r e) (hb2 r hr e he)).map Int.toNat
    exact ⟨fun h => this.symm.trans h, fun h => this.trans h⟩
  have hval : ∀ (ns : List Nat) v, Value I ns v ↔
      ∃ r e' ns', OwnedTag m dim t r e' v ∧ VertexNodes m T.vertexDofs dim r e' ns' ∧ ns'.Perm (ns.map fun k : Nat => (k : Int)) := by
    intro ns v
    rw [Value, hall]
    constructor
    · rintro ⟨⟨x, hx, hxv, hxp⟩, -⟩
      obtain ⟨y, hy, rfl⟩ := List.mem_map.1 hx
      obtain ⟨r, e, ho, hbe⟩ := (hmem y.1 y.2).1 hy
      simp only at hxv hxp
      rw [hbe] at hxp
      exact ⟨r, e, _, by rw [← hxv]; exact ho, hb3 r ho.1 e ho.2.1, (hverts r ho.1 e ho.2.1 ns).1 hxp⟩
    · rintro ⟨r, e, ns', ho, hvn, hperm⟩
      have hp1 : ((base r e).take (numVertices (entityType m.type dim))).Perm (ns.map fun k : Nat => (k : Int)) :=
        (hE.same r ho.1 e _ _ (hb3 r ho.1 e ho.2.1) hvn).trans hperm
      refine ⟨⟨_, List.mem_map.2 ⟨(base r e, v), (hmem _ _).2 ⟨r, e, ho, rfl⟩, rfl⟩, rfl, (hverts r ho.1 e ho.2.1 ns).2 hp1⟩, ?_⟩
      intro x hx hxp
      obtain ⟨y, hy, rfl⟩ := List.mem_map.1 hx
      obtain ⟨r', e', ho', hbe⟩ := (hmem y.1 y.2).1 hy
      simp only at hxp ⊢
      rw [hbe] at hxp
      have hp2 := (hverts r' ho'.1 e' ho'.2.1 ns).1 hxp
      obtain ⟨rfl, rfl⟩ := hE.distinct r ho.1 r' ho'.1 e ho.2.1 e' ho'.2.1 _ _ (hb3 r ho.1 e ho.2.1) (hb3 r' ho'.1 e' ho'.2.1) (hp1.trans hp2.symm)
      obtain ⟨h1, _, k, h2, h3⟩ := ho
      obtain ⟨_, _, k', h4, h5⟩ := ho'
      have hkk : k = k' := by
        have hnd : (t.indices r).Nodup := (ht.sorted r h1).imp fun h => Nat.ne_of_lt h
        obtain ⟨l1, l2⟩ := List.getElem?_eq_some_iff.1 h2
        obtain ⟨l3, l4⟩ := List.getElem?_eq_some_iff.1 h4
        exact (hnd.getElem_inj_iff).1 (l2.trans l4.symm)
      subst hkk
      rw [h3] at h5
      injection h5 with h5
      exact le_of_eq h5
  obtain ⟨out0, hout0, hlen0, -⟩ := C73_distributed_partial hOk
  have hPI : I.P = T.Q := by rw [hI]; rfl
  have htags : ∀ q < T.Q, ∃ o t', out0[q]? = some o ∧ createMeshtags (T.etov dim q) (o.map Prod.fst) (o.map Prod.snd) = .ok t' ∧
      t'.indices.length = t'.values.length ∧ t'.indices.Pairwise (· < ·) ∧
      ∀ (i : Int) v, TagOf t'.indices t'.values i v ↔ ∃ e : Nat, i = e ∧ e < (T.etov dim q).length ∧ Value I (enodes q e) v := by
    intro q hq
    obtain ⟨out', o, t', g1, g2, g3, g4, g5, g6⟩ := C73_tags_partial hOk q (by rw [hPI]; exact hq) (T.etov dim q) (hd q hq) (enodes q) (by
      rw [hI]; exact hen q hq)
    rw [hout0] at g1
    injection g1 with g1
    subst g1
    exact ⟨o, t', g2, g3, g4, g5, g6⟩
  have hmap := mapM_ok_map out0.zipIdx (fun o : List (List Nat × V) × Nat =>
    match createMeshtags (T.etov dim o.2) (o.1.map Prod.fst) (o.1.map Prod.snd) with
    | .ok t => (.ok (t.indices, t.values) : Except Err (List Int × List V))
    | .error _ => .error .layout) (fun o : List (List Nat × V) × Nat =>
    match createMeshtags (T.etov dim o.2) (o.1.map Prod.fst) (o.1.map Prod.snd) with
    | .ok t => (t.indices, t.values)
    | .error _ => ([], [])) (by
      intro o ho
      rw [List.mem_zipIdx_iff_getElem?] at ho
      have hlt : o.2 < T.Q := by rw [← hPI, ← hlen0]; exact (List.getElem?_eq_some_iff.1 ho).1
      obtain ⟨o', t', g1, g2, -⟩ := htags o.2 hlt
      rw [ho] at g1
      injection g1 with g1
      rw [g1, g2])
  obtain ⟨res, hres, hresl, hresg⟩ : ∃ res : List (List Int × List V), out0.zipIdx.mapM (fun o : List (List Nat × V) × Nat =>
      match createMeshtags (T.etov dim o.2) (o.1.map Prod.fst) (o.1.map Prod.snd) with
      | .ok t => (.ok (t.indices, t.values) : Except Err (List Int × List V))
      | .error _ => .error .layout) = .ok res ∧ res.length = out0.length ∧
      ∀ (q : Nat) o t', out0[q]? = some o → createMeshtags (T.etov dim q) (o.map Prod.fst) (o.map Prod.snd) = .ok t' →
        res[q]? = some (t'.indices, t'.values) := by
    refine ⟨_, hmap, by rw [List.length_map, List.length_zipIdx], ?_⟩
    intro q o t' g1 g2
    rw [List.getElem?_map, List.getElem?_zipIdx, g1]
    simp only [Option.map_some, Nat.zero_add, g2]
  refine ⟨F, res, hwrite, ?_, ?_, ?_⟩
  · have hnameF : getCellType F.1.name = .ok (entityType m.type dim, d) := by rw [hF]; exact hn2
    simp only [readMeshtags, hdata, hnameF, bind, Except.bind, entity_dim m.type dim hdim]
    rw [← hdd, ← hI, hout0]
    simp only [checked]
    exact hres
  · rw [hresl, hlen0, hPI]
  · intro q hq
    obtain ⟨o, t', g1, g2, g3, g4, g5⟩ := htags q hq
    refine ⟨t'.indices, t'.values, hresg q o t' g1 g2, g3, g4, ?_⟩
    intro i v
    rw [g5]
    simp only [hval]

/-! ## What is not true -/

theorem ok_of' {β : Type} [DecidableEq β] (x : Except Err β) (b : β) (h : (match x with | .ok c => decide (c = b) | .error _ => false) = true) : x = .ok b := by
  cases x with
  | ok c => simp only [decide_eq_true_eq] at h; rw [h]
  | error e => cases h

theorem error_of' {β : Type} (x : Except Err β) (b : Err) (h : (match x with | .ok _ => false | .error c => decide (c = b)) = true) : x = .error b := by
  cases x with
  | error c => simp only [decide_eq_true_eq] at h; rw [h]
  | ok e => cases h

/-- C74 is false for cubic triangles and tetrahedra: they are written, but never read. -/
theorem C74_refuted_cubic [Zero α] (m : Mesh α) (n : Nat) (hs : (m.type, n) = (.triangle, 10) ∨ (m.type, n) = (.tetrahedron, 20)) (hc : CellsOk m n)
    (t : Topo) (g : Geom α) (h : addMesh m = .ok (t, g)) (q Q : Nat) : readTopologyData t q Q = .error .layout := by
  have hn : (m.closure (cellDim m.type) 0).length = n := by rw [hc.closure, List.length_range]
  have hname : ∀ name, vtkCellTypeStr m.type n = .ok name → getCellType name = .error .layout := by
    rcases hs with hs | hs <;> simp only [Prod.mk.injEq] at hs <;> obtain ⟨h1, h2⟩ := hs <;> rw [h1, h2] <;> intro name h <;> cases h <;> rfl
  simp only [addMesh, addTopologyData, if_neg (not_flat m.type), hn, entityType_self, bind, Except.bind] at h
  cases hv : vtkCellTypeStr m.type n with
  | error e => simp [hv] at h
  | ok name =>
    have ht : t.name = name := by
      simp only [hv] at h
      split at h
      · cases h
      · rename_i _ x hx
        split at h
        · cases h
        · simp only [pure, Except.pure, Except.ok.injEq, Prod.mk.injEq] at h
          obtain ⟨rfl, _⟩ := h
          split at hx
          · cases hx
          · split at hx
            · cases hx
            · split at hx
              · cases hx
              · split at hx
                · cases hx
                · cases hx; rfl
    simp only [readTopologyData, ht, hname name hv, bind, Except.bind]

/-- One cubic triangle. -/
def cubicTriangle : Mesh Nat where
  type := .triangle
  gdim := 2
  geom := ⟨1, fun _ => 10, fun _ => [], fun _ => []⟩
  x := fun _ => (List.range 10).map fun i => [i, i * i, 0]
  closure := fun _ _ => List.range 10
  dofmap := fun _ => [List.range 10]
  owned := fun _ _ => 1
  e2c := fun _ _ => [[0]]
  c2e := fun _ _ => [[0]]

example : CellsOk cubicTriangle 10 ∧ ((addMesh cubicTriangle).toOption.map fun f => f.1.item.rows) = some [[0, 1, 2, 7, 8, 3, 4, 6, 5, 9]] := by
  refine ⟨⟨rfl, fun _ _ => le_refl _, ?_, ?_⟩, by decide +kernel⟩
  · intro r _ row h
    obtain rfl : row = List.range 10 := by simpa [cubicTriangle] using h
    rfl
  · intro r hr row h v hv
    obtain rfl : row = List.range 10 := by simpa [cubicTriangle] using h
    have : v < 10 := List.mem_range.1 hv
    exact ⟨cubicTriangle.geom.r0 r + v, if_pos this⟩

/-- Quadrilaterals with eight nodes, whose name is known when files are read, are never read, and never written. -/
theorem C74_refuted_quad8 (it : Item Int) (k : Nat) (hd : it.dims = [k, 8]) (q Q : Nat) :
    (∃ e, readTopologyData ⟨.quadrilateral8, it⟩ q Q = .error e) ∧ getCellType .quadrilateral8 = .ok (.quadrilateral, 2) ∧
      permVtk .quadrilateral 8 = .error .layout := by
  have hp : permVtk .quadrilateral 8 = .error .layout := error_of' _ _ (by decide +kernel)
  refine ⟨?_, rfl, hp⟩
  simp only [readTopologyData, getCellType, bind, Except.bind, hd, List.getElem?_cons_succ, List.getElem?_cons_zero]
  cases getDataset it q Q with
  | error e => exact ⟨e, rfl⟩
  | ok l => exact ⟨.layout, by simp only [readVtk, hp, bind, Except.bind]⟩

/-- HDF5 data that is one flat array, as it may be according to the comments, is never read: process 0 fails. -/
theorem C74_refuted_flat (n w size : Nat) : ∃ e, datasetRange [n, w] [n * w] 0 size = .error e := by
  unfold datasetRange
  split
  · exact ⟨_, rfl⟩
  · rw [if_neg (by simp), if_pos ⟨by simp, rfl⟩]
    simp only
    split
    · exact ⟨_, rfl⟩
    · exact ⟨_, rfl⟩

/-- A prism whose quadrilateral facet 1 has a tag. -/
def prismMesh : Mesh Nat where
  type := .prism
  gdim := 3
  geom := ⟨1, fun _ => 6, fun _ => [], fun _ => []⟩
  x := fun _ => [[0, 0, 0], [1, 0, 0], [0, 1, 0], [0, 0, 1], [1, 0, 1], [0, 1, 1]]
  closure := fun d e => if d = 2 then [[0, 1, 2], [0, 1, 3, 4], [0, 2, 3, 5], [1, 2, 4, 5], [3, 4, 5]].getD e [] else List.range 6
  dofmap := fun _ => [[0, 1, 2, 3, 4, 5]]
  owned := fun d _ => if d = 2 then 5 else 1
  e2c := fun d _ => if d = 2 then [[0], [0], [0], [0], [0]] else [[0]]
  c2e := fun d _ => if d = 2 then [[0, 1, 2, 3, 4]] else [[0]]

/-- Tags on facets of prisms are meant to be refused by an exception, but the test for it compares the dimension of the cells with 2, so that it
never holds; the tables are then used outside of their range. -/
theorem C74_refuted_prism : addMeshtags prismMesh 2 (⟨fun _ => [1], fun _ => [7]⟩ : Tags Nat) = .error .range ∧
    ∀ t : CellType, ¬ (cellDim t = 2 ∧ (t = .prism ∨ t = .pyramid)) :=
  ⟨error_of' _ _ (by decide +kernel), not_flat⟩

/-- The sixteen digits of a number `k / 2 ^ 52` between 1 and 10 that are written in the XML encoding (`{:.16}`, xdmf_utils.h L107-108), as the nearest
multiple of `10 ^ -15` (halves are rounded up; this is not used). -/
def digits16 (k : Nat) : Nat := (2 * k * 10 ^ 15 + 2 ^ 52) / 2 ^ 53

/-- In the XML encoding, coordinates are not read as they were: `1` and the next number in double precision, `1 + 2 ^ -52`, have the same digits. -/
theorem C74_refuted_xml : digits16 (2 ^ 52) = 10 ^ 15 ∧ digits16 (2 ^ 52 + 1) = 10 ^ 15 := by decide

/-! ## Example: two triangles on two processes, tags on edges -/

/-- Process 0 has the cell with nodes 0, 1, 2, process 1 that with nodes 1, 2, 3; the common edge belongs to process 0. -/
def twoTriangles : Mesh Nat where
  type := .triangle
  gdim := 2
  geom := ⟨2, fun r => if r = 0 then 3 else 1, fun r => if r = 0 then [] else [1, 2], fun r => if r = 0 then [] else [0, 0]⟩
  x := fun r => if r = 0 then [[0, 0, 0], [1, 0, 0], [0, 1, 0]] else [[1, 1, 0], [1, 0, 0], [0, 1, 0]]
  closure := fun d e => if d = 0 then [e] else if d = 1 then [[1, 2], [0, 2], [0, 1]].getD e [] else [0, 1, 2]
  dofmap := fun r => if r = 0 then [[0, 1, 2]] else [[1, 2, 0]]
  owned := fun d r => if d = 1 then (if r = 0 then 3 else 2) else if d = 0 then (if r = 0 then 3 else 1) else 1
  e2c := fun d _ => if d = 1 then [[0], [0], [0]] else [[0]]
  c2e := fun d _ => if d = 1 then [[0, 1, 2]] else [[0]]

/-- The mesh as read on two processes: other local numbers, other order of nodes of the second cell. -/
def readTarget : Target where
  Q := 2
  type := .triangle
  N := 4
  closure := fun d => if d = 0 then [0] else if d = 1 then [1, 2] else [0, 1, 2]
  vertexDofs := [0, 1, 2]
  nodes := fun q => if q = 0 then [0, 1, 2] else [3, 1, 2]
  c2v := fun q => if q = 0 then [[0, 1, 2]] else [[1, 2, 0]]
  xdofs := fun q => if q = 0 then [[0, 1, 2]] else [[1, 0, 2]]
  etov := fun d q => if d = 1 then (if q = 0 then [[1, 2], [0, 2], [0, 1]] else [[0, 2], [1, 0], [1, 2]]) else []

/-- The common edge has the tag 5 on both processes. -/
def edgeTags : Tags Nat := ⟨fun r => if r = 0 then [0, 2] else [0, 2], fun r => if r = 0 then [5, 7] else [9, 5]⟩

example : CellsOk twoTriangles 3 ∧ PointsOk twoTriangles ∧ cells twoTriangles = [[0, 1, 2], [1, 2, 3]] := by
  refine ⟨⟨by decide, ?_, ?_, ?_⟩, ⟨by decide, ?_, ?_, ?_⟩, by decide⟩
  · show ∀ r < 2, twoTriangles.owned 2 r ≤ (twoTriangles.dofmap r).length
    decide
  · show ∀ r < 2, ∀ row ∈ twoTriangles.dofmap r, row.length = 3
    decide
  · have : ∀ r < 2, ∀ row ∈ twoTriangles.dofmap r, ∀ v ∈ row, (globalOf twoTriangles.geom r v).isSome = true := by decide
    exact fun r hr row h v hv => Option.isSome_iff_exists.1 (this r hr row h v hv)
  · show ∀ r < 2, twoTriangles.geom.size r ≤ (twoTriangles.x r).length
    decide
  · show ∀ r < 2, ∀ row ∈ twoTriangles.x r, row.length = 3
    decide
  · show ∀ r < 2, ∀ row ∈ twoTriangles.x r, ∀ j < 3, 2 ≤ j → row[j]? = some 0
    decide

example : addMesh twoTriangles = .ok (⟨.triangle, ⟨[2, 3], [2, 3], [[0, 1, 2], [1, 2, 3]]⟩⟩,
    ⟨false, ⟨[4, 2], [4, 2], [[0, 0], [1, 0], [0, 1], [1, 1]]⟩⟩) :=
  ok_of' _ _ (by decide +kernel)

example : addMeshtags twoTriangles 1 edgeTags = .ok (⟨.polyline, ⟨[3, 2], [3, 2], [[1, 2], [0, 1], [2, 3]]⟩⟩, ⟨[3, 1], [3, 1], [[5], [7], [9]]⟩) :=
  ok_of' _ _ (by decide +kernel)

/-- The file that `addMeshtags` writes, read on the two processes of the target: the common edge is edge 0 of process 0 and edge 1 of process 1. -/
example : readMeshtags (⟨.polyline, ⟨[3, 2], [3, 2], [[1, 2], [0, 1], [2, 3]]⟩⟩, (⟨[3, 1], [3, 1], [[5], [7], [9]]⟩ : Item Nat)) readTarget =
    .ok [([0, 2], [5, 7]), ([0, 1], [9, 5])] := ok_of' _ _ (by decide +kernel)

/-- All vertex nodes of an entity. -/
def allVertexNodes (m : Mesh α) (vd : List Nat) (dim r e : Nat) : List (List Int) :=
  ((m.c2e dim r).zip (m.dofmap r)).flatMap fun x => x.1.zipIdx.filterMap fun y =>
    if y.1 = e then some (globalRow m r (((m.closure dim y.2).filter fun d => decide (d ∈ vd)).map fun d => x.2.getD d 0)) else none

theorem vertexNodes_mem {m : Mesh α} {vd : List Nat} {dim r e : Nat} {ns : List Int} (h : VertexNodes m vd dim r e ns) :
    ns ∈ allVertexNodes m vd dim r e ∧ e ∈ (m.c2e dim r).flatten := by
  obtain ⟨c, j, ents, xs, h1, h2, h3, rfl⟩ := h
  refine ⟨?_, List.mem_flatten.2 ⟨ents, List.mem_of_getElem? h1, List.mem_of_getElem? h2⟩⟩
  refine List.mem_flatMap.2 ⟨(ents, xs), List.mem_of_getElem? (List.getElem?_zip_eq_some.2 ⟨h1, h3⟩ : (List.zip _ _)[c]? = _), ?_⟩
  exact List.mem_filterMap.2 ⟨(e, j), List.mem_zipIdx_iff_getElem?.2 h2, by simp⟩

/-- The mesh, the target and the tags satisfy the assumptions of C74. -/
theorem twoTriangles_entities : EntitiesOk twoTriangles readTarget.vertexDofs 1 2 := by
  have hsame : ∀ r < 2, ∀ e ∈ (twoTriangles.c2e 1 r).flatten, ∀ a ∈ allVertexNodes twoTriangles [0, 1, 2] 1 r e,
      ∀ b ∈ allVertexNodes twoTriangles [0, 1, 2] 1 r e, a.isPerm b = true := by decide
  have hdist : ∀ r < 2, ∀ r' < 2, ∀ e < twoTriangles.owned 1 r, ∀ e' < twoTriangles.owned 1 r', ∀ a ∈ allVertexNodes twoTriangles [0, 1, 2] 1 r e,
      ∀ b ∈ allVertexNodes twoTriangles [0, 1, 2] 1 r' e', (!(a.isPerm b) || (r == r' && e == e')) = true := by decide
  have hglob : ∀ r < 2, ∀ row ∈ twoTriangles.dofmap r, ∀ v ∈ row, (globalOf twoTriangles.geom r v).isSome = true := by decide
  refine ⟨?_, by decide, ?_, ?_, ?_, ?_, ?_, ?_⟩
  · show ∀ r < 2, ∀ row ∈ twoTriangles.c2e 1 r, ∀ j < row.length, (twoTriangles.closure 1 j).length = 2
    decide
  · show ∀ r < 2, ∀ row ∈ twoTriangles.c2e 1 r, ∀ j < row.length, ∀ xs ∈ twoTriangles.dofmap r, ∀ d ∈ twoTriangles.closure 1 j, d < xs.length
    decide
  · show ∀ r < 2, ∀ row ∈ twoTriangles.c2e 1 r, ∀ j < row.length, (∀ d ∈ (twoTriangles.closure 1 j).take 2, d ∈ [0, 1, 2]) ∧
      ∀ d ∈ (twoTriangles.closure 1 j).drop 2, d ∉ [0, 1, 2]
    decide
  · exact fun r hr row h v hv => Option.isSome_iff_exists.1 (hglob r hr row h v hv)
  · intro r hr e he
    have hr : r < 2 := hr
    have he : e < twoTriangles.owned 1 r := he
    have h1 : ∀ r < 2, ∀ e < twoTriangles.owned 1 r, (twoTriangles.e2c 1 r)[e]? = some [0] := by decide
    have h2 : ∀ r < 2, ∀ e < twoTriangles.owned 1 r, e ∈ [0, 1, 2] := by decide
    have h3 : ∀ r < 2, (twoTriangles.dofmap r)[0]? = some ((twoTriangles.dofmap r).getD 0 []) := by decide
    exact ⟨0, [], [0, 1, 2], _, h1 r hr e he, rfl, h2 r hr e he, h3 r hr⟩
  · intro r hr e ns ns' h1 h2
    obtain ⟨h3, h4⟩ := vertexNodes_mem h1
    exact List.isPerm_iff.1 (hsame r hr e h4 _ h3 _ (vertexNodes_mem h2).1)
  · intro r hr r' hr' e he e' he' ns ns' h1 h2 hp
    have := hdist r hr r' hr' e he e' he' _ (vertexNodes_mem h1).1 _ (vertexNodes_mem h2).1
    rw [List.isPerm_iff.2 hp] at this
    simpa using this

/-- All pairs of a node and its vertex. -/
def atPairs (I : EntityData.Input V) (q : Nat) : List (Nat × Nat) :=
  ((I.c2v q).zip (I.xdofs q)).flatMap fun p => (p.1.zip I.vertexDofs).filterMap fun x =>
    (p.2[x.2]?.bind fun k => (I.nodes q)[k]?).map fun n => (n, x.1)

theorem atPairs_mem {I : EntityData.Input V} {q n v : Nat} (h : At I q n v) : (n, v) ∈ atPairs I q := by
  obtain ⟨c, i, d, k, vs, xs, h1, h2, h3, h4, h5, h6⟩ := h
  rw [atPairs, List.mem_flatMap]
  refine ⟨(vs, xs), List.mem_of_getElem? (List.getElem?_zip_eq_some.mpr ⟨h1, h4⟩ : (List.zip _ _)[c]? = _), ?_⟩
  rw [List.mem_filterMap]
  exact ⟨(v, d), List.mem_of_getElem? (List.getElem?_zip_eq_some.mpr ⟨h2, h3⟩ : (List.zip _ _)[i]? = _), by simp [h5, h6]⟩

theorem atPairs_at {I : EntityData.Input V} {q n v : Nat} (h : (n, v) ∈ atPairs I q) : At I q n v := by
  rw [atPairs, List.mem_flatMap] at h
  obtain ⟨x, hx, h⟩ := h
  obtain ⟨c, hc⟩ := List.mem_iff_getElem?.1 hx
  rw [List.mem_filterMap] at h
  obtain ⟨y, hy, h⟩ := h
  obtain ⟨i, hi⟩ := List.mem_iff_getElem?.1 hy
  rw [List.getElem?_zip_eq_some] at hc hi
  rw [Option.map_eq_some_iff] at h
  obtain ⟨k, hk, h⟩ := h
  rw [Option.bind_eq_some_iff] at hk
  obtain ⟨l, hl, hk⟩ := hk
  simp only [Prod.mk.injEq] at h
  obtain ⟨rfl, rfl⟩ := h
  exact ⟨c, i, y.2, l, x.1, x.2, hc.1, hi.1, hi.2, hc.2, hl, hk⟩

theorem readTarget_ok : Ok (readTarget.input 1 fun _ => ([] : List (List Nat × Nat))) := by
  have hq : ∀ q < 2, ∀ a ∈ atPairs (readTarget.input 1 fun _ => ([] : List (List Nat × Nat))) q,
      ∀ b ∈ atPairs (readTarget.input 1 fun _ => ([] : List (List Nat × Nat))) q, decide (a.1 = b.1) = decide (a.2 = b.2) := by decide
  have hc : ∀ q < 2, ∀ c < (readTarget.c2v q).length, (readTarget.xdofs q)[c]? = some ((readTarget.xdofs q).getD c []) ∧
      ∀ i < ((readTarget.c2v q).getD c []).length, readTarget.vertexDofs[i]? = some i ∧
        ((readTarget.xdofs q).getD c [])[i]? = some (((readTarget.xdofs q).getD c []).getD i 0) ∧
        ((readTarget.xdofs q).getD c []).getD i 0 < (readTarget.nodes q).length := by decide
  refine ⟨by decide, by decide, by decide, by decide, ?_, ?_, ?_, ?_, ?_⟩
  · intro q _ e he
    cases he
  · show ∀ q < 2, (readTarget.nodes q).Nodup ∧ ∀ n ∈ readTarget.nodes q, n < 4
    decide
  · intro q hq' c vs hvs
    have hvs : (readTarget.c2v q)[c]? = some vs := hvs
    obtain ⟨hl, rfl⟩ := List.getElem?_eq_some_iff.1 hvs
    obtain ⟨h1, h2⟩ := hc q hq' c hl
    rw [getD_at (readTarget.c2v q) _ hl] at h2
    exact ⟨_, h1, fun i hi => ⟨i, _, (h2 i hi).1, (h2 i hi).2.1, (h2 i hi).2.2⟩⟩
  · intro q hq' n v v' h1 h2
    simpa using hq q hq' _ (atPairs_mem h1) _ (atPairs_mem h2)
  · intro q hq' n n' v h1 h2
    simpa using hq q hq' _ (atPairs_mem h1) _ (atPairs_mem h2)

example : (∃ f out, addMeshtags twoTriangles 1 edgeTags = .ok f ∧ readMeshtags f readTarget = .ok out) := by
  obtain ⟨f, out, h1, h2, -⟩ := C74_tags_partial twoTriangles 1 2 1 (by decide) (by decide) readTarget (by decide) twoTriangles_entities
    (by intro h; exact absurd h (by decide))
    (by
      have : ∀ r < 2, ∀ row ∈ twoTriangles.dofmap r, ∀ v ∈ row, ((globalOf twoTriangles.geom r v).getD 0) < 4 := by decide
      intro r hr row h v hv g hg
      have := this r hr row h v hv
      rwa [hg] at this)
    edgeTags ⟨by show ∀ r < 2, (edgeTags.indices r).Pairwise (· < ·); decide, by show ∀ r < 2, (edgeTags.indices r).length = (edgeTags.values r).length; decide⟩
    ⟨0, 0, 5, by decide, by decide, 0, rfl, rfl⟩ readTarget_ok rfl ⟨by decide, by decide⟩
    (by
      show ∀ q < 2, (readTarget.etov 1 q).Pairwise fun a b => ¬ a.Perm b
      decide)
    (fun q e => ((if q = 0 then [[1, 2], [0, 2], [0, 1]] else [[2, 3], [1, 2], [1, 3]]).getD e []))
    (by
      intro q hq e vs hvs
      have hq : q < 2 := hq
      have hlen : e < 3 := lt_of_lt_of_le (List.getElem?_eq_some_iff.1 hvs).1 (by interval_cases q <;> decide)
      interval_cases q <;> interval_cases e <;> (cases hvs; exact .cons (atPairs_at (by decide)) (.cons (atPairs_at (by decide)) .nil)))
  exact ⟨f, out, h1, h2⟩

end Verif.Props.C74
