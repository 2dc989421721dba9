import Verif.Lemmas.GhostLayer
import Verif.Props.C25_GraphDistribute
import Verif.Props.C44_DualGraph
/-! # C67: the cells of a process and their neighbours -/
namespace Verif.Props
open Verif.GhostLayer Verif.Spec.Ghost Verif.GraphDist
open Verif.Spec.Dual (allCells Adjacent globalCell)

/-- For an undirected graph, `compute_destination_ranks` lists for every node the rank that it is assigned to, first, and all
ranks that a linked node is assigned to; each rank once. -/
theorem C67_destinations (I : GhostLayer.Input) (h : Sound I) (hu : Undirected I.P I.links) (r : Nat) (hr : r < I.P) :
    ∃ d, destinations I r = some d ∧ d.length = (I.links r).length ∧
      ∀ (i : Nat) (row : List Nat), d[i]? = some row → RowOk I.P I.links I.part r i row := destinations_ok h hu hr

/-- So does the SCOTCH partitioner. -/
theorem C67_scotch (I : GhostLayer.Input) (h : ∀ r, r < I.P → (I.part r).length = (I.links r).length)
    (hu : Undirected I.P I.links) (r : Nat) (hr : r < I.P) : (scotchDestinations I r).length = (I.links r).length ∧
      ∀ (i : Nat) (row : List Nat), (scotchDestinations I r)[i]? = some row → RowOk I.P I.links I.part r i row :=
  scotch_ok h hu hr

/-! ## Meshes -/

/-- Topology of the cells on all ranks. -/
def ghostTypes (M : MeshInput) (r : Nat) : List DualGraph.CellList := (M.cells r).map Cells.topology

/-- Input of the dual graph. -/
def ghostDual (M : MeshInput) : DualGraph.Input := { M.dual with P := M.P, types := ghostTypes M }

/-- A mesh that can be created: the same cell types on all ranks, complete rows, at most as many cells at a facet as allowed,
and a destination for every cell. -/
structure GhostMeshOk (M : MeshInput) (T : Nat) (nodes : Nat → Nat) : Prop where
  types : ∀ q, q < M.P → (M.cells q).length = T
  nodes : ∀ (q i : Nat) (c : Cells), q < M.P → (M.cells q)[i]? = some c → c.nodes = nodes i ∧ c.array.length % c.nodes = 0
  dual : DualGraph.Ok (ghostDual M)
  limit : LimitHolds (ghostDual M)
  part : ∀ q, q < M.P → (M.part q).length = ((M.cells q).map Cells.num).sum

theorem allCells_length (l : List Cells) : (allCells (l.map Cells.topology)).length = (l.map Cells.num).sum := by
  induction l with
  | nil => rfl
  | cons c l ih =>
    unfold allCells at ih ⊢
    rw [List.map_cons, List.flatMap_cons, List.length_append, ih]
    simp [Cells.topology]

variable {M : MeshInput} {T : Nat} {nodes : Nat → Nat}

theorem graph_links (h : GhostMeshOk M T nodes) {r : Nat} (hr : r < M.P) :
    (graph M).links r = (List.range (allCells (ghostTypes M r)).length).map (Spec.Dual.links (DualGraph.dualGraph (ghostDual M) r)) := by
  have h1 := (C44_dual_graph (ghostDual M) h.dual h.limit r hr).1
  unfold graph
  simp only
  change (List.range ((DualGraph.dualGraph (ghostDual M) r).2.length - 1)).map _ = _
  rw [h1, Nat.add_sub_cancel]
  rfl

theorem graph_number (h : GhostMeshOk M T nodes) {q : Nat} (hq : q < M.P) (j : Nat) :
    number (graph M).links q j = globalCell (ghostTypes M) q j := by
  unfold number globalCell
  congr 1
  congr 1
  apply List.map_congr_left
  intro p hp
  rw [List.mem_range] at hp
  rw [graph_links h (by omega)]
  simp

theorem graph_get (h : GhostMeshOk M T nodes) {q j : Nat} {l : List Nat} (hq : q < M.P) (hl : ((graph M).links q)[j]? = some l) :
    j < (allCells (ghostTypes M q)).length ∧ l = Spec.Dual.links (DualGraph.dualGraph (ghostDual M) q) j := by
  rw [graph_links h hq, List.getElem?_map] at hl
  rcases Nat.lt_or_ge j (allCells (ghostTypes M q)).length with hj | hj
  · rw [List.getElem?_range hj] at hl
    simp only [Option.map_some, Option.some.injEq] at hl
    exact ⟨hj, hl.symm⟩
  · rw [List.getElem?_eq_none (by simpa using hj)] at hl
    cases hl

theorem graph_undirected (h : GhostMeshOk M T nodes) : Undirected M.P (graph M).links where
  node := by
    intro q j n l hq hl hn
    obtain ⟨hj, rfl⟩ := graph_get h hq hl
    obtain ⟨r', c', h1, h2, h3⟩ := ((C44_dual_graph (ghostDual M) h.dual h.limit q hq).2 j hj).2 n hn
    refine ⟨r', c', h1, ?_, ?_⟩
    · rw [graph_links h h1, List.length_map, List.length_range]; exact h2
    · rw [graph_number h h1]; exact h3
  symm := by
    intro q j q' j' l l' hq hq' hl hl' hm
    obtain ⟨hj, rfl⟩ := graph_get h hq hl
    obtain ⟨hj', rfl⟩ := graph_get h hq' hl'
    rw [graph_number h hq'] at hm
    rw [graph_number h hq]
    exact C44_symmetric (ghostDual M) h.dual h.limit q q' j j' hq hq' hj hj' hm

theorem graph_needs (h : GhostMeshOk M T nodes) {r q c : Nat} (hq : q < M.P) (hc : c < (allCells (ghostTypes M q)).length) :
    Needs M.P (graph M).links M.part q c r ↔ Belongs M.P (ghostTypes M) M.part r q c := by
  unfold Needs Belongs
  apply or_congr Iff.rfl
  constructor
  · rintro ⟨q', c', l, h1, h2, h3, h4⟩
    obtain ⟨hc', rfl⟩ := graph_get h h1 h2
    rw [graph_number h hq] at h3
    have := C44_symmetric (ghostDual M) h.dual h.limit q' q c' c h1 hq hc' hc h3
    exact ⟨q', c', h1, (((C44_dual_graph (ghostDual M) h.dual h.limit q hq).2 c hc).1 q' c' h1 hc').mp this, h4⟩
  · rintro ⟨q', c', h1, h2, h4⟩
    have hc' : c' < (allCells (ghostTypes M q')).length := (DualGraph.adj_lt h2).2
    have h3 := (((C44_dual_graph (ghostDual M) h.dual h.limit q hq).2 c hc).1 q' c' h1 hc').mpr h2
    have h5 := C44_symmetric (ghostDual M) h.dual h.limit q q' c c' hq h1 hc hc' h3
    refine ⟨q', c', _, h1, ?_, by rw [graph_number h hq]; exact h5, h4⟩
    rw [graph_links h h1, List.getElem?_map, List.getElem?_range hc']
    rfl

/-- Cells of type `i` on rank `q`. -/
def cellsOf (M : MeshInput) (q i : Nat) : Cells := ((M.cells q)[i]?).getD ⟨0, [], [], []⟩

/-- Whether a cell belongs on a rank. -/
def Wanted (M : MeshInput) (m : Method) (r q c : Nat) : Prop :=
  match m with
  | .none => (M.part q)[c]? = some r
  | _ => Belongs M.P (ghostTypes M) M.part r q c

/-- The rows of destinations of the cells of one rank are right. -/
def RowsRight (M : MeshInput) (m : Method) (q : Nat) (d : List (List Nat)) : Prop :=
  d.length = ((M.cells q).map Cells.num).sum ∧ ∀ (c : Nat) (row : List Nat), d[c]? = some row →
    row.head? = (M.part q)[c]? ∧ row.Nodup ∧ ∀ x, x ∈ row ↔ Wanted M m x q c

theorem cellDest_ok (h : GhostMeshOk M T nodes) (m : Method)
    (hs : match m with | .ranks => Sound (graph M) | _ => True) {q : Nat} (hq : q < M.P) :
    ∃ d, cellDest M m q = some d ∧ RowsRight M m q d := by
  have hn : (allCells (ghostTypes M q)).length = ((M.cells q).map Cells.num).sum := allCells_length _
  have hl : ∀ q, q < M.P → ((graph M).links q).length = ((M.cells q).map Cells.num).sum := by
    intro q hq
    rw [graph_links h hq, List.length_map, List.length_range]; exact allCells_length _
  have hpl : ∀ r, r < (graph M).P → ((graph M).part r).length = ((graph M).links r).length := by
    intro r hr
    rw [hl r hr]; exact h.part r hr
  cases m with
  | none =>
    refine ⟨_, rfl, by simp only [plainDestinations, List.length_map]; exact h.part q hq, ?_⟩
    intro c row hrow
    simp only [plainDestinations, List.getElem?_map] at hrow
    change Option.map _ (M.part q)[c]? = _ at hrow
    cases hp : (M.part q)[c]? with
    | none => rw [hp] at hrow; cases hrow
    | some a =>
      rw [hp] at hrow
      simp only [Option.map_some, Option.some.injEq] at hrow
      subst hrow
      simp [Wanted, hp, eq_comm]
  | ranks =>
    obtain ⟨d, h1, h2, h3⟩ := C67_destinations (graph M) hs (graph_undirected h) q hq
    refine ⟨d, h1, by rw [h2, hl q hq], ?_⟩
    intro c row hrow
    obtain ⟨e1, e2, e3⟩ := h3 c row hrow
    have hc : c < (allCells (ghostTypes M q)).length := by
      rw [hn, ← hl q hq, ← h2]; exact (List.getElem?_eq_some_iff.mp hrow).1
    exact ⟨e1, e2, fun x => (e3 x).trans (graph_needs h hq hc)⟩
  | scotch =>
    obtain ⟨h2, h3⟩ := C67_scotch (graph M) hpl (graph_undirected h) q hq
    refine ⟨_, rfl, by rw [h2, hl q hq], ?_⟩
    intro c row hrow
    obtain ⟨e1, e2, e3⟩ := h3 c row hrow
    have hc : c < (allCells (ghostTypes M q)).length := by
      rw [hn, ← hl q hq, ← h2]; exact (List.getElem?_eq_some_iff.mp hrow).1
    exact ⟨e1, e2, fun x => (e3 x).trans (graph_needs h hq hc)⟩

theorem typeOffset_le {q i : Nat} {c : Cells} (hc : (M.cells q)[i]? = some c) :
    typeOffset M q i + c.num ≤ ((M.cells q).map Cells.num).sum := by
  obtain ⟨hi, rfl⟩ := List.getElem?_eq_some_iff.mp hc
  unfold typeOffset
  conv_rhs => rw [← List.take_append_drop i (M.cells q), List.drop_eq_getElem_cons hi]
  rw [List.map_append, List.sum_append, List.map_cons, List.sum_cons]
  omega

theorem typeDest_ok (h : GhostMeshOk M T nodes) (m : Method)
    (hs : match m with | .ranks => Sound (graph M) | _ => True) {q i : Nat} (hq : q < M.P) (hi : i < T) :
    ∃ d, typeDest M m q i = some d ∧ d.length = (cellsOf M q i).num ∧ ∀ (k : Nat) (row : List Nat), d[k]? = some row →
      row.head? = (M.part q)[typeOffset M q i + k]? ∧ row.Nodup ∧ ∀ x, x ∈ row ↔ Wanted M m x q (typeOffset M q i + k) := by
  obtain ⟨d, h1, h2, h3⟩ := cellDest_ok h m hs hq
  have hi' : i < (M.cells q).length := by rw [h.types q hq]; exact hi
  have hc : (M.cells q)[i]? = some (M.cells q)[i] := List.getElem?_eq_getElem hi'
  have hle := typeOffset_le hc
  obtain ⟨hn, hmod⟩ := h.nodes q i _ hq hc
  have hce : cellsOf M q i = (M.cells q)[i] := by unfold cellsOf; rw [hc]; rfl
  unfold typeDest
  rw [h1, hc]
  simp only [bind, Option.bind_some]
  rw [if_neg (by omega)]
  refine ⟨_, rfl, ?_, ?_⟩
  · rw [List.length_take, List.length_drop, hce]; omega
  · intro k row hrow
    rw [List.getElem?_take] at hrow
    split at hrow
    · rw [List.getElem?_drop] at hrow
      exact h3 _ row hrow
    · cases hrow

theorem deliveries_nodup (P : Nat) (dests : Nat → List (List Nat)) (h : ∀ q, q < P → ∀ row ∈ dests q, row.Nodup) (r : Nat) :
    (deliveries P dests r).Nodup := by
  unfold deliveries
  rw [List.nodup_flatMap]
  refine ⟨?_, ?_⟩
  · intro q hq
    rw [List.mem_range] at hq
    rw [List.nodup_flatMap]
    refine ⟨?_, ?_⟩
    · intro i hi
      rw [List.mem_range] at hi
      apply List.nodup_replicate.mpr
      rw [List.getD_eq_getElem?_getD, List.getElem?_eq_getElem hi]
      exact List.nodup_iff_count_le_one.mp (h q hq _ (List.getElem_mem hi)) r
    · apply List.Nodup.pairwise_of_forall_ne List.nodup_range
      intro a _ b _ hab
      simp only [Function.onFun, List.disjoint_left]
      intro x hx hx'
      rw [List.mem_replicate] at hx hx'
      have := hx.2.symm.trans hx'.2
      simp only [Prod.mk.injEq] at this
      exact hab this.2
  · apply List.Nodup.pairwise_of_forall_ne List.nodup_range
    intro a _ b _ hab
    simp only [Function.onFun, List.disjoint_left, List.mem_flatMap, List.mem_replicate]
    rintro x ⟨i, _, hx⟩ ⟨j, _, hx'⟩
    have := hx.2.symm.trans hx'.2
    simp only [Prod.mk.injEq] at this
    exact hab this.1

/-- After the distribution of the cells of type `i`, rank `r` has exactly the cells that belong there, each once: with
ghosts, those that are assigned to it and those that have a facet in common with one of them.  Cells that are assigned to
it come first, each cell has its nodes and its index, and the ranks to which the others are assigned are known. -/
theorem C67_cells (M : MeshInput) (T : Nat) (nodes : Nat → Nat) (h : GhostMeshOk M T nodes) (m : Method)
    (hs : match m with | .ranks => Sound (graph M) | _ => True) (r : Nat) (hr : r < M.P) (i : Nat) (hi : i < T) :
    ∃ (own ghost : List (Nat × Nat)) (res : FResult), distributed M m i r = some res ∧
      (own ++ ghost).Nodup ∧
      (∀ q k, (q, k) ∈ own ++ ghost ↔ q < M.P ∧ k < (cellsOf M q i).num ∧ Wanted M m r q (typeOffset M q i + k)) ∧
      (∀ e ∈ own, (M.part e.1)[typeOffset M e.1 i + e.2]? = some r) ∧
      (∀ e ∈ ghost, (M.part e.1)[typeOffset M e.1 i + e.2]? ≠ some r) ∧
      res.data = (own ++ ghost).flatMap (fun e => ((cellsOf M e.1 i).row e.2).map fun (v : Nat) => (v : Int)) ∧
      res.index = (own ++ ghost).map (fun e => (((((List.range e.1).map fun q => (cellsOf M q i).num).sum + e.2 : Nat)) : Int)) ∧
      res.owners.map some = ghost.map (fun e => (M.part e.1)[typeOffset M e.1 i + e.2]?.map fun (x : Nat) => (x : Int)) := by
  have hall : ∀ q, ∃ d : List (List Nat), q < M.P → (typeDest M m q i = some d ∧ d.length = (cellsOf M q i).num ∧
      ∀ (k : Nat) (row : List Nat), d[k]? = some row →
      row.head? = (M.part q)[typeOffset M q i + k]? ∧ row.Nodup ∧ ∀ x, x ∈ row ↔ Wanted M m x q (typeOffset M q i + k)) := by
    intro q
    by_cases hq : q < M.P
    · obtain ⟨d, hd⟩ := typeDest_ok h m hs hq hi
      exact ⟨d, fun _ => hd⟩
    · exact ⟨[], fun hc => absurd hc hq⟩
  choose D hD using hall
  have hmap : (List.range M.P).mapM (fun q => typeDest M m q i) = some ((List.range M.P).map D) :=
    mapM_some_eq _ D _ fun q hq => (hD q (List.mem_range.mp hq)).1
  have hget : ∀ q, q < M.P → ((List.range M.P).map D).getD q [] = D q := by
    intro q hq
    rw [List.getD_eq_getElem?_getD, List.getElem?_map, List.getElem?_range hq]; rfl
  set dests : Nat → List (List Nat) := fun q => ((List.range M.P).map D).getD q [] with hdests
  have hcell : ∀ q, q < M.P → (M.cells q)[i]? = some (cellsOf M q i) := by
    intro q hq
    have hi' : i < (M.cells q).length := by rw [h.types q hq]; exact hi
    unfold cellsOf
    rw [List.getElem?_eq_getElem hi']; rfl
  set flat : Nat → List Int := fun q => (((M.cells q)[i]?.map Cells.array).getD []).map fun (v : Nat) => (v : Int) with hflat
  have hfl : ∀ q, q < M.P → flat q = (cellsOf M q i).array.map fun (v : Nat) => (v : Int) := by
    intro q hq
    simp only [hflat, hcell q hq, Option.map_some, Option.getD_some]
  have hnodes : ∀ q, q < M.P → (cellsOf M q i).nodes = (cellsOf M r i).nodes := by
    intro q hq
    rw [(h.nodes q i _ hq (hcell q hq)).1, (h.nodes r i _ hr (hcell r hr)).1]
  have hsize : ∀ q, q < M.P → (flat q).length = (dests q).length * (cellsOf M r i).nodes := by
    intro q hq
    have h1 := (h.nodes q i _ hq (hcell q hq)).2
    simp only [hdests]
    rw [hfl q hq, List.length_map, hget q hq, (hD q hq).2.1, ← hnodes q hq]
    unfold Cells.num
    exact (Nat.div_mul_cancel (Nat.dvd_of_mod_eq_zero h1)).symm
  have hres : distributed M m i r = some (distributeFixed M.P (cellsOf M r i).nodes flat dests r) := by
    unfold distributed
    rw [hmap, hcell r hr]
    rfl
  rw [C25_distribute_fixed M.P _ flat dests hsize r hr] at hres
  have hrow : ∀ (q k : Nat), q < M.P → k < (cellsOf M q i).num → ∃ row, (dests q)[k]? = some row ∧
      row.head? = (M.part q)[typeOffset M q i + k]? ∧ row.Nodup ∧ ∀ x, x ∈ row ↔ Wanted M m x q (typeOffset M q i + k) := by
    intro q k hq hk
    have h1 : k < (D q).length := by rw [(hD q hq).2.1]; exact hk
    refine ⟨(D q)[k], ?_, (hD q hq).2.2 k _ (List.getElem?_eq_getElem h1)⟩
    simp only [hdests]
    rw [hget q hq]; exact List.getElem?_eq_getElem h1
  have hmem : ∀ q k, (q, k) ∈ deliveries M.P dests r ↔ q < M.P ∧ k < (cellsOf M q i).num ∧
      Wanted M m r q (typeOffset M q i + k) := by
    intro q k
    rw [mem_deliveries]
    constructor
    · rintro ⟨hq, ds, h1, h2⟩
      simp only [hdests] at h1
      rw [hget q hq] at h1
      have hk : k < (cellsOf M q i).num := by rw [← (hD q hq).2.1]; exact (List.getElem?_eq_some_iff.mp h1).1
      exact ⟨hq, hk, (((hD q hq).2.2 k ds h1).2.2 r).mp h2⟩
    · rintro ⟨hq, hk, hw⟩
      obtain ⟨row, h1, _, _, h2⟩ := hrow q k hq hk
      exact ⟨hq, row, h1, (h2 r).mpr hw⟩
  have howner : ∀ e ∈ deliveries M.P dests r, (M.part e.1)[typeOffset M e.1 i + e.2]? = some (ownerOf dests e) := by
    rintro ⟨q, k⟩ he
    obtain ⟨hq, hk, hw⟩ := (hmem q k).mp he
    obtain ⟨row, h1, h2, h3, h4⟩ := hrow q k hq hk
    unfold ownerOf
    simp only
    rw [← h2, List.getD_eq_getElem?_getD, h1, Option.getD_some]
    have hne : row ≠ [] := List.ne_nil_of_mem ((h4 r).mpr hw)
    cases row with
    | nil => exact absurd rfl hne
    | cons a l => rfl
  have hperm : (arrived M.P dests r).Perm (deliveries M.P dests r) := by
    unfold arrived
    exact List.filter_append_perm (fun e => ownerOf dests e == r) (deliveries M.P dests r)
  refine ⟨(deliveries M.P dests r).filter (fun e => ownerOf dests e == r),
    (deliveries M.P dests r).filter (fun e => ownerOf dests e != r), _, hres, ?_, ?_, ?_, ?_, ?_, ?_, ?_⟩
  · refine hperm.nodup_iff.mpr (deliveries_nodup M.P dests ?_ r)
    intro q hq row hm
    simp only [hdests] at hm
    rw [hget q hq] at hm
    obtain ⟨k, hk, rfl⟩ := List.getElem_of_mem hm
    exact ((hD q hq).2.2 k _ (List.getElem?_eq_getElem hk)).2.1
  · intro q k
    rw [← hmem]
    exact hperm.mem_iff
  · intro e he
    obtain ⟨h1, h2⟩ := List.mem_filter.mp he
    rw [howner e h1]
    simpa using h2
  · intro e he
    obtain ⟨h1, h2⟩ := List.mem_filter.mp he
    rw [howner e h1]
    simpa using h2
  · change (arrived M.P dests r).flatMap _ = (arrived M.P dests r).flatMap _
    apply List.flatMap_congr
    rintro ⟨q, k⟩ he
    have hq := ((hmem q k).mp (hperm.mem_iff.mp he)).1
    simp only
    rw [hfl q hq, ← hnodes q hq, ← List.map_drop, ← List.map_take]
    rfl
  · change (arrived M.P dests r).map _ = (arrived M.P dests r).map _
    apply List.map_congr_left
    rintro ⟨q, k⟩ he
    have hq := ((hmem q k).mp (hperm.mem_iff.mp he)).1
    unfold globalIdx
    simp only
    congr 2
    congr 1
    apply List.map_congr_left
    intro p hp
    rw [List.mem_range] at hp
    simp only [hdests]
    rw [hget p (by omega), (hD p (by omega)).2.1]
  · rw [List.map_map]
    apply List.map_congr_left
    intro e he
    rw [howner e (List.mem_filter.mp he).1]
    rfl

/-! ## A mesh on two ranks -/

def layerEx : MeshInput where
  P := 2
  cells
    | 0 => [⟨3, [0, 1, 2], dualExTri, [1, 4, 2]⟩, ⟨4, [0, 1, 2, 3], dualExQuad, [0, 1, 3, 2]⟩]
    | 1 => [⟨3, [0, 1, 2], dualExTri, [4, 1, 5, 6, 5, 1]⟩, ⟨4, [0, 1, 2, 3], dualExQuad, []⟩]
    | _ => []
  dual := dualEx (some 2)
  part := fun r => if r = 0 then [0, 0] else [1, 1]
  setA := fun _ l => l.dedup.reverse
  setB := fun _ l => l.dedup.reverse
  src := fun r => if r = 0 then [1, 0] else [0, 1]

theorem layerEx_dual : ghostDual layerEx = dualEx (some 2) := by
  have : ghostTypes layerEx = dualExTypes := by
    funext r
    match r with
    | 0 => rfl
    | 1 => rfl
    | _ + 2 => rfl
  unfold ghostDual
  rw [this]
  rfl

theorem layerEx_ok : GhostMeshOk layerEx 2 (fun i => if i = 0 then 3 else 4) where
  types := by decide
  nodes := by
    intro q i c hq hc
    match q, i with
    | 0, 0 => obtain rfl := Option.some.inj hc; decide
    | 0, 1 => obtain rfl := Option.some.inj hc; decide
    | 1, 0 => obtain rfl := Option.some.inj hc; decide
    | 1, 1 => obtain rfl := Option.some.inj hc; decide
    | 0, _ + 2 => cases hc
    | 1, _ + 2 => cases hc
    | _ + 2, _ => have : (layerEx).P = 2 := rfl; omega
  dual := by rw [layerEx_dual]; exact dualEx_ok
  limit := by rw [layerEx_dual]; exact dualEx_limit
  part := by decide +kernel

theorem layerEx_sound : Sound (graph layerEx) where
  part := by decide +kernel
  setA := fun _ l => ⟨List.nodup_reverse.mpr (List.nodup_dedup l), fun x => by
    change x ∈ l.dedup.reverse ↔ _; rw [List.mem_reverse, List.mem_dedup]⟩
  setB := fun _ l => ⟨List.nodup_reverse.mpr (List.nodup_dedup l), fun x => by
    change x ∈ l.dedup.reverse ↔ _; rw [List.mem_reverse, List.mem_dedup]⟩
  src := by
    constructor
    · decide +kernel
    · have h0 : dest (graph layerEx) 0 = [0, 1] := by decide +kernel
      have h1 : dest (graph layerEx) 1 = [0, 1] := by decide +kernel
      intro r hr q
      have hP : (graph layerEx).P = 2 := rfl
      rw [hP] at hr ⊢
      match q with
      | 0 => rw [h0]; revert r; decide +kernel
      | 1 => rw [h1]; revert r; decide +kernel
      | q + 2 =>
        constructor
        · intro hq
          match r with
          | 0 => exact absurd hq (by change ¬ q + 2 ∈ [1, 0]; simp)
          | 1 => exact absurd hq (by change ¬ q + 2 ∈ [0, 1]; simp)
          | _ + 2 => omega
        · rintro ⟨h, -⟩; omega

/-- The first triangle of rank 1 has an edge in common with the triangle of rank 0, the second one has not. -/
example : (distributed layerEx .ranks 0 0).map FResult.data = some [1, 4, 2, 4, 1, 5] ∧
    (distributed layerEx .ranks 0 1).map FResult.data = some [4, 1, 5, 6, 5, 1, 1, 4, 2] ∧
    (distributed layerEx .scotch 0 0).map FResult.owners = some [1] ∧
    (distributed layerEx .none 0 0).map FResult.data = some [1, 4, 2] := by decide +kernel

/-! ## Directed graphs -/

/-- Two ranks with one node each; only the node of rank 0 is linked to the other one. -/
def directedEx : GhostLayer.Input where
  P := 2
  links := fun r => if r = 0 then [[1]] else [[]]
  part := fun r => [r]
  setA := fun _ l => l.dedup
  setB := fun _ l => l.dedup
  src := fun r => if r = 0 then [] else [0]

/-- For a graph with links in one direction, `compute_destination_ranks` writes outside of an array (`recv_sizes` has as many
entries as there are destinations, but gets a number from every source). -/
theorem C67_refuted_directed : Sound directedEx ∧
    (∀ (q j n : Nat) (l : List Nat), q < 2 → (directedEx.links q)[j]? = some l → n ∈ l → ∃ q' j', q' < 2 ∧ j' < (directedEx.links q').length ∧
      n = number directedEx.links q' j') ∧
    destinations directedEx 1 = none := by
  refine ⟨⟨by decide, fun _ l => ⟨List.nodup_dedup l, fun x => List.mem_dedup⟩,
    fun _ l => ⟨List.nodup_dedup l, fun x => List.mem_dedup⟩, ?_⟩, ?_, by decide +kernel⟩
  · constructor
    · decide
    · have h0 : dest directedEx 0 = [1] := by decide +kernel
      have h1 : ∀ q, dest directedEx (q + 1) = [] := by
        intro q
        have : nodeToDest directedEx (q + 1) = [] := rfl
        unfold dest sortedDest
        rw [this]; rfl
      intro r hr q
      have hP : directedEx.P = 2 := rfl
      rw [hP] at hr ⊢
      match q with
      | 0 => rw [h0]; revert r; decide
      | q + 1 =>
        rw [h1]
        simp only [List.not_mem_nil, and_false, iff_false]
        unfold directedEx
        simp only
        split <;> simp
  · intro q j n l hq hl hn
    match q, j with
    | 0, 0 =>
      obtain rfl := Option.some.inj hl
      have : n = 1 := by simpa using hn
      exact ⟨1, 0, by decide, by decide, this⟩
    | 0, _ + 1 => cases hl
    | 1, 0 => obtain rfl := Option.some.inj hl; cases hn
    | 1, _ + 1 => cases hl
    | _ + 2, _ => omega

end Verif.Props
