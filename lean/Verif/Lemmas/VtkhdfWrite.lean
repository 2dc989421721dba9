import Verif.Spec.Vtkhdf
import Verif.Lemmas.CellPermMain
import Verif.Lemmas.BucketFill
/-!
# Writing a mesh to a VTKHDF file
-/
namespace Verif.Vtkhdf
open Verif.Spec Verif.CellPerm
open Verif.Connectivity (CellType)
open Verif.Offsets (excl excl_succ excl_mono)

theorem wrap32_id (x : Int) (h0 : 0 ≤ x) (h1 : x < 2147483648) : wrap32 x = x := by
  unfold wrap32; omega

theorem accumulate_from (l : List Nat) (a : Nat) (h : a + l.sum < 2147483648) :
    l.foldl (fun a (x : Nat) => wrap32 (a + (x : Int))) (a : Int) = ((a + l.sum : Nat) : Int) := by
  induction l generalizing a with
  | nil => simp
  | cons x l ih =>
    rw [List.sum_cons] at h
    rw [List.foldl_cons, wrap32_id _ (by omega) (by omega), List.sum_cons]
    have := ih (a + x) (by omega)
    push_cast at this ⊢
    rw [this]; ring

theorem accumulate_eq (l : List Nat) (h : l.sum < 2147483648) : accumulate l = (l.sum : Int) := by
  have := accumulate_from l 0 (by omega)
  simpa [accumulate] using this

theorem innerProduct_from (l : List (Nat × Nat)) (a : Nat) (h : a + (l.map fun p => p.1 * p.2).sum < 2147483648) :
    l.foldl (fun a (p : Nat × Nat) => wrap32 (a + (p.1 : Int) * (p.2 : Int))) (a : Int) =
      ((a + (l.map fun p => p.1 * p.2).sum : Nat) : Int) := by
  induction l generalizing a with
  | nil => simp
  | cons x l ih =>
    rw [List.map_cons, List.sum_cons] at h
    rw [List.foldl_cons, wrap32_id _ (by positivity) (by
      rw [← Nat.cast_mul]; omega), List.map_cons, List.sum_cons]
    have := ih (a + x.1 * x.2) (by omega)
    push_cast at this ⊢
    rw [this]; ring

theorem innerProduct_eq (l : List (Nat × Nat)) (h : (l.map fun p => p.1 * p.2).sum < 2147483648) :
    innerProduct l = (((l.map fun p => p.1 * p.2).sum : Nat) : Int) := by
  have := innerProduct_from l 0 (by omega)
  simpa [innerProduct] using this

/-- Processes that write one after another. -/
theorem writeDataset_concat {β : Type} (fill : β) (base P : Nat) (len : Nat → Nat) (buf : Nat → List β) (start stop : Nat → Int)
    (hs : ∀ r < P, start r = ((base + excl len r : Nat) : Int)) (he : ∀ r < P, stop r = ((base + excl len r + len r : Nat) : Int))
    (hb : ∀ r < P, len r ≤ (buf r).length) (size : Int) (hz : size = ((base + excl len P : Nat) : Int)) :
    writeDataset fill size ((List.range P).map fun r => (start r, stop r, buf r)) =
      .ok (List.replicate base fill ++ (List.range P).flatMap fun r => (buf r).take (len r)) := by
  have key : ∀ n, n ≤ P → ((List.range n).map fun r => (start r, stop r, buf r)).foldlM
      (fun d (p : Int × Int × List β) => writeRows size p.1 p.2.1 p.2.2 d) (List.replicate size.toNat fill) =
      .ok ((List.replicate base fill ++ (List.range n).flatMap fun r => (buf r).take (len r)) ++
        List.replicate (excl len P - excl len n) fill) := by
    intro n
    induction n with
    | zero =>
      intro _
      simp only [List.range_zero, List.map_nil, List.foldlM_nil, List.flatMap_nil, List.append_nil, Verif.Offsets.excl_zero]
      rw [hz, Int.toNat_natCast, List.replicate_append_replicate]
      rfl
    | succ n ih =>
      intro hn
      have hex := excl_succ len n
      have hmo := excl_mono len hn
      have hl : (List.replicate base fill ++ (List.range n).flatMap fun r => (buf r).take (len r)).length = base + excl len n := by
        rw [List.length_append, List.length_replicate, Verif.Offsets.length_flatMap_range]
        congr 1
        apply Verif.Offsets.excl_congr
        intro i hi
        rw [List.length_take, Nat.min_eq_left (hb i (by omega))]
      rw [List.range_succ, List.map_append, List.foldlM_append, ih (by omega)]
      simp only [List.map_cons, List.map_nil, List.foldlM_cons, List.foldlM_nil, bind, Except.bind]
      rw [writeRows, if_neg (by rw [hs n hn, he n hn, hz]; omega), if_neg (by have := hb n hn; rw [hs n hn, he n hn]; omega)]
      simp only [pure, Except.pure]
      have e1 : (start n).toNat = base + excl len n := by rw [hs n hn]; omega
      have e2 : (stop n).toNat = base + excl len n + len n := by rw [he n hn]; omega
      have e3 : (stop n - start n).toNat = len n := by rw [hs n hn, he n hn]; omega
      rw [e1, e2, e3]
      congr 1
      rw [List.flatMap_append]
      simp only [List.flatMap_cons, List.flatMap_nil, List.append_nil]
      rw [List.take_left' hl, ← List.drop_drop, List.drop_left' hl, List.drop_replicate, hex]
      simp only [List.append_assoc]
      congr 4
      omega
  rw [writeDataset, if_neg (by omega), key P (le_refl _)]
  simp

theorem partialSum_append (a : Int) (l r : List Int) : partialSum a (l ++ r) = partialSum a l ++ partialSum (a + l.sum) r := by
  induction l generalizing a with
  | nil => simp [partialSum]
  | cons x l ih => simp only [List.cons_append, partialSum, ih, List.sum_cons, add_assoc]

theorem partialSum_shift (a b : Int) (l : List Int) : (partialSum a l).map (· + b) = partialSum (b + a) l := by
  induction l generalizing a with
  | nil => rfl
  | cons x l ih => simp only [partialSum, List.map_cons, ih, add_assoc]; congr 1; ring

theorem partialSum_length (a : Int) (l : List Int) : (partialSum a l).length = l.length := by
  induction l generalizing a with
  | nil => rfl
  | cons x l ih => simp [partialSum, ih]

theorem partialSum_take (a : Int) (l : List Int) (n : Nat) : (partialSum a l).take n = partialSum a (l.take n) := by
  induction l generalizing a n with
  | nil => simp [partialSum]
  | cons x l ih =>
    cases n with
    | zero => simp [partialSum]
    | succ n => simp [partialSum, ih]

theorem partialSum_get (a : Int) (l : List Int) (c : Nat) (hc : c ≤ l.length) :
    (a :: partialSum a l)[c]? = some (a + (l.take c).sum) := by
  induction l generalizing a c with
  | nil => have : c = 0 := by simpa using hc
           subst this; simp
  | cons x l ih =>
    cases c with
    | zero => simp
    | succ c =>
      rw [List.getElem?_cons_succ, partialSum, ih (a + x) c (by simpa using hc)]
      simp [add_assoc]

theorem sum_map_add' {κ : Type} (l : List κ) (f g : κ → Nat) : (l.map fun k => f k + g k).sum = (l.map f).sum + (l.map g).sum := by
  induction l with
  | nil => simp
  | cons a l ih => simp only [List.map_cons, List.sum_cons, ih]; omega

/-- Sums over the types of numbers of cells before a process. -/
theorem sum_excl {κ : Type} (l : List κ) (f : κ → Nat → Nat) (r : Nat) :
    (l.map fun k => excl (f k) r).sum = excl (fun r => (l.map fun k => f k r).sum) r := by
  induction r with
  | zero => simp
  | succ r ih => simp only [excl_succ, sum_map_add', ih]

theorem excl_mul (a : Nat) (f : Nat → Nat) (r : Nat) : a * excl f r = excl (fun r => a * f r) r := by
  induction r with
  | zero => simp
  | succ r ih => rw [excl_succ, excl_succ, Nat.mul_add, ih]

/-- Number of cells of a process. -/
def ncell (m : Mesh α) (r : Nat) : Nat := (m.kinds.map fun k => k.owned r).sum

/-- Number of entries of the connectivity of a process. -/
def nentry (m : Mesh α) (r : Nat) : Nat := (m.kinds.map fun k => k.nodes * k.owned r).sum

theorem entries_eq (m : Mesh α) : entries m = excl (nentry m) m.geom.P := by
  rw [entries]
  have : (m.kinds.map fun k => k.nodes * ((List.range m.geom.P).map k.owned).sum) =
      m.kinds.map fun k => excl (fun r => k.nodes * k.owned r) m.geom.P := by
    apply List.map_congr_left
    intro k _
    rw [← excl_mul]; rfl
  rw [this, sum_excl]; rfl

theorem starts_sum (m : Mesh α) (r : Nat) : (m.kinds.map fun k => k.start r).sum = excl (ncell m) r := by
  have := sum_excl m.kinds (fun k => k.owned) r
  exact this

theorem stops_sum (m : Mesh α) (r : Nat) : (m.kinds.map fun k => k.start r + k.owned r).sum = excl (ncell m) r + ncell m r := by
  rw [sum_map_add', starts_sum]; rfl

theorem topo_sum (m : Mesh α) (r : Nat) :
    ((m.kinds.map fun k => (k.nodes, k.start r)).map fun p => p.1 * p.2).sum = excl (nentry m) r := by
  rw [List.map_map]
  have := sum_excl m.kinds (fun k r => k.nodes * k.owned r) r
  rw [← show (m.kinds.map fun k => excl (fun r => k.nodes * k.owned r) r).sum = excl (nentry m) r from this]
  congr 1
  apply List.map_congr_left
  intro k _
  exact excl_mul _ _ _

theorem excl_le {f g : Nat → Nat} (h : ∀ r, f r ≤ g r) (n : Nat) : excl f n ≤ excl g n := by
  induction n with
  | zero => simp
  | succ n ih => rw [excl_succ, excl_succ]; have := h n; omega

theorem sum_le_of {κ : Type} (l : List κ) (f g : κ → Nat) (h : ∀ k ∈ l, f k ≤ g k) : (l.map f).sum ≤ (l.map g).sum := by
  induction l with
  | nil => simp
  | cons a l ih =>
    simp only [List.map_cons, List.sum_cons]
    have := h a (by simp)
    have := ih (fun k hk => h k (by simp [hk]))
    omega

/-! ## Cells of a process -/

/-- The table of a type. -/
def table (k : Kind) : List Nat := match vtkMap k.type k.nodes with
  | .ok m => m
  | .error _ => []

/-- A row in VTK's order. -/
def vtkRow (m : List Nat) (row : List Int) : List Int := m.map fun k => row.getD k 0

/-- Global numbers of nodes. -/
def globRow (m : Mesh α) (r : Nat) (row : List Nat) : List Int := row.map fun v => ((globalOf m.geom r v).getD 0 : Nat)

/-- The cells of a process as they stand in the file. -/
def rankCells (m : Mesh α) (r : Nat) : List (Nat × List Int) :=
  m.kinds.flatMap fun k => ((k.dofmap r).take (k.owned r)).map fun row => (vtkType k.type, vtkRow (table k) (globRow m r row))

theorem table_spec (m : Mesh α) (hm : MeshValid m) (k : Kind) (hk : k ∈ m.kinds) :
    (∃ p, permVtk k.type k.nodes = .ok p ∧ transpose p = .ok (table k)) ∧ (table k).length = k.nodes ∧
      (∀ j ∈ table k, j < k.nodes) ∧ ∀ P V, VtkOrder k.type k.nodes P V → P.length = k.nodes ∧ Reorder (table k) P V := by
  obtain ⟨⟨P, V, ho⟩, hN⟩ := hm.order k hk
  have hall : ∀ P V, VtkOrder k.type k.nodes P V → P.length = k.nodes ∧ Reorder (table k) P V := by
    intro P V h
    obtain ⟨t, ht, hP, hr⟩ := vtk_table _ _ P V h hN
    rw [table, ht]
    exact ⟨hP, hr⟩
  obtain ⟨t, ht, hP, hr⟩ := vtk_table _ _ P V ho hN
  obtain ⟨p, hp, hpt, -, -, -, -, -, hl, hlt⟩ := reorder_main t k.nodes P V hN hP hr
  have htab : table k = t := by rw [table, ht]
  rw [htab]
  refine ⟨⟨p, by simp only [permVtk, ht, hp, bind, Except.bind], hpt⟩, hl, hlt, ?_⟩
  rw [← htab]
  exact hall

theorem gather_ok {β : Type} (row : List β) (p : List Nat) (d : β) (h : ∀ j ∈ p, j < row.length) :
    gather row p = .ok (p.map fun k => row.getD k d) := by
  rw [gather]
  apply mapM_ok_map
  intro k hk
  rw [getD_at _ _ (h k hk), List.getElem?_eq_getElem (h k hk)]

theorem map_range_take {β γ : Type} (l : List β) (n : Nat) (h : n ≤ l.length) (f : β → γ) (d : β) :
    ((List.range n).map fun j => f (l.getD j d)) = (l.take n).map f := by
  apply List.ext_getElem
  · simp [h]
  · intro i h1 h2
    simp only [List.length_map, List.length_range] at h1
    simp only [List.getElem_map, List.getElem_range, List.getElem_take]
    rw [getD_at _ _ (by omega)]

theorem localToGlobal_eq (w : World.World) (r v : Nat) : (w.map r).localToGlobal v = globalOf w r v := by
  have e : (w.map r).sizeLocal = w.size r := by
    simp [World.World.map, IndexMap.build, IndexMap.Map.sizeLocal]
  rw [IndexMap.Map.localToGlobal, globalOf, e]
  rfl

theorem kindTopology_ok (m : Mesh α) (hm : MeshValid m) (k : Kind) (hk : k ∈ m.kinds) (r : Nat) (hr : r < m.geom.P) :
    kindTopology (m.geom.map r) k r =
      .ok (((k.dofmap r).take (k.owned r)).flatMap fun row => vtkRow (table k) (globRow m r row)) := by
  obtain ⟨⟨p, hp, ht⟩, hl, hlt, -⟩ := table_spec m hm k hk
  have ho := hm.owned r hr k hk
  have hw := hm.width r hr k hk
  have hn := hm.nodes r hr k hk
  have hrow : ∀ j, j < k.owned r → (k.dofmap r).getD j [] ∈ k.dofmap r := by
    intro j hj
    rw [getD_at _ _ (by omega)]
    exact List.getElem_mem _
  simp only [kindTopology, hp, ht, bind, Except.bind]
  rw [mapM_ok_map _ _ (fun j => (table k).map fun i => ((k.dofmap r).getD j []).getD i 0)]
  · simp only
    rw [mapM_ok_map _ _ (fun v => (((globalOf m.geom r v).getD 0 : Nat) : Int))]
    · congr 1
      have := map_range_take (k.dofmap r) (k.owned r) ho (fun row => (table k).map fun i => row.getD i 0) []
      rw [this, ← List.flatMap_def, List.map_flatMap]
      apply List.flatMap_congr
      intro row hmem
      have hlen := hw row (List.mem_of_mem_take hmem)
      rw [List.map_map, vtkRow]
      apply List.map_congr_left
      intro i hi
      have h1 := hlt i hi
      rw [globRow, getD_at _ _ (by simp; omega)]
      simp only [Function.comp, List.getElem_map]
      rw [getD_at _ _ (by omega)]
    · intro v hv
      simp only [List.mem_flatten, List.mem_map, List.mem_range] at hv
      obtain ⟨l, ⟨j, hj, rfl⟩, hv⟩ := hv
      obtain ⟨i, hi, rfl⟩ := List.mem_map.1 hv
      have hmem := hrow j hj
      have hlen := hw _ hmem
      obtain ⟨g, hg⟩ := hn _ hmem (((k.dofmap r).getD j []).getD i 0) (by
        rw [getD_at (l := (k.dofmap r).getD j []) _ (by have := hlt i hi; omega)]
        exact List.getElem_mem _)
      rw [localToGlobal_eq, hg]
      rfl
  · intro j hj
    have hj := List.mem_range.1 hj
    have hmem := hrow j hj
    rw [List.getElem?_eq_getElem (by omega), ← getD_at _ [] (by omega)]
    simp only
    apply gather_ok
    intro i hi
    rw [hw _ hmem]
    exact hlt i hi

theorem flatten_flatMap' {κ β : Type} (l : List κ) (f : κ → List (List β)) : (l.flatMap f).flatten = l.flatMap fun a => (f a).flatten := by
  induction l with
  | nil => rfl
  | cons a l ih => simp [ih]

theorem topology_ok (m : Mesh α) (hm : MeshValid m) (r : Nat) (hr : r < m.geom.P) :
    topology m r = .ok ((rankCells m r).map Prod.snd).flatten := by
  simp only [topology, bind, Except.bind]
  rw [mapM_ok_map _ _ (fun k => ((k.dofmap r).take (k.owned r)).flatMap fun row => vtkRow (table k) (globRow m r row))]
  · simp only [pure, Except.pure]
    congr 1
    rw [rankCells, List.map_flatMap, ← List.flatMap_def, flatten_flatMap']
    apply List.flatMap_congr
    intro k _
    rw [List.map_map, List.flatMap_def]
    rfl
  · intro k hk
    exact kindTopology_ok m hm k hk r hr

theorem vtkRow_length (m : List Nat) (row : List Int) : (vtkRow m row).length = m.length := by simp [vtkRow]

theorem map_const_take {β γ : Type} (l : List β) (n : Nat) (h : n ≤ l.length) (c : γ) : (l.take n).map (fun _ => c) = List.replicate n c := by
  rw [List.map_const', List.length_take, Nat.min_eq_left h]

/-- The lengths of the cells of a process. -/
theorem rankCells_lengths (m : Mesh α) (hm : MeshValid m) (r : Nat) (hr : r < m.geom.P) :
    (rankCells m r).map (fun x => x.2.length) = m.kinds.flatMap fun k => List.replicate (k.owned r) k.nodes := by
  rw [rankCells, List.map_flatMap]
  apply List.flatMap_congr
  intro k hk
  rw [List.map_map, ← map_const_take (k.dofmap r) (k.owned r) (hm.owned r hr k hk)]
  apply List.map_congr_left
  intro row _
  simp only [Function.comp, vtkRow_length]
  exact (table_spec m hm k hk).2.1

theorem rankCells_types (m : Mesh α) (hm : MeshValid m) (r : Nat) (hr : r < m.geom.P) :
    cellTypes m r = (rankCells m r).map Prod.fst := by
  rw [cellTypes, rankCells, List.map_flatMap]
  apply List.flatMap_congr
  intro k hk
  rw [List.map_map, ← map_const_take (k.dofmap r) (k.owned r) (hm.owned r hr k hk)]
  rfl

theorem sum_flatMap {κ : Type} (l : List κ) (f : κ → List Nat) : (l.flatMap f).sum = (l.map fun k => (f k).sum).sum := by
  induction l with
  | nil => rfl
  | cons a l ih => simp [ih]

theorem rankCells_sum (m : Mesh α) (hm : MeshValid m) (r : Nat) (hr : r < m.geom.P) :
    ((rankCells m r).map (fun x => x.2.length)).sum = nentry m r := by
  rw [rankCells_lengths m hm r hr, sum_flatMap, nentry]
  congr 1
  apply List.map_congr_left
  intro k _
  induction k.owned r with
  | zero => simp
  | succ n ih => rw [List.replicate_succ, List.sum_cons, ih, Nat.mul_succ]; omega

theorem rankCells_length (m : Mesh α) (hm : MeshValid m) (r : Nat) (hr : r < m.geom.P) : (rankCells m r).length = ncell m r := by
  rw [rankCells, List.length_flatMap, ncell]
  congr 1
  apply List.map_congr_left
  intro k hk
  rw [List.length_map, List.length_take, Nat.min_eq_left (hm.owned r hr k hk)]

/-- Only the last type has further entries: they are cut off. -/
theorem take_blocks {κ : Type} (l : List κ) (a b : κ → Nat) (c : κ → Int) (hle : ∀ k ∈ l, b k ≤ a k)
    (hlast : ∀ (i : Nat), i + 1 < l.length → ∀ k, l[i]? = some k → a k = b k) :
    (l.flatMap fun k => List.replicate (a k) (c k)).take (l.map b).sum = l.flatMap fun k => List.replicate (b k) (c k) := by
  induction l with
  | nil => simp
  | cons x l ih =>
    simp only [List.flatMap_cons, List.map_cons, List.sum_cons]
    rcases l with _ | ⟨y, l⟩
    · simp [List.take_replicate, Nat.min_eq_left (hle x (by simp))]
    · have hx : a x = b x := hlast 0 (by simp) x rfl
      rw [hx, List.take_append, List.length_replicate, Nat.add_sub_cancel_left, List.take_of_length_le (by simp), ih]
      · intro k hk; exact hle k (by simp [hk])
      · intro i hi k hk
        exact hlast (i + 1) (by simpa using hi) k (by simpa using hk)

theorem topologyOffsets_take (m : Mesh α) (hm : MeshValid m) (hg : GhostsLast m) (hs : entries m < 2147483648) (r : Nat) (hr : r < m.geom.P) :
    (topologyOffsets m r).take (ncell m r) =
      partialSum (excl (nentry m) r : Nat) ((rankCells m r).map fun x => (x.2.length : Int)) := by
  have hle : excl (nentry m) r ≤ entries m := by
    rw [entries_eq]
    exact excl_mono _ (by omega)
  rw [topologyOffsets, partialSum_shift, partialSum_take, add_zero, topologyStart, innerProduct_eq _ (by rw [topo_sum]; omega), topo_sum,
    ncell, take_blocks m.kinds _ (fun k => k.owned r) _ (hm.owned r hr) (fun i hi k hk => hg r hr i hi k hk)]
  congr 1
  have := congrArg (List.map (fun n : Nat => (n : Int))) (rankCells_lengths m hm r hr)
  rw [List.map_map, List.map_flatMap] at this
  rw [show (fun x : Nat × List Int => (x.2.length : Int)) = (fun n : Nat => (n : Int)) ∘ fun x => x.2.length from rfl, this]
  apply List.flatMap_congr
  intro k _
  rw [List.map_replicate]

theorem vtkOrder_pos (t : CellType) (N : Nat) (P V : List Pt) (h : VtkOrder t N P V) : 1 ≤ N := by
  cases h with
  | point => omega
  | interval n h => omega
  | triangle n h =>
    have : 1 * 2 ≤ (n + 1) * (n + 2) := Nat.mul_le_mul (by omega) (by omega)
    omega
  | tetrahedron n h =>
    have h1 : 2 * 3 ≤ (n + 1) * (n + 2) := Nat.mul_le_mul (by omega) (by omega)
    have : 6 * 1 ≤ (n + 1) * (n + 2) * (n + 3) := Nat.mul_le_mul (by omega) (by omega)
    omega
  | quadrilateral n h => have : 1 * 1 ≤ (n + 1) * (n + 1) := Nat.mul_le_mul (by omega) (by omega); omega
  | hexahedron n h =>
    have h1 : 1 * 1 ≤ (n + 1) * (n + 1) := Nat.mul_le_mul (by omega) (by omega)
    have : 1 * 1 ≤ (n + 1) * (n + 1) * (n + 1) := Nat.mul_le_mul (by omega) (by omega)
    omega
  | hexahedron20 => omega
  | prism _ h => omega
  | pyramid _ h => omega

theorem flatMap_partialSum (P : Nat) (lens : Nat → List Int) (start : Nat → Nat) (h0 : start 0 = 0)
    (hs : ∀ r < P, ((start (r + 1) : Nat) : Int) = start r + (lens r).sum) :
    (List.range P).flatMap (fun r => partialSum (start r : Nat) (lens r)) = partialSum 0 ((List.range P).flatMap lens) ∧
      ((start P : Nat) : Int) = ((List.range P).flatMap lens).sum := by
  induction P with
  | zero => simp [h0, partialSum]
  | succ P ih =>
    obtain ⟨h1, h2⟩ := ih (fun r hr => hs r (by omega))
    rw [List.range_succ, List.flatMap_append, List.flatMap_append, h1, partialSum_append, ← h2]
    refine ⟨by simp, ?_⟩
    rw [hs P (by omega), List.sum_append, ← h2]
    simp

theorem writeMesh_ok (m : Mesh α) (hm : MeshValid m) (hg : GhostsLast m) (hs : entries m < 2147483648) :
    ∃ f, writeMesh m = .ok f ∧ f.points = ((List.range m.geom.P).flatMap fun r => (m.x r).take (m.geom.size r)) ∧
      f.npoints = f.points.length ∧ Describes f ((List.range m.geom.P).flatMap (rankCells m)) := by
  have hentry : ∀ r, r ≤ m.geom.P → excl (nentry m) r ≤ entries m := by
    intro r hr
    rw [entries_eq]
    exact excl_mono _ hr
  have hcell : ∀ r, r ≤ m.geom.P → excl (ncell m) r ≤ entries m := by
    intro r hr
    refine le_trans (excl_le (g := nentry m) ?_ r) (hentry r hr)
    intro q
    apply sum_le_of
    intro k hk
    obtain ⟨P, V, ho⟩ := (hm.order k hk).1
    exact Nat.le_mul_of_pos_left _ (vtkOrder_pos _ _ _ _ ho)
  have hcs : ∀ r, r < m.geom.P → excl (ncell m) r + ncell m r ≤ entries m := by
    intro r hr
    have := hcell (r + 1) hr
    rwa [excl_succ] at this
  have hstart : ∀ r, r < m.geom.P → cellStart m r = (excl (ncell m) r : Nat) := by
    intro r hr
    have := hcell r (by omega)
    rw [cellStart, accumulate_eq _ (by rw [starts_sum]; omega), starts_sum]
  have hstop : ∀ r, r < m.geom.P → cellStop m r = (excl (ncell m) r + ncell m r : Nat) := by
    intro r hr
    have := hcs r hr
    rw [cellStop, accumulate_eq _ (by rw [stops_sum]; omega), stops_sum]
  have htstart : ∀ r, r < m.geom.P → topologyStart m r = (excl (nentry m) r : Nat) := by
    intro r hr
    have := hentry r (by omega)
    rw [topologyStart, innerProduct_eq _ (by rw [topo_sum]; omega), topo_sum]
  have hncells : accumulate (m.kinds.map fun k => k.start m.geom.P) = (excl (ncell m) m.geom.P : Nat) := by
    have := hcell _ (le_refl _)
    rw [accumulate_eq _ (by rw [starts_sum]; omega), starts_sum]
  have hsize : innerProduct (m.kinds.map fun k => (k.nodes, k.start m.geom.P)) = (excl (nentry m) m.geom.P : Nat) := by
    have := hentry _ (le_refl _)
    rw [innerProduct_eq _ (by rw [topo_sum]; omega), topo_sum]
  have hpts := writeDataset_concat ([] : List α) 0 m.geom.P m.geom.size m.x (fun r => (m.geom.r0 r : Int))
    (fun r => ((m.geom.r0 r + m.geom.size r : Nat) : Int)) (fun r _ => by simp [World.World.r0]) (fun r _ => by simp [World.World.r0])
    hm.coords (((List.range m.geom.P).map m.geom.size).sum : Nat) (by simp [excl])
  have htopo : (List.range m.geom.P).mapM (topology m) = .ok ((List.range m.geom.P).map fun r => ((rankCells m r).map Prod.snd).flatten) :=
    mapM_ok_map _ _ _ fun r hr => topology_ok m hm r (List.mem_range.1 hr)
  have htl : ∀ r, r < m.geom.P → ((rankCells m r).map Prod.snd).flatten.length = nentry m r := by
    intro r hr
    rw [List.length_flatten, List.map_map, ← rankCells_sum m hm r hr]
    rfl
  have hoff := writeDataset_concat (0 : Int) 1 m.geom.P (ncell m) (topologyOffsets m) (fun r => cellStart m r + 1) (fun r => cellStop m r + 1)
    (fun r hr => by simp only [hstart r hr]; omega) (fun r hr => by simp only [hstop r hr]; omega)
    (fun r hr => by
      rw [topologyOffsets, List.length_map, partialSum_length, List.length_flatMap]
      simp only [List.length_replicate]
      exact sum_le_of _ _ _ (hm.owned r hr))
    (accumulate (m.kinds.map fun k => k.start m.geom.P) + 1) (by rw [hncells]; omega)
  have hcon := writeDataset_concat (0 : Int) 0 m.geom.P (nentry m) (fun r => ((rankCells m r).map Prod.snd).flatten)
    (fun r => topologyStart m r) (fun r => topologyStart m r + ((rankCells m r).map Prod.snd).flatten.length)
    (fun r hr => by simp only [htstart r hr]; omega) (fun r hr => by simp only [htstart r hr, htl r hr]; omega)
    (fun r hr => by rw [htl r hr]) (innerProduct (m.kinds.map fun k => (k.nodes, k.start m.geom.P))) (by rw [hsize]; omega)
  have htyp := writeDataset_concat (0 : Nat) 0 m.geom.P (ncell m) (cellTypes m) (cellStart m) (cellStop m)
    (fun r hr => by rw [hstart r hr]; omega) (fun r hr => by rw [hstop r hr]; omega)
    (fun r hr => by rw [rankCells_types m hm r hr, List.length_map, rankCells_length m hm r hr])
    (accumulate (m.kinds.map fun k => k.start m.geom.P)) (by rw [hncells]; omega)
  have hzip : (((List.range m.geom.P).map fun r => ((rankCells m r).map Prod.snd).flatten).zipIdx.map fun t =>
      (topologyStart m t.2, topologyStart m t.2 + (t.1.length : Int), t.1)) =
      (List.range m.geom.P).map fun r => (topologyStart m r, topologyStart m r + (((rankCells m r).map Prod.snd).flatten.length : Int),
        ((rankCells m r).map Prod.snd).flatten) := by
    apply List.ext_getElem
    · simp
    · intro i h1 h2
      simp
  have hW : writeMesh m = .ok ⟨(List.range m.geom.P).flatMap fun r => (m.x r).take (m.geom.size r),
      (((List.range m.geom.P).map m.geom.size).sum : Nat),
      List.replicate 1 0 ++ (List.range m.geom.P).flatMap fun r => (topologyOffsets m r).take (ncell m r),
      (List.range m.geom.P).flatMap fun r => (((rankCells m r).map Prod.snd).flatten).take (nentry m r),
      (List.range m.geom.P).flatMap fun r => (cellTypes m r).take (ncell m r)⟩ := by
    simp only [writeMesh, bind, Except.bind, pure, Except.pure]
    rw [hpts, htopo]
    simp only
    rw [hoff, hzip]
    simp only
    rw [hcon, htyp]
    simp
  refine ⟨_, hW, rfl, ?_, ?_⟩
  · simp only [List.length_flatMap, List.length_take]
    congr 2
    apply List.map_congr_left
    intro r hr
    rw [Nat.min_eq_left (hm.coords r (List.mem_range.1 hr))]
  · have hlens : ∀ r, r < m.geom.P → (((rankCells m r).map fun x => (x.2.length : Int)).sum) = (nentry m r : Int) := by
      intro r hr
      rw [← rankCells_sum m hm r hr]
      induction rankCells m r with
      | nil => rfl
      | cons a l ih => simp [ih]
    obtain ⟨ho, -⟩ := flatMap_partialSum m.geom.P (fun r => (rankCells m r).map fun x => (x.2.length : Int)) (excl (nentry m)) rfl
      (fun r hr => by rw [hlens r hr, excl_succ]; omega)
    have ho' : ((List.range m.geom.P).flatMap fun r => (topologyOffsets m r).take (ncell m r)) =
        partialSum 0 (((List.range m.geom.P).flatMap (rankCells m)).map fun x => (x.2.length : Int)) := by
      rw [List.map_flatMap, ← ho]
      apply List.flatMap_congr
      intro r hr
      exact topologyOffsets_take m hm hg hs r (List.mem_range.1 hr)
    refine ⟨?_, ?_, ?_, ?_⟩
    · simp only [List.map_flatMap]
      apply List.flatMap_congr
      intro r hr
      have hr := List.mem_range.1 hr
      rw [rankCells_types m hm r hr, List.take_of_length_le (by rw [List.length_map, rankCells_length m hm r hr])]
    · simp only [List.map_flatMap]
      rw [flatten_flatMap']
      apply List.flatMap_congr
      intro r hr
      have hr := List.mem_range.1 hr
      rw [List.take_of_length_le (by rw [htl r hr])]
    · simp only [ho', List.length_append, partialSum_length, List.length_map, List.length_replicate]
      omega
    · intro c hc
      simp only [ho']
      have := partialSum_get 0 (((List.range m.geom.P).flatMap (rankCells m)).map fun x => (x.2.length : Int)) c (by simpa using hc)
      rw [zero_add, ← List.map_take] at this
      rw [List.replicate_one, List.singleton_append, this]
      congr 1
      induction ((List.range m.geom.P).flatMap (rankCells m)).take c with
      | nil => rfl
      | cons a l ih => simp [ih]

end Verif.Vtkhdf
