import Verif.Lemmas.CreateTopologyExchange
import Verif.Spec.GlobalIndex
import Mathlib.Tactic.IntervalCases
/-! # C41: vertex numbering of a distributed mesh -/
namespace Verif.Props
open Verif.World Verif.Std Verif.Exchange Verif.Group Verif.LocalRange Verif.GhostIdx Verif.CreateTopology Verif.Spec

/-- Every process has a valid vertex index map and its cells in local vertices: the global numbers behind the local
vertices identify the input vertices across all processes, local numbers have no gaps, and a process owns only vertices
of its owned cells. -/
structure VerticesNumbered (I : CreateTopology.Input) (w : World) (lc : Nat → Nat → List (Option Nat)) : Prop where
  ranks : w.P = I.P
  valid : w.Valid
  length : ∀ r, r < I.P → ∀ t, t < I.nt → (lc r t).length = (I.cells r t).length
  number : ∃ gid : Nat → Nat,
    (∀ r, r < I.P → ∀ t, t < I.nt → ∀ (i v : Nat), (I.cells r t)[i]? = some v →
      ∃ l, (lc r t)[i]? = some (some l) ∧ globalOf w r l = some (gid v)) ∧
    ∀ r r' t t', r < I.P → r' < I.P → t < I.nt → t' < I.nt → ∀ u ∈ I.cells r t, ∀ v ∈ I.cells r' t', gid u = gid v → u = v
  gapless : ∀ r, r < I.P → ∀ l, l < w.size r + (w.ghosts r).length → ∃ t, t < I.nt ∧ ∃ i : Nat, (lc r t)[i]? = some (some l)
  owner : ∀ r, r < I.P → ∀ l, l < w.size r →
    ∃ t, t < I.nt ∧ ∃ i, i < ((I.orig r t).length - (I.gown r t).length) * I.nv t ∧ (lc r t)[i]? = some (some l)

variable {I : CreateTopology.Input}

theorem flatMap_tiles {α : Type} {R : Nat → Nat × Nat} {n N : Nat} (hT : Tiles R n N) (hn : 0 < n) (l : List α)
    (hl : l.length = N) : ((List.range n).flatMap fun i => (l.drop (R i).1).take ((R i).2 - (R i).1)) = l := by
  have key : ∀ k, k < n → ((List.range (k + 1)).flatMap fun i => (l.drop (R i).1).take ((R i).2 - (R i).1)) = l.take (R k).2 := by
    intro k
    induction k with
    | zero =>
      intro _
      have h0 := hT.start hn
      simp [h0]
    | succ k ih =>
      intro hk
      rw [List.range_succ (n := k + 1), List.flatMap_append, ih (by omega), List.flatMap_singleton, hT.glued k hk]
      have h1 := hT.ordered (k + 1) hk
      rw [hT.glued k hk] at h1
      conv_rhs => rw [show (R (k + 1)).2 = (R k).2 + ((R (k + 1)).2 - (R k).2) by omega]
      rw [List.take_add]
  have := key (n - 1) (by omega)
  rw [show n - 1 + 1 = n by omega, hT.stop (n - 1) (by omega), ← hl, List.take_length] at this
  exact this

theorem localCells_eq (h : CreateTopology.Ok I) (r t : Nat) : localCells I r t = (I.cells r t).map (convert I r) := by
  unfold localCells
  simp only
  rw [← List.map_flatMap, flatMap_tiles (C01_local_range_tiles _ _ h.threads) h.threads _ rfl]

/-- The numbers in the table are the positions among all numbered vertices. -/
theorem convert_eq (h : CreateTopology.Ok I) {r v : Nat} (hr : r < I.P) {acc : List Nat} (hs : Inv I r acc (final I r))
    (hv : v ∈ allV I r) : convert I r v = num (order I r ++ acc) v := by
  have hstr := allV_strict h hr
  unfold convert
  rw [hs.g2l]
  simp only
  have hfst : ((allV I r).map fun v => (v, num (order I r ++ acc) v)).map Prod.fst = allV I r := by
    rw [List.map_map]
    have : (Prod.fst ∘ fun v => (v, num (order I r ++ acc) v)) = (id : Nat → Nat) := rfl
    rw [this, List.map_id]
  rw [hfst]
  split
  · rename_i hid
    have he := identity_eq hstr hid
    have hlt : v < (allV I r).length := by rw [he] at hv; simpa using hv
    have hget : (allV I r)[v]? = some v := by rw [he]; simp [hlt]
    rw [if_pos (by simpa using hlt), List.getElem?_map, hget]; rfl
  · rcases emplace_spec ((allV I r).map fun v => (v, num (order I r ++ acc) v)) v with ⟨a, h1, h2⟩ | ⟨_, h2⟩
    · rw [h1]
      obtain ⟨x, _, hx⟩ := List.mem_map.mp h2
      simp only [Prod.mk.injEq] at hx
      obtain ⟨rfl, rfl⟩ := hx
      rfl
    · exact absurd (List.mem_map.mpr ⟨v, hv, rfl⟩) (h2 _)

theorem mem_cells_allCells {r t v : Nat} (ht : t < I.nt) (hv : v ∈ I.cells r t) : v ∈ allCells I r :=
  List.mem_flatMap.mpr ⟨t, List.mem_range.mpr ht, hv⟩

theorem vertices_numbered (h : CreateTopology.Ok I) : VerticesNumbered I (vertexWorld I) (localCells I) := by
  have hr0 : ∀ r, (vertexWorld I).r0 r = offset I r := fun _ => rfl
  have hused : ∀ r, r < I.P → ∀ v ∈ allCells I r, ∃ q, q < I.P ∧ v ∈ owned I q := by
    intro r hr v hv
    rcases (mem_allCells h hr).mp hv with ho | hg
    · exact owned_exists h hr ho
    · obtain ⟨q, hq, ho, _⟩ := recvGhost_complete h hr hg
      exact owned_exists h hq ho
  have hun : ∀ r, r < I.P → ∀ v ∈ unowned I r, ∃ q, q < I.P ∧ q ≠ r ∧ v ∈ owned I q := by
    intro r hr v hv
    obtain ⟨q, hq, ho⟩ := hused r hr v ((local_iff h hr).mpr (Or.inr hv))
    refine ⟨q, hq, ?_, ho⟩
    rintro rfl
    exact not_both h hr ho hv
  -- local number of every vertex
  have hloc : ∀ r, r < I.P → ∀ acc, Inv I r acc (final I r) → (∀ v ∈ unowned I r, v ∈ acc) → ∀ v ∈ allCells I r,
      convert I r v = some ((order I r ++ acc).idxOf v) ∧
        globalOf (vertexWorld I) r ((order I r ++ acc).idxOf v) = some (gid I v) := by
    intro r hr acc hs hall v hv
    have hcase := (local_iff h hr).mp hv
    have hA : v ∈ order I r ++ acc := List.mem_append.mpr (hcase.imp (mem_order h hr).mpr (hall v))
    refine ⟨by rw [convert_eq h hr hs (mem_allV.mpr hcase), num_local _ _ hA], ?_⟩
    unfold globalOf
    show (if _ < (owned I r).length then some (offset I r + _) else ((final I r).ghosts)[_ - (owned I r).length]?) = _
    by_cases ho : v ∈ order I r
    · have hidx : (order I r ++ acc).idxOf v = (order I r).idxOf v := by rw [List.idxOf_append, if_pos ho]
      have hlt := List.idxOf_lt_length_of_mem ho
      rw [hidx, if_pos (by rw [← order_length h hr]; exact hlt), gid_eq h hr ((mem_order h hr).mp ho)]
    · have ha : v ∈ acc := (List.mem_append.mp hA).resolve_left ho
      have hidx : (order I r ++ acc).idxOf v = acc.idxOf v + (order I r).length := by rw [List.idxOf_append, if_neg ho]
      rw [hidx, order_length h hr, if_neg (by omega), Nat.add_sub_cancel, hs.ghosts, List.getElem?_map, List.getElem?_idxOf ha]
      rfl
  have hlc : ∀ r t (i v : Nat), (I.cells r t)[i]? = some v → (localCells I r t)[i]? = some (convert I r v) := by
    intro r t i v hi
    rw [localCells_eq h, List.getElem?_map, hi]; rfl
  refine ⟨rfl, ⟨?_, ?_, ?_⟩, ?_, ⟨gid I, ?_, ?_⟩, ?_, ?_⟩
  · intro r hr
    obtain ⟨acc, hs, _⟩ := final_inv h hr
    show (final I r).owners.length = (final I r).ghosts.length
    rw [hs.owners, hs.ghosts]; simp
  · intro r hr
    obtain ⟨acc, hs, _⟩ := final_inv h hr
    show (final I r).ghosts.Nodup
    rw [hs.ghosts]
    refine List.Nodup.map_on ?_ hs.nodup
    intro x hx y _ hxy
    obtain ⟨q, hq, _, ho⟩ := hun r hr x (hs.mem x hx)
    exact gid_inj h ⟨q, hq, ho⟩ hxy
  · intro r hr k q g hq hg
    obtain ⟨acc, hs, _⟩ := final_inv h hr
    have hq' : (acc.map (ownerOf I))[k]? = some q := by rw [← hs.owners]; exact hq
    have hg' : (acc.map (gid I))[k]? = some g := by rw [← hs.ghosts]; exact hg
    rw [List.getElem?_map] at hq' hg'
    cases hk : acc[k]? with
    | none => rw [hk] at hq'; cases hq'
    | some v =>
      rw [hk] at hq' hg'
      simp only [Option.map_some, Option.some.injEq] at hq' hg'
      obtain ⟨o, hoP, hne, ho⟩ := hun r hr v (hs.mem v (List.mem_of_getElem? hk))
      rw [ownerOf_eq h hoP ho] at hq'
      subst hq'
      rw [gid_eq h hoP ho] at hg'
      have hlt := List.idxOf_lt_length_of_mem ((mem_order h hoP).mpr ho)
      rw [order_length h hoP] at hlt
      rw [hr0]
      show o < I.P ∧ o ≠ r ∧ offset I o ≤ g ∧ g < offset I o + (owned I o).length
      exact ⟨hoP, hne, by omega, by omega⟩
  · intro r _ t _
    rw [localCells_eq h, List.length_map]
  · intro r hr t ht i v hi
    obtain ⟨acc, hs, hall⟩ := final_inv h hr
    obtain ⟨h1, h2⟩ := hloc r hr acc hs hall v (mem_cells_allCells ht (List.mem_of_getElem? hi))
    exact ⟨_, by rw [hlc r t i v hi, h1], h2⟩
  · intro r r' t t' hr hr' ht ht' u hu v hv he
    exact gid_inj h (hused r hr u (mem_cells_allCells ht hu)) he
  · intro r hr l hl
    obtain ⟨acc, hs, hall⟩ := final_inv h hr
    have hlen : l < (order I r ++ acc).length := by
      have h1 : (vertexWorld I).size r = (order I r).length := (order_length h hr).symm
      have h2 : ((vertexWorld I).ghosts r).length = acc.length := by
        show (final I r).ghosts.length = _
        rw [hs.ghosts]; simp
      rw [List.length_append]; omega
    have hnd : (order I r ++ acc).Nodup := by
      rw [List.nodup_append]
      refine ⟨order_nodup r, hs.nodup, ?_⟩
      rintro a ha b hb rfl
      exact unowned_not_order h hr (hs.mem a hb) ha
    have hmem : (order I r ++ acc)[l] ∈ allCells I r := by
      rw [local_iff h hr]
      rcases List.mem_append.mp (List.getElem_mem hlen) with h1 | h1
      · exact Or.inl ((mem_order h hr).mp h1)
      · exact Or.inr (hs.mem _ h1)
    obtain ⟨h1, _⟩ := hloc r hr acc hs hall _ hmem
    rw [hnd.idxOf_getElem l hlen] at h1
    obtain ⟨t, ht, hv⟩ := List.mem_flatMap.mp hmem
    obtain ⟨i, hi⟩ := List.getElem?_of_mem hv
    exact ⟨t, List.mem_range.mp ht, i, by rw [hlc r t i _ hi, h1]⟩
  · intro r hr l hl
    obtain ⟨acc, hs, hall⟩ := final_inv h hr
    have hlen : l < (order I r).length := by rw [order_length h hr]; exact hl
    have hmo : (order I r)[l] ∈ order I r := List.getElem_mem hlen
    have hown := (mem_order h hr).mp hmo
    obtain ⟨h1, _⟩ := hloc r hr acc hs hall _ ((local_iff h hr).mpr (Or.inl hown))
    rw [List.idxOf_append, if_pos hmo, (order_nodup r).idxOf_getElem l hlen] at h1
    obtain ⟨t, ht, c, hc, hv⟩ := ((mem_owned h hr).mp hown).1
    obtain ⟨j, hj, hget⟩ := cell_mem.mp hv
    refine ⟨t, ht, c * I.nv t + j, ?_, by rw [hlc r t _ _ hget, h1]⟩
    calc c * I.nv t + j < c * I.nv t + I.nv t := by omega
      _ = (c + 1) * I.nv t := by ring
      _ ≤ _ := Nat.mul_le_mul_right _ hc

/-- **C41 (partial).**  For any number of processes, cell types, threads and whatever numbers are drawn,
`create_topology` gives the vertices of a distributed mesh consistent local and global numbers.  Missing: boundary
vertices with equal low 32 bits (`C41_refuted_large_numbers`), and boundary vertices that do not ascend. -/
theorem C41_create_topology_partial (I : CreateTopology.Input) (h : CreateTopology.Ok I) :
    ∃ w lc, createTopology I = some (w, lc) ∧ VerticesNumbered I w lc := by
  refine ⟨vertexWorld I, localCells I, ?_, vertices_numbered h⟩
  unfold createTopology
  rw [if_neg]
  rintro (h1 | ⟨r, hr, t, ht, h1⟩)
  · have := h.threads; omega
  · rw [(h.size r (List.mem_range.mp hr) t (List.mem_range.mp ht)).1] at h1
    simp at h1

/-- Two processes with triangles, each with one ghost: the square `10, 20, 30, 40` with the diagonal `10, 30`, and a
further triangle on process 1. -/
def exMesh (threads : Nat) : CreateTopology.Input where
  P := 2
  nt := 1
  nv _ := 3
  cells r _ := [[10, 20, 30, 30, 40, 10], [30, 40, 10, 40, 30, 50, 10, 20, 30]].getD r []
  orig r _ := [[7, 8], [8, 3, 7]].getD r []
  gown r _ := [[1], [0]].getD r []
  boundary r := [[10, 30], [10, 30]].getD r []
  threads := threads
  pick _ _ n := n - 1
  inEdges _ r := [[1], [0]].getD r []

theorem exMesh_ok (n : Nat) (hn : 0 < n) : CreateTopology.Ok (exMesh n) where
  threads := hn
  nv := by intro t _; show 0 < 3; omega
  size := by
    intro r hr t _
    have : r < 2 := hr
    interval_cases r <;> exact ⟨rfl, Nat.le_of_ble_eq_true rfl⟩
  orig := by
    intro t _
    show (allOwned 2 fun r => (([[7, 8], [8, 3, 7]].getD r [] : List Nat)).take
      (([[7, 8], [8, 3, 7]].getD r [] : List Nat).length - ([[1], [0]].getD r [] : List Nat).length)).Nodup
    decide
  ghostNodup := by
    intro r hr t _
    have : r < 2 := hr
    interval_cases r <;> (show List.Nodup [_]; simp)
  ghost := by
    intro r hr t _ k o ho
    have : r < 2 := hr
    interval_cases r
    · rcases k with _ | k
      · have : o = 1 := by simpa [exMesh] using ho.symm
        subst this
        refine ⟨by show 1 < 2; omega, by omega, 0, by show 0 < 2; omega, rfl, ?_⟩
        show ∀ v ∈ [30, 40, 10], v ∈ [30, 40, 10]
        simp
      · simp [exMesh] at ho
    · rcases k with _ | k
      · have : o = 0 := by simpa [exMesh] using ho.symm
        subst this
        refine ⟨by show 0 < 2; omega, by omega, 0, by show 0 < 1; omega, rfl, ?_⟩
        show ∀ v ∈ [10, 20, 30], v ∈ [10, 20, 30]
        simp
      · simp [exMesh] at ho
  sorted := by
    intro r hr
    have : r < 2 := hr
    interval_cases r <;> (show List.Pairwise (· < ·) [10, 30]; decide)
  subset := by
    intro r hr v hv
    have : r < 2 := hr
    interval_cases r
    · have hv' : v ∈ [10, 30] := hv
      refine ⟨0, by show 0 < 1; omega, 0, by show 0 < 1; omega, ?_⟩
      show v ∈ [10, 20, 30]
      simp at hv' ⊢; omega
    · have hv' : v ∈ [10, 30] := hv
      refine ⟨0, by show 0 < 1; omega, 0, by show 0 < 2; omega, ?_⟩
      show v ∈ [30, 40, 10]
      simp at hv' ⊢; omega
  complete := by
    have h0 : ∀ v, InOwned (exMesh n) 0 v → v ∈ [10, 20, 30] := by
      rintro v ⟨t, ht, c, hc, hv⟩
      have : c < 1 := hc
      interval_cases c
      exact hv
    have h1 : ∀ v, InOwned (exMesh n) 1 v → v ∈ [10, 30, 40, 50] := by
      rintro v ⟨t, ht, c, hc, hv⟩
      have : c < 2 := hc
      interval_cases c
      · have hv' : v ∈ [30, 40, 10] := hv
        simp at hv' ⊢; omega
      · have hv' : v ∈ [40, 30, 50] := hv
        simp at hv' ⊢; omega
    intro r hr q hq hne v hv1 hv2
    have hr' : r < 2 := hr
    have hq' : q < 2 := hq
    have key : ∀ v, v ∈ [10, 20, 30] → v ∈ [10, 30, 40, 50] → v ∈ [10, 30] := by
      intro v h3 h4
      simp at h3 h4 ⊢; omega
    interval_cases r <;> interval_cases q
    · exact absurd rfl hne
    · exact key v (h0 v hv1) (h1 v hv2)
    · exact key v (h0 v hv2) (h1 v hv1)
    · exact absurd rfl hne
  inj := by
    intro q r hq hr u hu v hv he
    have hb : ∀ q, q < 2 → ∀ u ∈ (exMesh n).boundary q, u < 2 ^ 32 := by
      intro q hq u hu
      interval_cases q <;> (have hu' : u ∈ [10, 30] := hu; simp at hu'; omega)
    rwa [Nat.mod_eq_of_lt (hb q hq u hu), Nat.mod_eq_of_lt (hb r hr v hv)] at he
  pick := by
    intro r g n hn
    show n - 1 < n
    omega
  inEdges := by
    intro t _
    show InEdges 2 (fun q => (nbrs (([[1], [0]] : List (List Nat)).getD q [])).neighbors)
      fun r => ([[1], [0]] : List (List Nat)).getD r []
    refine inEdges_of ?_ ?_ ?_ <;> decide +kernel

example : CreateTopology.Ok (exMesh 3) ∧ (List.range 2).map (owned (exMesh 3)) = [[20], [10, 30, 40, 50]] ∧
    localCells (exMesh 3) 0 0 = [some 1, some 0, some 2, some 2, some 3, some 1] ∧
    (vertexWorld (exMesh 3)).ghosts 0 = [3, 1, 2] :=
  ⟨exMesh_ok 3 (by omega), by decide +kernel, by decide +kernel, by decide +kernel⟩

/-- Two processes with an interval each that have no common vertex. -/
def exMeshLarge : CreateTopology.Input where
  P := 2
  nt := 1
  nv _ := 2
  cells r _ := [[0, 5], [2 ^ 32, 2 ^ 34]].getD r []
  orig r _ := [[0], [1]].getD r []
  gown _ _ := []
  boundary r := [[0], [2 ^ 32, 2 ^ 34]].getD r []
  threads := 1
  pick _ _ _ := 0
  inEdges _ _ := []

/-- **C41, refuted for large numbers**: vertices `0` of process 0 and `2^32` of process 1 have the same low 32 bits, and
process 1 gives its vertex the number of the other. -/
theorem C41_refuted_large_numbers :
    ¬ ∃ w lc, createTopology exMeshLarge = some (w, lc) ∧ VerticesNumbered exMeshLarge w lc := by
  rintro ⟨w, lc, h1, h2⟩
  have h3 : createTopology exMeshLarge = some (vertexWorld exMeshLarge, localCells exMeshLarge) := by
    unfold createTopology
    rw [if_neg (by decide +kernel)]
  rw [h3] at h1
  simp only [Option.some.injEq, Prod.mk.injEq] at h1
  obtain ⟨rfl, rfl⟩ := h1
  obtain ⟨gid, hg, hinj⟩ := h2.number
  obtain ⟨l, a1, a2⟩ := hg 0 (by decide) 0 (by decide) 0 0 rfl
  obtain ⟨m, b1, b2⟩ := hg 1 (by decide) 0 (by decide) 0 (2 ^ 32) rfl
  have ha : (localCells exMeshLarge 0 0)[0]? = some (some 0) := by decide +kernel
  have hb : (localCells exMeshLarge 1 0)[0]? = some (some 1) := by decide +kernel
  rw [ha] at a1
  rw [hb] at b1
  simp only [Option.some.injEq] at a1 b1
  subst a1 b1
  have hga : globalOf (vertexWorld exMeshLarge) 0 0 = some 0 := by decide +kernel
  have hgb : globalOf (vertexWorld exMeshLarge) 1 1 = some 0 := by decide +kernel
  rw [hga] at a2
  rw [hgb] at b2
  simp only [Option.some.injEq] at a2 b2
  have := hinj 0 1 0 0 (by decide) (by decide) (by decide) (by decide) 0 (by decide +kernel) (2 ^ 32) (by decide +kernel)
    (a2.symm.trans b2)
  revert this
  decide

end Verif.Props
