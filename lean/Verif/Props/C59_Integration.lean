import Verif.Lemmas.Integration
import Verif.Lemmas.WorldCheck
/-!
# C59: integrals visit each cell and facet of their domain exactly once over all processes
-/
namespace Verif.Props
open Verif.Std Verif.World Verif.Spec Verif.Spec.Integration Verif.Integration

variable {m : Mesh}

/-- From rows on each process to all processes. -/
theorem C59_aux_visits (S : Nat → Prop) [DecidablePred S] (Row : Nat → Nat → List Nat → Prop) (mk : Nat → Nat → List Nat)
    (rows : Nat → List (List Nat))
    (hrows : ∀ r < m.C.P, rows r = ((List.range (m.E.size r)).filter fun e => decide (S (m.E.r0 r + e))).map (mk r))
    (hrow : ∀ r < m.C.P, ∀ e < m.E.size r, S (m.E.r0 r + e) → Row r (m.E.r0 r + e) (mk r e)) : Visits m S Row rows := by
  refine ⟨fun r => ((List.range (m.E.size r)).filter fun e => decide (S (m.E.r0 r + e))).map (m.E.r0 r + ·),
    flat_filter m.E m.C.P fun f => decide (S f), fun r hr => ⟨?_, ?_⟩⟩
  · intro f hf
    obtain ⟨e, he, rfl⟩ := List.mem_map.mp hf
    have := List.mem_range.mp (List.mem_filter.mp he).1
    constructor <;> omega
  · rw [hrows r hr, List.forall₂_map_left_iff, List.forall₂_map_right_iff]
    refine List.forall₂_same.mpr fun e he => ?_
    have := List.mem_filter.mp he
    exact hrow r hr e (List.mem_range.mp this.1) (by simpa using this.2)

/-- The owned entities of a tag. -/
theorem C59_aux_take (found : Nat → List Nat) (S : Nat → Prop) [DecidablePred S] (ht : Tagged m found S) (r : Nat) (hr : r < m.C.P) :
    (found r).take (lowerBound (fun e => decide (e < m.E.size r)) (found r)) = (List.range (m.E.size r)).filter fun e => decide (S (m.E.r0 r + e)) := by
  rw [take_owned _ _ (ht r hr).1]
  refine List.filter_congr fun e he => ?_
  have := (ht r hr).2 e (List.mem_range.mp he)
  simp [this]

theorem C59_aux_intersect (found : Nat → List Nat) (S : Nat → Prop) [DecidablePred S] (ht : Tagged m found S) :
    Tagged m (fun r => intersect1d (found r) ((List.range (m.E.size r)).filter fun e => decide ((cellsAt m (m.E.r0 r + e)).length = 1)))
      fun f => S f ∧ (cellsAt m f).length = 1 := by
  intro r hr
  refine ⟨unique_sortNat_sorted _, fun e he => ?_⟩
  unfold intersect1d
  have := (ht r hr).2 e he
  rw [mem_unique_sortNat, List.mem_filter]
  simp [he, this]

/-- **C59 (cells).** Cell integrals without and with a tag visit exactly the cells (with the tag), each once over all processes, on the owner. -/
theorem C59_cells (C : World) (e2c c2e : List (List Nat)) (inter : List Nat) :
    (∃ rows : Nat → List (List Nat), (∀ r < C.P, defaults .cell (C.size r) e2c c2e inter = .ok (rows r)) ∧
      ((List.range C.P).flatMap fun r => (rows r).map fun row => row.map (C.r0 r + ·)) = (List.range (C.r0 C.P)).map fun g => [g]) ∧
    ∀ (found : Nat → List Nat) (S : Nat → Prop) [DecidablePred S],
      (∀ r < C.P, (found r).Pairwise (· < ·) ∧ ∀ c < C.size r, (c ∈ found r ↔ S (C.r0 r + c))) →
      ∃ rows : Nat → List (List Nat), (∀ r < C.P, tagged .cell (C.size r) e2c c2e inter (found r) = .ok (rows r)) ∧
        ((List.range C.P).flatMap fun r => (rows r).map fun row => row.map (C.r0 r + ·)) =
          ((List.range (C.r0 C.P)).filter fun g => decide (S g)).map fun g => [g] := by
  constructor
  · refine ⟨fun r => (List.range (C.size r)).map fun c => [c], fun r _ => rfl, ?_⟩
    have := flat_filter C C.P fun _ => true
    simp only [List.filter_true] at this
    rw [← this, List.map_flatMap]
    simp [List.map_map, Function.comp_def]
  · intro found S _ ht
    refine ⟨fun r => ((found r).take (lowerBound (fun e => decide (e < C.size r)) (found r))).map fun c => [c], fun r _ => rfl, ?_⟩
    rw [← flat_filter C C.P fun g => decide (S g), List.map_flatMap]
    refine List.flatMap_congr fun r hr => ?_
    have hr := List.mem_range.mp hr
    simp only
    rw [take_owned _ _ (ht r hr).1, List.map_map, List.map_map]
    have : (List.range (C.size r)).filter (fun e => decide (e ∈ found r)) = (List.range (C.size r)).filter fun e => decide (S (C.r0 r + e)) := by
      refine List.filter_congr fun e he => ?_
      have := (ht r hr).2 e (List.mem_range.mp he)
      simp [this]
    rw [this]
    rfl

/-- **C59 (exterior facets).** Boundary integrals visit exactly the facets with one cell (and the tag), each once over all processes, with that
cell and the number of the facet in it; and `exterior_facet_indices` gives these facets. -/
theorem C59_exterior (h : Ok m) :
    (∃ ext : Nat → List Nat, (∀ r < m.C.P, exteriorFacets (m.E.size r) (some (m.e2c r)) (m.inter r) = .ok (ext r)) ∧
      ∀ r < m.C.P, ∀ e, e ∈ ext r ↔ e < m.E.size r ∧ (cellsAt m (m.E.r0 r + e)).length = 1) ∧
    (∃ rows : Nat → List (List Nat), (∀ r < m.C.P, defaults .exteriorFacet (m.E.size r) (m.e2c r) (m.c2e r) (m.inter r) = .ok (rows r)) ∧
      Visits m (fun f => (cellsAt m f).length = 1) (OneSided m) rows) ∧
    ∀ (found : Nat → List Nat) (S : Nat → Prop) [DecidablePred S], Tagged m found S →
      ∃ rows : Nat → List (List Nat), (∀ r < m.C.P, tagged .exteriorFacet (m.E.size r) (m.e2c r) (m.c2e r) (m.inter r) (found r) = .ok (rows r)) ∧
        Visits m (fun f => S f ∧ (cellsAt m f).length = 1) (OneSided m) rows := by
  refine ⟨⟨_, fun r hr => exteriorFacets_eq h r hr, fun r hr e => by simp⟩, ?_, ?_⟩
  · refine ⟨fun r => ((List.range (m.E.size r)).filter fun e => decide ((cellsAt m (m.E.r0 r + e)).length = 1)).map
      fun e => firstPair (m.c2e r) e ((m.e2c r).getD e []), fun r hr => ?_, ?_⟩
    · simp only [defaults, exteriorFacets_eq h r hr]
      rfl
    · exact C59_aux_visits _ _ (fun r e => firstPair (m.c2e r) e ((m.e2c r).getD e [])) _ (fun r _ => rfl)
        fun r hr e he _ => firstPair_spec h r e hr he
  · intro found S _ ht
    have ht' := C59_aux_intersect found S ht
    refine ⟨fun r => ((List.range (m.E.size r)).filter fun e => decide (S (m.E.r0 r + e) ∧ (cellsAt m (m.E.r0 r + e)).length = 1)).map
      fun e => firstPair (m.c2e r) e ((m.e2c r).getD e []), fun r hr => ?_, ?_⟩
    · simp only [tagged, exteriorFacets_eq h r hr]
      have := C59_aux_take _ _ ht' r hr
      simp only [bind, Except.bind, domains, connectivities]
      rw [this]
    · exact C59_aux_visits _ _ (fun r e => firstPair (m.c2e r) e ((m.e2c r).getD e [])) _ (fun r _ => rfl)
        fun r hr e he _ => firstPair_spec h r e hr he

/-- **C59 (vertices and ridges).** Integrals over vertices or ridges visit each (with the tag) once over all processes, with a cell at it. -/
theorem C59_points (h : Ok m) (k : Kind) (hk : k = .vertex ∨ k = .ridge) :
    (∃ rows : Nat → List (List Nat), (∀ r < m.C.P, defaults k (m.E.size r) (m.e2c r) (m.c2e r) (m.inter r) = .ok (rows r)) ∧
      Visits m (fun _ => True) (OneSided m) rows) ∧
    ∀ (found : Nat → List Nat) (S : Nat → Prop) [DecidablePred S], Tagged m found S →
      ∃ rows : Nat → List (List Nat), (∀ r < m.C.P, tagged k (m.E.size r) (m.e2c r) (m.c2e r) (m.inter r) (found r) = .ok (rows r)) ∧
        Visits m S (OneSided m) rows := by
  constructor
  · refine ⟨fun r => (List.range (m.E.size r)).map fun e => firstPair (m.c2e r) e ((m.e2c r).getD e []), fun r hr => ?_, ?_⟩
    · rcases hk with rfl | rfl <;> rfl
    · exact C59_aux_visits _ _ (fun r e => firstPair (m.c2e r) e ((m.e2c r).getD e [])) _ (fun r _ => by simp)
        fun r hr e he _ => firstPair_spec h r e hr he
  · intro found S _ ht
    refine ⟨fun r => ((List.range (m.E.size r)).filter fun e => decide (S (m.E.r0 r + e))).map
      fun e => firstPair (m.c2e r) e ((m.e2c r).getD e []), fun r hr => ?_, ?_⟩
    · show _ = Except.ok (List.map _ (List.filter _ _))
      rw [← C59_aux_take found S ht r hr]
      rcases hk with rfl | rfl <;> rfl
    · exact C59_aux_visits _ _ (fun r e => firstPair (m.c2e r) e ((m.e2c r).getD e [])) _ (fun r _ => rfl)
        fun r hr e he _ => firstPair_spec h r e hr he

/-- What the loop over a set of owned facets does. -/
theorem C59_aux_interior (h : Ok m) (hm : ∀ f, (cellsAt m f).length ≤ 2) (S T : Nat → Prop) [DecidablePred S] [DecidablePred T]
    (hT : ∀ f, T f ↔ S f ∧ (cellsAt m f).length = 2) (res : Nat → Except Err (List (List Nat)))
    (hres : ∀ r < m.C.P, res r = interiorRows (m.e2c r) (m.c2e r) (m.inter r) ((List.range (m.E.size r)).filter fun e => decide (S (m.E.r0 r + e)))) :
    (∀ rows : Nat → List (List Nat), (∀ r < m.C.P, res r = .ok (rows r)) → Visits m T (TwoSided m) rows) ∧
    ∀ r < m.C.P, (res r = .error .interprocess ↔ ∃ e < m.E.size r, T (m.E.r0 r + e) ∧
        ∃ g ∈ cellsAt m (m.E.r0 r + e), ∀ c, globalOf m.C r c ≠ some g) ∧
      (res r ≠ .error .interprocess → ∃ rows, res r = .ok rows) := by
  constructor
  · intro rows hok
    refine C59_aux_visits _ _ (fun r e => bothPairs (m.c2e r) e ((m.e2c r).getD e [])) rows (fun r hr => ?_) fun r hr e he hS => ?_
    · obtain ⟨s1, s2⟩ := interiorRows_spec (m.e2c r) (m.c2e r) (m.inter r) ((List.range (m.E.size r)).filter fun e => decide (S (m.E.r0 r + e)))
      rw [← hres r hr, hok r hr] at s1 s2
      have hn : ¬ _ := fun hx => by have := s1.mpr hx; simp at this
      have he := Except.ok.inj (s2 hn)
      rw [he, List.filter_filter]
      congr 1
      refine List.filter_congr fun e he => ?_
      have hlt := List.mem_range.mp he
      by_cases hS : S (m.E.r0 r + e)
      · have := (interior_iff h hm r e hr hlt).2 fun hx => hn ⟨e, List.mem_filter.mpr ⟨he, by simpa using hS⟩, hx⟩
        simp only [hS, decide_true, Bool.and_true]
        rw [decide_eq_decide, hT]
        exact this.trans (by simp [hS])
      · have : ¬ T (m.E.r0 r + e) := fun hx => hS ((hT _).mp hx).1
        simp [hS, this]
    · refine bothPairs_spec h r e hr he ?_
      obtain ⟨s1, _⟩ := interiorRows_spec (m.e2c r) (m.c2e r) (m.inter r) ((List.range (m.E.size r)).filter fun e => decide (S (m.E.r0 r + e)))
      rw [← hres r hr, hok r hr] at s1
      have hn : ¬ _ := fun hx => by have := s1.mpr hx; simp at this
      exact ((interior_iff h hm r e hr he).2 fun hx => hn ⟨e, List.mem_filter.mpr ⟨List.mem_range.mpr he, by simpa using ((hT _).mp hS).1⟩, hx⟩).mpr ((hT _).mp hS).2
  · intro r hr
    obtain ⟨s1, s2⟩ := interiorRows_spec (m.e2c r) (m.c2e r) (m.inter r) ((List.range (m.E.size r)).filter fun e => decide (S (m.E.r0 r + e)))
    rw [← hres r hr] at s1 s2
    refine ⟨s1.trans ⟨?_, ?_⟩, fun hne => ⟨_, s2 fun hx => hne (s1.mpr hx)⟩⟩
    · rintro ⟨e, he, hx⟩
      obtain ⟨h1, h2⟩ := List.mem_filter.mp he
      have := (interior_iff h hm r e hr (List.mem_range.mp h1)).1.mp hx
      exact ⟨e, List.mem_range.mp h1, (hT _).mpr ⟨by simpa using h2, this.1⟩, this.2⟩
    · rintro ⟨e, he, hS, hx⟩
      have hS := (hT _).mp hS
      exact ⟨e, List.mem_filter.mpr ⟨List.mem_range.mpr he, by simpa using hS.1⟩, (interior_iff h hm r e hr he).1.mpr ⟨hS.2, hx⟩⟩

/-- **C59 (interior facets).** If no process reports an error, integrals over interior facets visit exactly the facets with two cells (and the tag),
each once over all processes, with both cells and the number of the facet in each. A process reports an error exactly if one of its facets with
two cells (and the tag) has a cell that is not on the process. -/
theorem C59_interior (h : Ok m) (hm : ∀ f, (cellsAt m f).length ≤ 2) :
    ((∀ rows : Nat → List (List Nat), (∀ r < m.C.P, defaults .interiorFacet (m.E.size r) (m.e2c r) (m.c2e r) (m.inter r) = .ok (rows r)) →
      Visits m (fun f => (cellsAt m f).length = 2) (TwoSided m) rows) ∧
     ∀ r < m.C.P, (defaults .interiorFacet (m.E.size r) (m.e2c r) (m.c2e r) (m.inter r) = .error .interprocess ↔
        ∃ e < m.E.size r, (cellsAt m (m.E.r0 r + e)).length = 2 ∧ ∃ g ∈ cellsAt m (m.E.r0 r + e), ∀ c, globalOf m.C r c ≠ some g) ∧
      (defaults .interiorFacet (m.E.size r) (m.e2c r) (m.c2e r) (m.inter r) ≠ .error .interprocess →
        ∃ rows, defaults .interiorFacet (m.E.size r) (m.e2c r) (m.c2e r) (m.inter r) = .ok rows)) ∧
    ∀ (found : Nat → List Nat) (S : Nat → Prop) [DecidablePred S], Tagged m found S →
      ((∀ rows : Nat → List (List Nat), (∀ r < m.C.P, tagged .interiorFacet (m.E.size r) (m.e2c r) (m.c2e r) (m.inter r) (found r) = .ok (rows r)) →
        Visits m (fun f => S f ∧ (cellsAt m f).length = 2) (TwoSided m) rows) ∧
       ∀ r < m.C.P, (tagged .interiorFacet (m.E.size r) (m.e2c r) (m.c2e r) (m.inter r) (found r) = .error .interprocess ↔
          ∃ e < m.E.size r, (S (m.E.r0 r + e) ∧ (cellsAt m (m.E.r0 r + e)).length = 2) ∧ ∃ g ∈ cellsAt m (m.E.r0 r + e), ∀ c, globalOf m.C r c ≠ some g) ∧
        (tagged .interiorFacet (m.E.size r) (m.e2c r) (m.c2e r) (m.inter r) (found r) ≠ .error .interprocess →
          ∃ rows, tagged .interiorFacet (m.E.size r) (m.e2c r) (m.c2e r) (m.inter r) (found r) = .ok rows)) := by
  refine ⟨C59_aux_interior h hm (fun _ => True) (fun f => (cellsAt m f).length = 2) (fun _ => by simp) _ fun r _ => ?_,
    fun found S _ ht => C59_aux_interior h hm S (fun f => S f ∧ (cellsAt m f).length = 2) (fun _ => Iff.rfl) _ fun r hr => ?_⟩
  · show interiorRows _ _ _ _ = _
    simp
  · show interiorRows (m.e2c r) (m.c2e r) (m.inter r) _ = _
    rw [← C59_aux_take found S ht r hr]

/-- **C59 (missing connectivity).** Without the needed connectivities an error is reported. -/
theorem C59_missing (k : Kind) (hk : k ≠ .cell) (n : Nat) (e2c c2e : Option (List (List Nat))) (inter entities : List Nat) :
    (e2c = none → domains k n e2c c2e inter entities = .error .noEntityToCell ∧ exteriorFacets n e2c inter = .error .noEntityToCell) ∧
    (e2c ≠ none → c2e = none → domains k n e2c c2e inter entities = .error .noCellToEntity) := by
  refine ⟨?_, ?_⟩
  · rintro rfl
    refine ⟨?_, rfl⟩
    cases k <;> first | exact absurd rfl hk | rfl
  · intro h1 h2
    subst h2
    obtain ⟨a, rfl⟩ := Option.ne_none_iff_exists'.mp h1
    cases k <;> first | exact absurd rfl hk | rfl

/-! ## An example: four cells of an interval on two processes -/

/-- Cells 0, 1 and facets 0, 1, 2 are owned by process 0. With `ghost` both processes have the cell on the other side. -/
def C59Mesh (ghost : Bool) : Mesh where
  C := { P := 2, size := fun _ => 2, ghosts := fun r => if ghost then [2 - r] else [], owners := fun r => if ghost then [1 - r] else [] }
  E := { P := 2, size := fun r => 3 - r, ghosts := fun r => if r = 0 then (if ghost then [3] else []) else (if ghost then [2, 1] else [2]),
         owners := fun r => if r = 0 then (if ghost then [1] else []) else (if ghost then [0, 0] else [0]) }
  G := fun g => [g, g + 1]
  c2e := fun r => if r = 0 then [[0, 1], [1, 2]] ++ (if ghost then [[2, 3]] else []) else [[2, 0], [0, 1]] ++ (if ghost then [[3, 2]] else [])
  e2c := fun r => if r = 0 then [[0], [0, 1]] ++ (if ghost then [[1, 2], [2]] else [[1]])
    else [[0, 1], [1]] ++ (if ghost then [[0, 2], [2]] else [[0]])
  inter := fun r => if r = 0 then [2] else [2]

/-- Both variants describe the mesh. -/
theorem C59_aux_example (ghost : Bool) : Ok (C59Mesh ghost) := by
  refine Integration.ok_of_check _ (World.valid_of_check _ ?_) (World.valid_of_check _ ?_) ?_ <;> cases ghost <;> decide +kernel

/-- With ghost cells: two interior facets on process 0, one on process 1; without: an error on process 0. -/
example : defaults .interiorFacet 3 ((C59Mesh true).e2c 0) ((C59Mesh true).c2e 0) [2] = .ok [[0, 1, 1, 0], [1, 1, 2, 0]] ∧
    defaults .interiorFacet 2 ((C59Mesh true).e2c 1) ((C59Mesh true).c2e 1) [2] = .ok [[0, 1, 1, 0]] ∧
    defaults .interiorFacet 3 ((C59Mesh false).e2c 0) ((C59Mesh false).c2e 0) [2] = .error .interprocess := by decide +kernel

/-- No facet has more than two cells. -/
theorem C59_aux_two : ∀ f, (cellsAt (C59Mesh true) f).length ≤ 2 := by
  intro f
  by_cases hf : f < 6
  · have : ∀ f < 6, (cellsAt (C59Mesh true) f).length ≤ 2 := by decide +kernel
    exact this f hf
  · have : cellsAt (C59Mesh true) f = [] := by
      refine List.filter_eq_nil_iff.mpr fun g hg => ?_
      have : g < 4 := List.mem_range.mp hg
      simp only [C59Mesh, List.mem_cons, List.not_mem_nil, or_false, decide_eq_true_eq]
      omega
    rw [this]; simp

example : defaults .exteriorFacet 3 ((C59Mesh true).e2c 0) ((C59Mesh true).c2e 0) [2] = .ok [[0, 0]] ∧
    defaults .exteriorFacet 2 ((C59Mesh true).e2c 1) ((C59Mesh true).c2e 1) [2] = .ok [[1, 1]] ∧
    tagged .exteriorFacet 3 ((C59Mesh true).e2c 0) ((C59Mesh true).c2e 0) [2] [0, 1] = .ok [[0, 0]] := by decide +kernel

/-- The tag of the example: facets 0 and 1. -/
example : Tagged (C59Mesh true) (fun r => if r = 0 then [0, 1] else []) (· < 2) := by
  intro r hr
  have hr : r < 2 := hr
  have : ∀ r < 2, ((if r = 0 then [0, 1] else [] : List Nat)).Pairwise (· < ·) ∧ ∀ e < (C59Mesh true).E.size r,
    (e ∈ (if r = 0 then [0, 1] else [] : List Nat) ↔ (C59Mesh true).E.r0 r + e < 2) := by decide +kernel
  exact this r hr

end Verif.Props
