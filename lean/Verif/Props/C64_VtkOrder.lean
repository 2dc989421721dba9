import Verif.Lemmas.CellPermMain
/-!
# C64: cells keep their shape when they are written to and read from files in VTK's order
-/
namespace Verif.Props
open Verif.CellPerm Verif.Spec
open Verif.Connectivity (CellType)

/-- Cells whose nodes are listed in VTK's order are turned into cells with the same nodes in DOLFINx' order: every node
stays at its place in the cell. This holds for all degrees of triangles, tetrahedra, quadrilaterals, hexahedra and
intervals with at most 65536 nodes, and for the prisms and pyramids that exist. -/
theorem C64_read (t : CellType) (N : Nat) (P V : List Pt) (h : VtkOrder t N P V) (hN : N ≤ 65536)
    (cells : List Int) (rows : Nat) (hc : cells.length = rows * N) (pos : Nat → Int → Pt) (hV : NodesAt cells rows N pos V) :
    ∃ out, readVtk cells rows N t = .ok out ∧ out.length = rows * N ∧ NodesAt out rows N pos P := by
  obtain ⟨m, hm, hP, hr⟩ := vtk_table t N P V h hN
  obtain ⟨p, hp, hpm, -, -, happ, hread, -, -⟩ := reorder_main m N P V hN hP hr
  refine ⟨takeRows cells rows N p, ?_, takeRows_length _ _ _ _, hread cells rows pos hV⟩
  simp only [readVtk, permVtk, hm, hp, bind, Except.bind]
  exact (happ cells rows hc).1

/-- The other way round, for writing. Reading what was written gives the same array, for any array of cells. -/
theorem C64_write (t : CellType) (N : Nat) (P V : List Pt) (h : VtkOrder t N P V) (hN : N ≤ 65536)
    (cells : List Int) (rows : Nat) (hc : cells.length = rows * N) :
    ∃ out, extractVtk cells rows N t = .ok out ∧ out.length = rows * N ∧
      (∀ pos, NodesAt cells rows N pos P → NodesAt out rows N pos V) ∧ readVtk out rows N t = .ok cells := by
  obtain ⟨m, hm, hP, hr⟩ := vtk_table t N P V h hN
  obtain ⟨p, hp, hpm, -, -, happ, -, hwrite, hl, hlt⟩ := reorder_main m N P V hN hP hr
  have hperm : permVtk t N = .ok p := by simp only [permVtk, hm, hp, bind, Except.bind]
  have hlen := takeRows_length cells rows N m
  refine ⟨takeRows cells rows N m, extract_ok cells rows N t p m hperm hpm hc hl hlt, hlen, fun pos hV => hwrite cells rows pos hV, ?_⟩
  simp only [readVtk, hperm, bind, Except.bind]
  rw [(happ _ rows hlen).1, (happ cells rows hc).2.2.2]

/-- The array returned by `perm_vtk` is a permutation, and gives for each node of DOLFINx the place in VTK's order. -/
theorem C64_perm (t : CellType) (N : Nat) (P V : List Pt) (h : VtkOrder t N P V) (hN : N ≤ 65536) :
    P.length = N ∧ V.length = N ∧ ∃ p, permVtk t N = .ok p ∧ p.Perm (List.range N) ∧ ∀ i j : Nat, p[i]? = some j → P[i]? = V[j]? := by
  obtain ⟨m, hm, hP, hr⟩ := vtk_table t N P V h hN
  have hl : m.length = N := by rw [hr.len, hP]
  have hall : ∀ j, j < N → j ∈ m := fun j hj => hr.all j (by omega)
  obtain ⟨p, hp, hpl, hg, hpall, -⟩ := transpose_spec m N hl hN hall
  have hpick := picks_inv P V m p N hP hpl hr.pick hg hall
  refine ⟨hP, by rw [picks_length P V m hr.pick, hl], p, by simp only [permVtk, hm, hp, bind, Except.bind],
    (all_perm p N hpl hpall).symm, ?_⟩
  intro i j hij
  have := congrArg (fun l => l[i]?) hpick
  simp only [List.getElem?_map, hij, Option.map_some] at this
  have hi : i < P.length := by have := (List.getElem?_eq_some_iff.1 hij).1; omega
  rw [List.getElem?_eq_getElem hi] at this ⊢
  simpa using this.symm

/-- The entries of the arrays are 16 bit numbers: above 65536 nodes `perm_vtk` does not return a permutation. -/
theorem C64_refuted_large (t : CellType) (N : Nat) (hN : 65536 < N) (p : List Nat) (hp : permVtk t N = .ok p) :
    ¬ p.Perm (List.range N) := by
  intro h
  have hall : ∀ (A : List (Nat × Nat)) (l : List Nat), (∀ x ∈ l, x < 65536) →
      ∀ x ∈ A.foldl (fun t p => t.set p.1 (w p.2)) l, x < 65536 := by
    intro A
    induction A with
    | nil => intro l hl; exact hl
    | cons a A ih =>
      intro l hl
      rw [List.foldl_cons]
      apply ih
      intro x hx
      rcases List.mem_or_eq_of_mem_set hx with hx | hx
      · exact hl x hx
      · rw [hx]; exact Nat.mod_lt _ (by omega)
  have hlt : ∀ x ∈ p, x < 65536 := by
    simp only [permVtk, bind, Except.bind] at hp
    split at hp
    · cases hp
    · rw [transpose] at hp
      split at hp
      · cases hp
        apply hall
        intro x hx
        rw [(List.mem_replicate.1 hx).2]
        omega
      · cases hp
  have : 65536 ∈ p := h.mem_iff.2 (List.mem_range.2 hN)
  have := hlt _ this
  omega

/-- Hexahedra of degree 40 are such cells, and an array is returned for them. -/
theorem C64_refuted_large_hexahedron : ∃ p, permVtk .hexahedron (41 * 41 * 41) = .ok p ∧ ¬ p.Perm (List.range (41 * 41 * 41)) := by
  have hd : cellDegree .hexahedron (41 * 41 * 41) = .ok ((40 : Nat) : Int) := cellDegree_hexahedron 40
  have he : (((40 : Nat) : Int) - 1).toNat = 39 := by decide
  have hm : vtkHexahedron (41 * 41 * 41) = .ok ([0, 1, 3, 2, 4, 5, 7, 6] ++
      ([0, 3, 5, 1, 8, 10, 11, 9, 2, 4, 7, 6].flatMap fun k => (List.range 39).map fun i => w (8 + 39 * k + i)) ++
      ([2, 3, 1, 4, 0, 5].flatMap fun f => (List.range (39 * 39)).map fun i => w (8 + 12 * 39 + 39 * 39 * f + i)) ++
      ((List.range (39 * 39 * 39)).map fun i => w (8 + 12 * 39 + 6 * (39 * 39) + i))) := by
    rw [vtkHexahedron, if_neg (by omega), hd]
    simp only [bind, Except.bind, pure, Except.pure, he]
  have hp : ∃ p, permVtk .hexahedron (41 * 41 * 41) = .ok p := by
    have ht : ∀ m : List Nat, (m.all fun k => decide (k < m.length)) = true → ∃ p, transpose m = .ok p := by
      intro m h
      exact ⟨_, by rw [transpose, if_pos h]⟩
    simp only [permVtk, vtkMap, hm, bind, Except.bind]
    apply ht
    simp only [List.all_eq_true, decide_eq_true_eq]
    intro x hx
    have hl : ([0, 1, 3, 2, 4, 5, 7, 6] ++
      ([0, 3, 5, 1, 8, 10, 11, 9, 2, 4, 7, 6].flatMap fun k => (List.range 39).map fun i => w (8 + 39 * k + i)) ++
      ([2, 3, 1, 4, 0, 5].flatMap fun f => (List.range (39 * 39)).map fun i => w (8 + 12 * 39 + 39 * 39 * f + i)) ++
      ((List.range (39 * 39 * 39)).map fun i => w (8 + 12 * 39 + 6 * (39 * 39) + i))).length = 68921 := by
      simp [List.length_flatMap]
    rw [hl]
    have hw : ∀ n, w n < 65536 := fun n => Nat.mod_lt _ (by omega)
    simp only [List.mem_append, List.mem_flatMap, List.mem_map] at hx
    rcases hx with ((hx | ⟨_, _, _, _, rfl⟩) | ⟨_, _, _, _, rfl⟩) | ⟨_, _, rfl⟩
    · simp at hx; omega
    · exact lt_trans (hw _) (by omega)
    · exact lt_trans (hw _) (by omega)
    · exact lt_trans (hw _) (by omega)
  obtain ⟨p, hp⟩ := hp
  exact ⟨p, hp, C64_refuted_large _ _ (by omega) p hp⟩

/-! ## Examples -/

/-- Triangles of degree four: 15 nodes, three of them inside. -/
example : VtkOrder .triangle 15 (basixTri 4) (vtkTri 4) := .triangle 4 (by omega)

example : VtkOrder .tetrahedron 20 (basixTet 3) (vtkTet 3) := .tetrahedron 3 (by omega)

/-- The nodes of the two orders are the same points, all of them different. -/
example : (basixTet 5).length = 56 ∧ (basixTet 5).Nodup ∧ (basixTet 5).Perm (vtkTet 5) ∧ basixTet 5 ≠ vtkTet 5 := by decide +kernel

example : (basixHex 3).length = 64 ∧ (basixHex 3).Nodup ∧ (basixHex 3).Perm (vtkHex 3) ∧ basixHex 3 ≠ vtkHex 3 := by decide +kernel

/-- One tetrahedron of degree two, read from a file. -/
example : readVtk [10, 11, 12, 13, 14, 15, 16, 17, 18, 19] 1 10 .tetrahedron =
    .ok [10, 11, 12, 13, 19, 18, 15, 17, 16, 14] := by rfl

example : NodesAt [10, 11, 12, 13, 14, 15, 16, 17, 18, 19] 1 10 (fun _ v => (vtkTet 2).getD (v - 10).toNat (0, 0, 0)) (vtkTet 2) := by
  intro c hc i hi
  have : c = 0 := by omega
  subst this
  interval_cases i <;> exact ⟨_, rfl, rfl⟩

end Verif.Props
