import Verif.Lemmas.VtkhdfWrite
import Verif.Lemmas.StdAlg
import Verif.Lemmas.BoxMesh
/-!
# Reading a mesh from a VTKHDF file
-/
namespace Verif.Vtkhdf
open Verif.Spec Verif.CellPerm Verif.Std
open Verif.Connectivity (CellType)
open Verif.LocalRange (localRange)

/-! ## Rows -/

theorem takeRows_one (cells : List Int) (N : Nat) (m : List Nat) (h : m.length = N) : takeRows cells 1 N m = vtkRow m cells := by
  apply List.ext_getElem?
  intro i
  by_cases hi : i < N
  · have := takeRows_get cells 1 N m 0 i (by omega) hi
    simp only [Nat.zero_mul, Nat.zero_add] at this
    rw [this, vtkRow, List.getElem?_map, List.getElem?_eq_getElem (by omega), getD_at m 0 (by omega)]
    rfl
  · rw [List.getElem?_eq_none (by rw [takeRows_length]; omega), List.getElem?_eq_none (by rw [vtkRow_length]; omega)]

theorem nodesAt_one (row : List Int) (N : Nat) (pos : Int → Pt) (L : List Pt) (hr : row.length = N) (hL : L.length = N) :
    NodesAt row 1 N (fun _ => pos) L ↔ row.map pos = L := by
  constructor
  · intro h
    apply List.ext_getElem?
    intro i
    by_cases hi : i < N
    · obtain ⟨v, h1, h2⟩ := h 0 (by omega) i hi
      rw [Nat.zero_mul, Nat.zero_add] at h1
      rw [List.getElem?_map, h1, h2]; rfl
    · rw [List.getElem?_eq_none (by simp; omega), List.getElem?_eq_none (by omega)]
  · intro h c hc i hi
    have : c = 0 := by omega
    subst this
    refine ⟨row[i], by rw [Nat.zero_mul, Nat.zero_add, List.getElem?_eq_getElem (by omega)], ?_⟩
    have h1 : row[i]? = some row[i] := List.getElem?_eq_getElem (by omega)
    have h2 : (row.map pos)[i]? = some (pos row[i]) := by rw [List.getElem?_map, h1]; rfl
    rw [h] at h2
    exact h2

/-- What is known about the two tables of a type. -/
structure Tables (t : CellType) (N : Nat) (m p : List Nat) : Prop where
  map : vtkMap t N = .ok m
  perm : permVtk t N = .ok p
  lenM : m.length = N
  lenP : p.length = N
  ltP : ∀ j ∈ p, j < N
  back : ∀ row : List Int, row.length = N → vtkRow p (vtkRow m row) = row
  read : ∀ P V, VtkOrder t N P V → ∀ (row : List Int) pos, row.length = N → row.map pos = V → (vtkRow p row).map pos = P
  write : ∀ P V, VtkOrder t N P V → ∀ (row : List Int) pos, row.length = N → row.map pos = P → (vtkRow m row).map pos = V
  mix : ∀ row : List Int, row.length = N → (vtkRow p row).Perm row ∧ (vtkRow m row).Perm row

theorem vtkRow_perm (p : List Nat) (N : Nat) (h : p.Perm (List.range N)) (row : List Int) (hr : row.length = N) : (vtkRow p row).Perm row := by
  have h1 : (vtkRow p row).Perm (vtkRow (List.range N) row) := h.map _
  have h2 : vtkRow (List.range N) row = row := by
    apply List.ext_getElem
    · simp [vtkRow, hr]
    · intro i h1 h2
      simp only [vtkRow, List.getElem_map, List.getElem_range]
      rw [getD_at _ _ h2]
  rwa [h2] at h1

theorem tables (t : CellType) (N : Nat) (P V : List Pt) (h : VtkOrder t N P V) (hN : N ≤ 65536) : ∃ m p, Tables t N m p := by
  obtain ⟨m, hm, hP, hr⟩ := vtk_table t N P V h hN
  obtain ⟨p, hp, hpm, hperm, hV, happ, hread, hwrite, hl, hlt⟩ := reorder_main m N P V hN hP hr
  have hpl : p.length = N := by rw [hperm.length_eq, List.length_range]
  have hmp : m.Perm (List.range N) := (all_perm m N hl (fun j hj => hr.all j (by omega))).symm
  refine ⟨m, p, hm, by simp only [permVtk, hm, hp, bind, Except.bind], hl, hpl, fun j hj => List.mem_range.1 (hperm.mem_iff.1 hj), ?_, ?_, ?_,
    fun row hrow => ⟨vtkRow_perm p N hperm row hrow, vtkRow_perm m N hmp row hrow⟩⟩
  · intro row hrow
    have := (happ row 1 (by omega)).2.2.2
    rwa [takeRows_one row N m hl, takeRows_one _ N p hpl] at this
  · intro P' V' h' row pos hrow hpos
    obtain ⟨m', hm', hP', hr'⟩ := vtk_table t N P' V' h' hN
    rw [hm] at hm'
    cases hm'
    obtain ⟨p', hp', -, -, hV', -, hread', -⟩ := reorder_main m N P' V' hN hP' hr'
    rw [hp] at hp'
    cases hp'
    have := hread' row 1 (fun _ => pos) ((nodesAt_one row N pos V' hrow hV').2 hpos)
    rw [takeRows_one row N p hpl] at this
    exact (nodesAt_one _ N pos P' (by rw [vtkRow_length, hpl]) hP').1 this
  · intro P' V' h' row pos hrow hpos
    obtain ⟨m', hm', hP', hr'⟩ := vtk_table t N P' V' h' hN
    rw [hm] at hm'
    cases hm'
    obtain ⟨p', hp', -, -, hV', -, -, hwrite', -⟩ := reorder_main m N P' V' hN hP' hr'
    have := hwrite' row 1 (fun _ => pos) ((nodesAt_one row N pos P' hrow hP').2 hpos)
    rw [takeRows_one row N m hl] at this
    exact (nodesAt_one _ N pos V' (by rw [vtkRow_length, hl]) hV').1 this

/-! ## Numbers of types -/

theorem number_order (ty : Nat) (t : CellType) (d : Nat) (h : VtkNumber ty t d) : ∃ P V, VtkOrder t (lagrangeNodes t d) P V := by
  cases h with
  | point => exact ⟨_, _, .point⟩
  | line => exact ⟨_, _, .interval 1 (by omega)⟩
  | triangle => exact ⟨_, _, .triangle 1 (by omega)⟩
  | quad => exact ⟨_, _, .quadrilateral 1 (by omega)⟩
  | tetra => exact ⟨_, _, .tetrahedron 1 (by omega)⟩
  | hexahedron => exact ⟨_, _, .hexahedron 1 (by omega)⟩
  | wedge => exact ⟨_, _, .prism 6 (by omega)⟩
  | pyramid => exact ⟨_, _, .pyramid 5 (by omega)⟩
  | quadraticEdge => exact ⟨_, _, .interval 2 (by omega)⟩
  | quadraticTriangle => exact ⟨_, _, .triangle 2 (by omega)⟩
  | quadraticTetra => exact ⟨_, _, .tetrahedron 2 (by omega)⟩
  | cubicLine => exact ⟨_, _, .interval 3 (by omega)⟩
  | lagrangeCurve _ h => exact ⟨_, _, .interval d h⟩
  | lagrangeTriangle _ h => exact ⟨_, _, .triangle d h⟩
  | lagrangeQuadrilateral _ h => exact ⟨_, _, .quadrilateral d h⟩
  | lagrangeTetrahedron _ h => exact ⟨_, _, .tetrahedron d h⟩
  | lagrangeHexahedron _ h => exact ⟨_, _, .hexahedron d h⟩
  | lagrangeWedge => exact ⟨_, _, .prism 6 (by omega)⟩

theorem triangle_degree (d : Nat) : cellDegree .triangle ((d + 1) * (d + 2) / 2) = .ok d :=
  cellDegree_triangle _ d (by have := T_eq (d + 1); rw [show (d + 1) * (d + 2) = 2 * T (d + 1) from this.symm]; omega)

theorem tetrahedron_degree (d : Nat) : cellDegree .tetrahedron ((d + 1) * (d + 2) * (d + 3) / 6) = .ok d := by
  apply cellDegree_tetrahedron
  have key : ∀ n : Nat, (n + 1) * (n + 2) * (n + 3) % 6 = 0 := by
    intro n
    have h1 : ∃ k, (n + 1) * (n + 2) * (n + 3) = 6 * k := by
      induction n with
      | zero => exact ⟨1, rfl⟩
      | succ n ih =>
        obtain ⟨k, hk⟩ := ih
        have h2 := T_eq (n + 2)
        exact ⟨k + T (n + 2), by linarith⟩
    obtain ⟨k, hk⟩ := h1
    omega
  have := key d
  omega

theorem number_degree (ty : Nat) (t : CellType) (d : Nat) (h : VtkNumber ty t d) :
    ∃ deg, vtkToDolfinx ty = .ok (t, deg) ∧ ((deg = -1 ∧ cellDegree t (lagrangeNodes t d) = .ok (d : Int)) ∨ (deg ≠ -1 ∧ deg = (d : Int))) := by
  cases h with
  | point => exact ⟨_, rfl, .inl ⟨rfl, rfl⟩⟩
  | line => exact ⟨_, rfl, .inr ⟨by decide, rfl⟩⟩
  | triangle => exact ⟨_, rfl, .inr ⟨by decide, rfl⟩⟩
  | quad => exact ⟨_, rfl, .inr ⟨by decide, rfl⟩⟩
  | tetra => exact ⟨_, rfl, .inr ⟨by decide, rfl⟩⟩
  | hexahedron => exact ⟨_, rfl, .inr ⟨by decide, rfl⟩⟩
  | wedge => exact ⟨_, rfl, .inr ⟨by decide, rfl⟩⟩
  | pyramid => exact ⟨_, rfl, .inr ⟨by decide, rfl⟩⟩
  | quadraticEdge => exact ⟨_, rfl, .inr ⟨by decide, rfl⟩⟩
  | quadraticTriangle => exact ⟨_, rfl, .inr ⟨by decide, rfl⟩⟩
  | quadraticTetra => exact ⟨_, rfl, .inr ⟨by decide, rfl⟩⟩
  | cubicLine => exact ⟨_, rfl, .inr ⟨by decide, rfl⟩⟩
  | lagrangeCurve _ h => exact ⟨_, rfl, .inl ⟨rfl, by simp [cellDegree, lagrangeNodes]⟩⟩
  | lagrangeTriangle _ h => exact ⟨_, rfl, .inl ⟨rfl, triangle_degree d⟩⟩
  | lagrangeQuadrilateral _ h => exact ⟨_, rfl, .inl ⟨rfl, cellDegree_quadrilateral d⟩⟩
  | lagrangeTetrahedron _ h => exact ⟨_, rfl, .inl ⟨rfl, tetrahedron_degree d⟩⟩
  | lagrangeHexahedron _ h => exact ⟨_, rfl, .inl ⟨rfl, cellDegree_hexahedron d⟩⟩
  | lagrangeWedge => exact ⟨_, rfl, .inl ⟨rfl, rfl⟩⟩

/-- A cell of a file that can be read. -/
def Readable (c : Nat × List Int) (t : CellType) (d : Nat) : Prop :=
  VtkNumber c.1 t d ∧ c.2.length = lagrangeNodes t d ∧ d ≤ 255 ∧ c.2.length ≤ 65536

/-- VTK type and degree of a cell. -/
def kindOf (c : Nat × List Int) : Nat × Nat := (c.1, match vtkToDolfinx c.1 with
  | .ok (t, deg) => if deg = -1 then (match cellDegree t c.2.length with
    | .ok d => (d % 256).toNat
    | .error _ => 0) else deg.toNat
  | .error _ => 0)

/-- The nodes of a cell in the order of DOLFINx. -/
def rowOf (c : Nat × List Int) : List Int := match vtkToDolfinx c.1 with
  | .ok (t, _) => (match permVtk t c.2.length with
    | .ok p => vtkRow p c.2
    | .error _ => [])
  | .error _ => []

theorem kindOf_eq (c : Nat × List Int) (t : CellType) (d : Nat) (h : Readable c t d) : kindOf c = (c.1, d) := by
  obtain ⟨hn, hl, hd, -⟩ := h
  obtain ⟨deg, h1, h2⟩ := number_degree _ _ _ hn
  simp only [kindOf, h1, hl]
  rcases h2 with ⟨rfl, h2⟩ | ⟨h0, rfl⟩
  · simp only [h2, if_true]
    congr 1
    omega
  · simp only [if_neg h0, Int.toNat_natCast]

theorem kind_iff (c : Nat × List Int) (t t' : CellType) (d d' ty : Nat) (h : Readable c t' d') (hn : VtkNumber ty t d) :
    kindOf c = (ty, d) ↔ c.1 = ty ∧ c.2.length = lagrangeNodes t d := by
  rw [kindOf_eq c t' d' h]
  obtain ⟨hn', hl, hd, -⟩ := h
  obtain ⟨deg, h1, h2⟩ := number_degree _ _ _ hn
  obtain ⟨deg', h1', h2'⟩ := number_degree _ _ _ hn'
  constructor
  · intro he
    simp only [Prod.mk.injEq] at he
    obtain ⟨he, rfl⟩ := he
    refine ⟨he, ?_⟩
    rw [he, h1] at h1'
    cases h1'
    exact hl
  · rintro ⟨he, hlen⟩
    rw [he, h1] at h1'
    cases h1'
    simp only [Prod.mk.injEq]
    refine ⟨he, ?_⟩
    rcases h2 with ⟨rfl, h2⟩ | ⟨h0, rfl⟩
    · rcases h2' with ⟨-, h2'⟩ | ⟨h0', -⟩
      · rw [← hl, hlen, h2] at h2'
        have := Except.ok.inj h2'
        omega
      · exact absurd rfl h0'
    · rcases h2' with ⟨h2', -⟩ | ⟨-, h2'⟩
      · exact absurd h2' h0
      · omega

theorem rowOf_eq (c : Nat × List Int) (t : CellType) (d : Nat) (h : Readable c t d) :
    ∃ m p, Tables t c.2.length m p ∧ rowOf c = vtkRow p c.2 := by
  obtain ⟨hn, hl, hd, hN⟩ := h
  obtain ⟨deg, h1, -⟩ := number_degree _ _ _ hn
  obtain ⟨P, V, ho⟩ := number_order _ _ _ hn
  obtain ⟨m, p, hT⟩ := tables t c.2.length P V (by rw [hl]; exact ho) hN
  exact ⟨m, p, hT, by simp only [rowOf, h1, hT.perm]⟩

/-! ## Slices -/

theorem flatten_get {β : Type} (L : List (List β)) (j i : Nat) (l : List β) (hj : L[j]? = some l) (hi : i < l.length) :
    L.flatten[((L.take j).map List.length).sum + i]? = l[i]? := by
  induction L generalizing j with
  | nil => simp at hj
  | cons a L ih =>
    cases j with
    | zero =>
      simp only [List.getElem?_cons_zero, Option.some.injEq] at hj
      subst hj
      simp [List.getElem?_append_left hi]
    | succ j =>
      rw [List.take_succ_cons, List.map_cons, List.sum_cons, List.flatten_cons, List.getElem?_append_right (by omega),
        show a.length + ((L.take j).map List.length).sum + i - a.length = ((L.take j).map List.length).sum + i by omega]
      exact ih j (by simpa using hj)

theorem flatten_slice {β : Type} (L : List (List β)) (a n : Nat) :
    (L.flatten.drop ((L.take a).map List.length).sum).take (((L.drop a).take n).map List.length).sum = ((L.drop a).take n).flatten := by
  have h1 : L.flatten = (L.take a).flatten ++ (((L.drop a).take n).flatten ++ ((L.drop a).drop n).flatten) := by
    rw [← List.flatten_append, List.take_append_drop, ← List.flatten_append, List.take_append_drop]
  rw [h1, List.drop_left' (by rw [List.length_flatten]), List.take_left' (by rw [List.length_flatten])]

theorem slice_filterMap {β : Type} (l : List β) (a n : Nat) : (l.drop a).take n = (List.range' a n).filterMap (l[·]?) := by
  induction n generalizing a with
  | zero => simp
  | succ n ih =>
    rw [List.range'_succ, List.filterMap_cons]
    by_cases ha : a < l.length
    · rw [List.drop_eq_getElem_cons ha, List.take_succ_cons, ih, List.getElem?_eq_getElem ha]
    · rw [List.drop_eq_nil_of_le (by omega), List.getElem?_eq_none (by omega), ← ih, List.drop_eq_nil_of_le (by omega)]
      simp

theorem filterMap_range {β : Type} (l : List β) : (List.range l.length).filterMap (l[·]?) = l := by
  have := slice_filterMap l 0 l.length
  rw [List.drop_zero, List.take_length, ← List.range_eq_range'] at this
  exact this.symm

/-- The part of a list that belongs to one process. -/
def part {β : Type} (l : List β) (Q q : Nat) : List β :=
  (l.drop (localRange q l.length Q).1).take ((localRange q l.length Q).2 - (localRange q l.length Q).1)

theorem parts_all {β : Type} (l : List β) (Q : Nat) (hQ : 0 < Q) : (List.range Q).flatMap (part l Q) = l := by
  conv_rhs => rw [← filterMap_range l, ← BoxMesh.ranges_all Q l.length hQ, List.filterMap_flatMap]
  apply List.flatMap_congr
  intro q _
  exact slice_filterMap _ _ _

theorem range_le (Q n q : Nat) (hq : q < Q) : (localRange q n Q).1 ≤ (localRange q n Q).2 ∧ (localRange q n Q).2 ≤ n := by
  have ht := Verif.Props.C01_local_range_tiles n Q (by omega)
  refine ⟨ht.ordered q hq, ?_⟩
  have key : ∀ k, q + k < Q → (localRange q n Q).2 ≤ (localRange (q + k) n Q).2 := by
    intro k
    induction k with
    | zero => intro _; exact le_refl _
    | succ k ih =>
      intro hk
      have h1 := ih (by omega)
      have h2 := ht.glued (q + k) (by omega)
      have h3 := ht.ordered (q + k + 1) (by omega)
      rw [h2] at h3
      exact le_trans h1 h3
  have := key (Q - 1 - q) (by omega)
  rw [show q + (Q - 1 - q) = Q - 1 by omega, ht.stop (Q - 1) (by omega)] at this
  exact this

theorem readDataset_slice {β : Type} (l : List β) (a b : Nat) (h1 : a ≤ b) (h2 : b ≤ l.length) :
    readDataset l (a : Int) (b : Int) = .ok ((l.drop a).take (b - a)) := by
  rw [readDataset, if_neg (by omega)]
  congr 3 <;> omega

end Verif.Vtkhdf
