import Verif.Lemmas.BoxMesh
import Mathlib.Data.Rat.Defs
import Mathlib.Algebra.Order.Ring.Rat
/-!
# C61: meshes of intervals, rectangles and boxes

`X` and `cells` are the arrays of all processes, one after another.
-/
namespace Verif.Props
open Verif.BoxMesh Verif.Lattice Verif.LocalRange Verif.Spec.RefCell Verif.Spec.Box
open Verif.Connectivity (CellType)

variable {K : Type} [Field K] [LinearOrder K] [IsStrictOrderedRing K]

/-- The arrays of `P` processes. -/
def gatherX (P : Nat) (A : Nat → Arrays K) : List (K × K × K) := (List.range P).flatMap fun r => (A r).x
def gatherCells (P : Nat) (A : Nat → Arrays K) : List (List Nat) := (List.range P).flatMap fun r => (A r).cells

omit [LinearOrder K] [IsStrictOrderedRing K] in
theorem C61_aux_first (P : Nat) (hP : 0 < P) (B : Arrays K) :
    gatherX P (fun r => if r = 0 then B else ⟨[], []⟩) = B.x ∧ gatherCells P (fun r => if r = 0 then B else ⟨[], []⟩) = B.cells :=
  ⟨Verif.Spec.flatMap_range_single _ P 0 hP fun i hi => by simp [hi], Verif.Spec.flatMap_range_single _ P 0 hP fun i hi => by simp [hi]⟩

theorem C61_aux_step (n : Nat) (hn : 0 < n) (a b : K) (hab : a < b) : 0 < (b - a) / (n : K) ∧ a + (b - a) / (n : K) * (n : K) = b := by
  have : (0 : K) < n := by exact_mod_cast hn
  refine ⟨div_pos (by linarith) this, ?_⟩
  rw [div_mul_cancel₀ _ this.ne']; ring

/-- `create_interval` gives a conforming mesh of the interval. -/
theorem C61_interval (eps a b : K) (gdim n P : Nat) (hP : 0 < P) (hg : 1 ≤ gdim ∧ gdim ≤ 3) (hn : 1 ≤ n) (hab : a < b) (he : eps ≤ b - a) :
    ∃ A : Nat → Arrays K, (∀ r < P, createInterval eps r gdim n a b = .ok (A r)) ∧
      IsMesh .interval (a, 0, 0) (b, 0, 0) (gatherX P A) (gatherCells P A) ∧ (gatherX P A).length = n + 1 ∧ (gatherCells P A).length = n := by
  have habs : |a - b| = b - a := by rw [abs_sub_comm, abs_of_pos (by linarith)]
  refine ⟨fun r => if r = 0 then intervalArrays a b n else ⟨[], []⟩, fun r _ => ?_, ?_⟩
  · unfold createInterval
    rw [if_neg (by omega), if_neg (by omega), if_neg (not_le.mpr hab), if_neg (by rw [habs]; exact not_lt.mpr he)]
  obtain ⟨h1, h2⟩ := C61_aux_step n hn a b hab
  obtain ⟨e1, e2⟩ := C61_aux_first P hP (intervalArrays a b n)
  rw [e1, e2]
  refine ⟨?_, by simp [intervalArrays], by simp [intervalArrays]⟩
  have hX : (intervalArrays a b n).x = (intervalPts n).map (pos (a, 0, 0) ((b - a) / (n : K), 1, 1)) := by
    simp only [intervalArrays, intervalPts, List.map_map]
    refine List.map_congr_left fun i _ => ?_
    simp [pos]
  have hC : (intervalArrays a b n).cells = cells (fun _ => unitInterval) (intervalCubes n) intervalNum := interval_cells n
  have hfar : far .interval (n, 1, 1) (a, 0, 0) ((b - a) / (n : K), 1, 1) = ((b, 0, 0) : K × K × K) := by simp [far, dim, h2]
  rw [hX, hC, ← hfar]
  refine isMesh ⟨h1, one_pos, one_pos⟩ ?_ (by decide) (interval_good n) (by decide +kernel) (fun Q hQ => ?_) (interval_used n hn)
  · intro c hc
    interval_cases c <;> simp [Spec.Box.axis, dim] <;> omega
  · rw [List.mem_singleton] at hQ; subst hQ; exact unitInterval_tiles K

theorem C61_aux_layers2 (t : CellType) (ht : dim t = 2) (nx ny : Nat) (hx : 1 ≤ nx) (hy : 1 ≤ ny) : Layers t (nx, ny, 1) := by
  intro c hc
  rw [ht]
  interval_cases c <;> simp [Spec.Box.axis] <;> omega

omit [LinearOrder K] [IsStrictOrderedRing K] in
theorem C61_aux_far2 (t : CellType) (ht : dim t = 2) (nx ny : Nat) (a b c d h k : K) (h1 : a + h * (nx : K) = b) (h2 : c + k * (ny : K) = d) :
    far t (nx, ny, 1) (a, c, 0) (h, k, 1) = ((b, d, 0) : K × K × K) := by
  simp [far, ht, h1, h2]

theorem C61_aux_vertices (a b c d : K) (nx ny : Nat) :
    triVertices a b c d nx ny = (rectPts nx ny).map (pos (a, c, 0) ((b - a) / (nx : K), (d - c) / (ny : K), 1)) := by
  simp only [triVertices, rectPts, List.map_flatMap, List.map_map]
  refine List.flatMap_congr fun iy _ => List.map_congr_left fun ix _ => ?_
  simp [pos]

theorem C61_aux_mids (a b c d : K) (nx ny : Nat) :
    triMidpoints a b c d nx ny = (rectMids nx ny).map (pos (a, c, 0) ((b - a) / (nx : K), (d - c) / (ny : K), 1)) := by
  simp only [triMidpoints, rectMids, List.map_flatMap, List.map_map]
  refine List.flatMap_congr fun iy _ => List.map_congr_left fun ix _ => ?_
  have e : ∀ m : Nat, (((2 * m + 1 : Nat) : K) / 2) = (m : K) + 1 / 2 := by intro m; push_cast; ring
  simp only [pos, Function.comp_apply, e]
  simp

theorem C61_aux_tri (a b c d : K) (nx ny : Nat) (diagonal : Diagonal) (hn : 1 ≤ nx ∧ 1 ≤ ny) (hab : a < b) (hcd : c < d) (hd : diagonal ≠ .crossed) :
    IsMesh .triangle (a, c, 0) (b, d, 0) (triVertices a b c d nx ny) (triCells diagonal nx ny) := by
  obtain ⟨h1, h2⟩ := C61_aux_step nx hn.1 a b hab
  obtain ⟨h3, h4⟩ := C61_aux_step ny hn.2 c d hcd
  rw [C61_aux_vertices, diag_cells, ← C61_aux_far2 .triangle rfl nx ny a b c d _ _ h2 h4]
  refine isMesh ⟨h1, h3, one_pos⟩ (C61_aux_layers2 _ rfl nx ny hn.1 hn.2) (by decide) (diag_good diagonal nx ny) (by decide +kernel) (fun Q hQ => ?_)
    (diag_used diagonal nx ny hn.1 hn.2)
  rcases List.mem_cons.mp hQ with rfl | hQ
  · exact unitLeft_tiles K
  · rw [List.mem_singleton] at hQ; subst hQ; exact unitRight_tiles K

theorem C61_aux_crossed (a b c d : K) (nx ny : Nat) (hn : 1 ≤ nx ∧ 1 ≤ ny) (hab : a < b) (hcd : c < d) :
    IsMesh .triangle (a, c, 0) (b, d, 0) (triVertices a b c d nx ny ++ triMidpoints a b c d nx ny) (triCrossed nx ny) := by
  obtain ⟨h1, h2⟩ := C61_aux_step nx hn.1 a b hab
  obtain ⟨h3, h4⟩ := C61_aux_step ny hn.2 c d hcd
  rw [C61_aux_vertices, C61_aux_mids, ← List.map_append, crossed_cells, ← C61_aux_far2 .triangle rfl nx ny a b c d _ _ h2 h4]
  refine isMesh ⟨h1, h3, one_pos⟩ (C61_aux_layers2 _ rfl nx ny hn.1 hn.2) (by decide) (crossed_good nx ny) (by decide +kernel) (fun Q hQ => ?_)
    (crossed_used nx ny hn.1 hn.2)
  rw [List.mem_singleton] at hQ; subst hQ; exact unitCrossed_tiles K

theorem C61_aux_quad (a b c d : K) (nx ny : Nat) (hn : 1 ≤ nx ∧ 1 ≤ ny) (hab : a < b) (hcd : c < d) :
    IsMesh .quadrilateral (a, c, 0) (b, d, 0) (buildQuad 0 a b c d nx ny).x (buildQuad 0 a b c d nx ny).cells := by
  obtain ⟨h1, h2⟩ := C61_aux_step nx hn.1 a b hab
  obtain ⟨h3, h4⟩ := C61_aux_step ny hn.2 c d hcd
  have hX : (buildQuad 0 a b c d nx ny).x = (quadPts nx ny).map (pos (a, c, 0) ((b - a) / (nx : K), (d - c) / (ny : K), 1)) := by
    simp only [buildQuad, if_true, quadPts, List.map_flatMap, List.map_map]
    refine List.flatMap_congr fun ix _ => List.map_congr_left fun iy _ => ?_
    simp [pos]
  have hC : (buildQuad 0 a b c d nx ny).cells = cells (fun _ => unitQuad) (quadCubes nx ny) (quadNum ny) := quad_cells nx ny
  rw [hX, hC, ← C61_aux_far2 .quadrilateral rfl nx ny a b c d _ _ h2 h4]
  refine isMesh ⟨h1, h3, one_pos⟩ (C61_aux_layers2 _ rfl nx ny hn.1 hn.2) (by decide) (quad_good nx ny) (by decide +kernel) (fun Q hQ => ?_)
    (quad_used nx ny hn.1 hn.2)
  rw [List.mem_singleton] at hQ; subst hQ; exact unitQuad_tiles K

theorem C61_aux_count {α β : Type} (l : List α) (f : α → List β) (k : Nat) (h : ∀ x ∈ l, (f x).length = k) : (l.flatMap f).length = k * l.length := by
  induction l with
  | nil => simp
  | cons x l ih =>
    rw [List.flatMap_cons, List.length_append, ih fun y hy => h y (List.mem_cons_of_mem _ hy), h x List.mem_cons_self, List.length_cons]; ring

/-- Number of cells for each square, and of vertices inside. -/
def perSquare (t : CellType) (diagonal : Diagonal) : Nat := if t = .quadrilateral then 1 else if diagonal = .crossed then 4 else 2
def midSquare (t : CellType) (diagonal : Diagonal) : Nat := if t = .triangle ∧ diagonal = .crossed then 1 else 0

theorem C61_aux_create (eps a b c d : K) (gdim nx ny r : Nat) (t : CellType) (diagonal : Diagonal) (hg : 2 ≤ gdim ∧ gdim ≤ 3)
    (hn : 1 ≤ nx ∧ 1 ≤ ny) (hab : a < b) (hcd : c < d) : createRectangle eps r gdim a b c d nx ny t diagonal =
      (match t with
        | .triangle => buildTri eps r a b c d nx ny diagonal
        | .quadrilateral => .ok (buildQuad r a b c d nx ny)
        | _ => .error .cellType) := by
  unfold createRectangle
  rw [if_neg (by omega), if_neg (by omega), if_neg (by rw [not_or]; exact ⟨not_le.mpr hab, not_le.mpr hcd⟩)]
  cases t <;> rfl

/-- `create_rectangle` gives a conforming mesh of the rectangle, for triangles with any diagonals and for quadrilaterals. -/
theorem C61_rectangle (eps a b c d : K) (gdim nx ny P : Nat) (t : CellType) (diagonal : Diagonal) (hP : 0 < P) (hg : 2 ≤ gdim ∧ gdim ≤ 3)
    (hn : 1 ≤ nx ∧ 1 ≤ ny) (hab : a < b) (hcd : c < d) (he : eps ≤ b - a ∧ eps ≤ d - c) (ht : t = .triangle ∨ t = .quadrilateral) :
    ∃ A : Nat → Arrays K, (∀ r < P, createRectangle eps r gdim a b c d nx ny t diagonal = .ok (A r)) ∧
      IsMesh t (a, c, 0) (b, d, 0) (gatherX P A) (gatherCells P A) ∧
      (gatherX P A).length = (nx + 1) * (ny + 1) + midSquare t diagonal * (nx * ny) ∧ (gatherCells P A).length = perSquare t diagonal * (nx * ny) := by
  have hab1 : |b - a| = b - a := abs_of_pos (by linarith)
  have hcd1 : |d - c| = d - c := abs_of_pos (by linarith)
  have hok := fun r => C61_aux_create eps a b c d gdim nx ny r t diagonal hg hn hab hcd
  have hvl : (triVertices a b c d nx ny).length = (nx + 1) * (ny + 1) := by rw [triVertices, grid_length]; ring
  rcases ht with rfl | rfl
  · have hb : ∀ r, buildTri eps r a b c d nx ny diagonal = .ok (if r = 0 then (if diagonal = .crossed then
        ⟨triVertices a b c d nx ny ++ triMidpoints a b c d nx ny, triCrossed nx ny⟩ else ⟨triVertices a b c d nx ny, triCells diagonal nx ny⟩) else ⟨[], []⟩) := by
      intro r
      unfold buildTri
      by_cases hr : r = 0
      · rw [if_pos hr, if_neg (by rw [hab1, hcd1, not_or]; exact ⟨not_lt.mpr he.1, not_lt.mpr he.2⟩), if_pos hr]
      · rw [if_neg hr, if_neg hr]
    refine ⟨_, fun r _ => (hok r).trans (hb r), ?_⟩
    rw [(C61_aux_first P hP _).1, (C61_aux_first P hP _).2]
    by_cases hd : diagonal = .crossed
    · rw [if_pos hd]
      refine ⟨C61_aux_crossed a b c d nx ny hn hab hcd, ?_, ?_⟩
      · rw [List.length_append, hvl, triMidpoints, grid_length]; simp [midSquare, hd]; ring
      · simp only [perSquare, hd, triCrossed]
        rw [C61_aux_count _ _ (4 * nx) fun iy _ => by rw [C61_aux_count _ _ 4 fun ix _ => by simp, List.length_range], List.length_range]
        simp; ring
    · rw [if_neg hd]
      refine ⟨C61_aux_tri a b c d nx ny diagonal hn hab hcd hd, ?_, ?_⟩
      · rw [hvl]; simp [midSquare, hd]
      · simp only [perSquare, hd, triCells_eq]
        rw [C61_aux_count _ _ (2 * nx) fun iy _ => by
          rw [C61_aux_count _ _ 2 fun ix _ => by unfold squareOf; split <;> rfl, List.length_range], List.length_range]
        simp; ring
  · have hb : ∀ r, buildQuad r a b c d nx ny = if r = 0 then buildQuad 0 a b c d nx ny else ⟨[], []⟩ := by
      intro r
      by_cases hr : r = 0
      · subst hr; rfl
      · rw [if_neg hr, buildQuad, if_neg hr]
    refine ⟨fun r => if r = 0 then buildQuad 0 a b c d nx ny else ⟨[], []⟩, fun r _ => by rw [hok r]; exact congrArg Except.ok (hb r), ?_⟩
    rw [(C61_aux_first P hP _).1, (C61_aux_first P hP _).2]
    refine ⟨C61_aux_quad a b c d nx ny hn hab hcd, ?_, ?_⟩
    · simp only [buildQuad, if_true, midSquare]
      rw [grid_length]; simp
    · simp only [buildQuad, if_true, perSquare]
      rw [grid_length]; simp

/-- The cells of a box. -/
theorem C61_aux_box (t : CellType) (p0 p1 : K × K × K) (nx ny nz : Nat) (hn : 1 ≤ nx ∧ 1 ≤ ny ∧ 1 ≤ nz)
    (hp : p0.1 < p1.1 ∧ p0.2.1 < p1.2.1 ∧ p0.2.2 < p1.2.2) (ht : t = .tetrahedron ∨ t = .hexahedron ∨ t = .prism) :
    IsMesh t p0 p1 ((boxPts nx ny nz).map (pos p0 ((p1.1 - p0.1) / (nx : K), (p1.2.1 - p0.2.1) / (ny : K), (p1.2.2 - p0.2.2) / (nz : K))))
      ((List.range (nx * ny * nz)).flatMap fun i => (boxTable t).map fun l => l.map fun k => (corners nx ny i).getD k 0) := by
  obtain ⟨h1, h2⟩ := C61_aux_step nx hn.1 p0.1 p1.1 hp.1
  obtain ⟨h3, h4⟩ := C61_aux_step ny hn.2.1 p0.2.1 p1.2.1 hp.2.1
  obtain ⟨h5, h6⟩ := C61_aux_step nz hn.2.2 p0.2.2 p1.2.2 hp.2.2
  have hfar : ∀ t, dim t = 3 → far t (nx, ny, nz) p0 ((p1.1 - p0.1) / (nx : K), (p1.2.1 - p0.2.1) / (ny : K), (p1.2.2 - p0.2.2) / (nz : K)) = p1 := by
    intro t ht
    simp [far, ht, h2, h4, h6]
  have hlay : ∀ t, dim t = 3 → Layers t (nx, ny, nz) := by
    intro t ht c hc
    rw [ht]
    interval_cases c <;> simp [Spec.Box.axis] <;> omega
  rcases ht with rfl | rfl | rfl
  · rw [box_cells .tetrahedron unitTets (by decide +kernel) (by decide)]
    have := isMesh (lo := p0) (h := ((p1.1 - p0.1) / (nx : K), (p1.2.1 - p0.2.1) / (ny : K), (p1.2.2 - p0.2.2) / (nz : K))) ⟨h1, h3, h5⟩ (hlay .tetrahedron rfl) (by decide) (box_good unitTets (by decide) nx ny nz) (by decide +kernel)
      (fun Q hQ => by rw [List.mem_singleton] at hQ; subst hQ; exact unitTets_tiles K) (box_used unitTets (by decide) nx ny nz hn.1 hn.2.1 hn.2.2)
    rwa [hfar .tetrahedron rfl] at this
  · rw [box_cells .hexahedron unitHex (by decide +kernel) (by decide)]
    have := isMesh (lo := p0) (h := ((p1.1 - p0.1) / (nx : K), (p1.2.1 - p0.2.1) / (ny : K), (p1.2.2 - p0.2.2) / (nz : K))) ⟨h1, h3, h5⟩ (hlay .hexahedron rfl) (by decide) (box_good unitHex (by decide) nx ny nz) (by decide +kernel)
      (fun Q hQ => by rw [List.mem_singleton] at hQ; subst hQ; exact unitHex_tiles K) (box_used unitHex (by decide) nx ny nz hn.1 hn.2.1 hn.2.2)
    rwa [hfar .hexahedron rfl] at this
  · rw [box_cells .prism unitPrisms (by decide +kernel) (by decide)]
    have := isMesh (lo := p0) (h := ((p1.1 - p0.1) / (nx : K), (p1.2.1 - p0.2.1) / (ny : K), (p1.2.2 - p0.2.2) / (nz : K))) ⟨h1, h3, h5⟩ (hlay .prism rfl) (by decide) (box_good unitPrisms (by decide) nx ny nz) (by decide +kernel)
      (fun Q hQ => by rw [List.mem_singleton] at hQ; subst hQ; exact unitPrisms_tiles K) (box_used unitPrisms (by decide) nx ny nz hn.1 hn.2.1 hn.2.2)
    rwa [hfar .prism rfl] at this

/-- `create_box` gives a conforming mesh of the box. `S` is the size of `subcomm` and `team s` the rank in `comm` (of size `P`) of its process `s`; for prisms
`subcomm` has to be `comm`. Other processes have no vertices and cells. -/
theorem C61_box (eps : K) (p0 p1 : K × K × K) (nx ny nz P S : Nat) (team : Nat → Nat) (t : CellType) (hS : 0 < S) (hn : 1 ≤ nx ∧ 1 ≤ ny ∧ 1 ≤ nz)
    (hp : p0.1 < p1.1 ∧ p0.2.1 < p1.2.1 ∧ p0.2.2 < p1.2.2)
    (he : 2 * eps ≤ (p1.1 - p0.1) / nx ∧ 2 * eps ≤ (p1.2.1 - p0.2.1) / ny ∧ 2 * eps ≤ (p1.2.2 - p0.2.2) / nz)
    (ht : t = .tetrahedron ∨ t = .hexahedron ∨ t = .prism) (hprism : t = .prism → S = P ∧ ∀ s < S, team s = s) :
    ∃ A : Nat → Arrays K, (∀ s < S, createBox eps (team s, P) (some (s, S)) p0 p1 nx ny nz t = .ok (A s)) ∧
      (∀ comm, createBox eps comm none p0 p1 nx ny nz t = .ok ⟨[], []⟩) ∧
      IsMesh t p0 p1 (gatherX S A) (gatherCells S A) ∧
      (gatherX S A).length = (nx + 1) * (ny + 1) * (nz + 1) ∧ (gatherCells S A).length = (boxTable t).length * (nx * ny * nz) := by
  obtain ⟨h1, h2⟩ := C61_aux_step nx hn.1 p0.1 p1.1 hp.1
  obtain ⟨h3, h4⟩ := C61_aux_step ny hn.2.1 p0.2.1 p1.2.1 hp.2.1
  obtain ⟨h5, h6⟩ := C61_aux_step nz hn.2.2 p0.2.2 p1.2.2 hp.2.2
  have hcreate : ∀ comm sub, createBox eps comm sub p0 p1 nx ny nz t = buildBox eps comm sub p0 p1 nx ny nz t := by
    intro comm sub
    unfold createBox
    rw [if_neg (by omega), if_neg (by rw [not_or, not_or]; exact ⟨not_le.mpr hp.1, not_le.mpr hp.2.1, not_le.mpr hp.2.2⟩), if_pos ht]
  have hgeom : ∀ s, geom eps s S p0 p1 nx ny nz = .ok ((List.range' (localRange s ((nx + 1) * (ny + 1) * (nz + 1)) S).1
      ((localRange s ((nx + 1) * (ny + 1) * (nz + 1)) S).2 - (localRange s ((nx + 1) * (ny + 1) * (nz + 1)) S).1)).map fun v =>
      pos p0 ((p1.1 - p0.1) / (nx : K), (p1.2.1 - p0.2.1) / (ny : K), (p1.2.2 - p0.2.2) / (nz : K))
        (2 * (dec (nx + 1) (ny + 1) v).1, 2 * (dec (nx + 1) (ny + 1) v).2.1, 2 * (dec (nx + 1) (ny + 1) v).2.2)) := by
    intro s
    unfold geom
    dsimp only
    rw [if_neg (by rw [abs_of_pos h1, abs_of_pos h3, abs_of_pos h5, not_or, not_or]; exact ⟨not_lt.mpr he.1, not_lt.mpr he.2.1, not_lt.mpr he.2.2⟩)]
    refine congrArg Except.ok (List.map_congr_left fun v _ => ?_)
    simp only [pos, dec]
    push_cast
    refine Prod.ext ?_ (Prod.ext ?_ ?_) <;> simp only <;> ring
  have hrng : ∀ s < S, (if t = .prism then localRange (team s) (nx * ny * nz) P else localRange s (nx * ny * nz) S) = localRange s (nx * ny * nz) S := by
    intro s hs
    split
    · next h => rw [(hprism h).2 s hs, (hprism h).1]
    · rfl
  refine ⟨fun s => ⟨(List.range' (localRange s ((nx + 1) * (ny + 1) * (nz + 1)) S).1
      ((localRange s ((nx + 1) * (ny + 1) * (nz + 1)) S).2 - (localRange s ((nx + 1) * (ny + 1) * (nz + 1)) S).1)).map fun v =>
      pos p0 ((p1.1 - p0.1) / (nx : K), (p1.2.1 - p0.2.1) / (ny : K), (p1.2.2 - p0.2.2) / (nz : K))
        (2 * (dec (nx + 1) (ny + 1) v).1, 2 * (dec (nx + 1) (ny + 1) v).2.1, 2 * (dec (nx + 1) (ny + 1) v).2.2),
    (List.range' (localRange s (nx * ny * nz) S).1 ((localRange s (nx * ny * nz) S).2 - (localRange s (nx * ny * nz) S).1)).flatMap
    fun i => (boxTable t).map fun l => l.map fun k => (corners nx ny i).getD k 0⟩, fun s hs => ?_, fun comm => ?_, ?_⟩
  · rw [hcreate]
    simp only [buildBox, bind, Except.bind]
    rw [hgeom s]
    simp only [hrng s hs]
  · rw [hcreate]; rfl
  have hX : gatherX S (fun s => (⟨(List.range' (localRange s ((nx + 1) * (ny + 1) * (nz + 1)) S).1
      ((localRange s ((nx + 1) * (ny + 1) * (nz + 1)) S).2 - (localRange s ((nx + 1) * (ny + 1) * (nz + 1)) S).1)).map fun v =>
      pos p0 ((p1.1 - p0.1) / (nx : K), (p1.2.1 - p0.2.1) / (ny : K), (p1.2.2 - p0.2.2) / (nz : K))
        (2 * (dec (nx + 1) (ny + 1) v).1, 2 * (dec (nx + 1) (ny + 1) v).2.1, 2 * (dec (nx + 1) (ny + 1) v).2.2),
      (List.range' (localRange s (nx * ny * nz) S).1 ((localRange s (nx * ny * nz) S).2 - (localRange s (nx * ny * nz) S).1)).flatMap
    fun i => (boxTable t).map fun l => l.map fun k => (corners nx ny i).getD k 0⟩ : Arrays K)) =
      (boxPts nx ny nz).map (pos p0 ((p1.1 - p0.1) / (nx : K), (p1.2.1 - p0.2.1) / (ny : K), (p1.2.2 - p0.2.2) / (nz : K))) := by
    unfold gatherX
    simp only
    rw [← List.map_flatMap, ranges_all S _ hS, boxPts, List.map_map]
    rfl
  have hC : ∀ f : Nat → List (K × K × K), gatherCells S (fun s => (⟨f s, (List.range' (localRange s (nx * ny * nz) S).1 ((localRange s (nx * ny * nz) S).2 -
      (localRange s (nx * ny * nz) S).1)).flatMap fun i => (boxTable t).map fun l => l.map fun k => (corners nx ny i).getD k 0⟩ : Arrays K)) =
      (List.range (nx * ny * nz)).flatMap fun i => (boxTable t).map fun l => l.map fun k => (corners nx ny i).getD k 0 := by
    intro f
    unfold gatherCells
    simp only
    rw [← List.flatMap_assoc, ranges_all S _ hS]
  rw [hX, hC]
  refine ⟨C61_aux_box t p0 p1 nx ny nz hn hp ht, by simp [boxPts], ?_⟩
  rw [C61_aux_count _ _ (boxTable t).length fun i _ => by rw [List.length_map], List.length_range]

/-- Wrong numbers of cells, points in the wrong order and other cell types are rejected by all processes. -/
theorem C61_rejects (eps : K) :
    (∀ r gdim n (a b : K), n = 0 ∨ b ≤ a → ∃ e, createInterval eps r gdim n a b = .error e) ∧
    (∀ r gdim nx ny t diagonal (a b c d : K), nx = 0 ∨ ny = 0 ∨ b ≤ a ∨ d ≤ c ∨ (t ≠ .triangle ∧ t ≠ .quadrilateral) →
      ∃ e, createRectangle eps r gdim a b c d nx ny t diagonal = .error e) ∧
    (∀ comm sub nx ny nz t (p0 p1 : K × K × K), nx = 0 ∨ ny = 0 ∨ nz = 0 ∨ p1.1 ≤ p0.1 ∨ p1.2.1 ≤ p0.2.1 ∨ p1.2.2 ≤ p0.2.2 ∨
      (t ≠ .tetrahedron ∧ t ≠ .hexahedron ∧ t ≠ .prism) → ∃ e, createBox eps comm sub p0 p1 nx ny nz t = .error e) := by
  refine ⟨?_, ?_, ?_⟩
  · intro r gdim n a b h
    unfold createInterval
    by_cases h1 : gdim < 1 ∨ 3 < gdim
    · exact ⟨_, if_pos h1⟩
    rw [if_neg h1]
    by_cases h2 : n < 1
    · exact ⟨_, if_pos h2⟩
    rw [if_neg h2]
    rcases h with h | h
    · omega
    · exact ⟨_, if_pos h⟩
  · intro r gdim nx ny t diagonal a b c d h
    unfold createRectangle
    by_cases h1 : gdim < 2 ∨ 3 < gdim
    · exact ⟨_, if_pos h1⟩
    rw [if_neg h1]
    by_cases h2 : nx < 1 ∨ ny < 1
    · exact ⟨_, if_pos h2⟩
    rw [if_neg h2]
    by_cases h3 : b ≤ a ∨ d ≤ c
    · exact ⟨_, if_pos h3⟩
    rw [if_neg h3]
    have : t ≠ .triangle ∧ t ≠ .quadrilateral := by
      rcases h with h | h | h | h | h
      · omega
      · omega
      · exact absurd (Or.inl h) h3
      · exact absurd (Or.inr h) h3
      · exact h
    cases t <;> simp at this ⊢
  · intro comm sub nx ny nz t p0 p1 h
    unfold createBox
    by_cases h2 : nx < 1 ∨ ny < 1 ∨ nz < 1
    · exact ⟨_, if_pos h2⟩
    rw [if_neg h2]
    by_cases h3 : p1.1 ≤ p0.1 ∨ p1.2.1 ≤ p0.2.1 ∨ p1.2.2 ≤ p0.2.2
    · exact ⟨_, if_pos h3⟩
    rw [if_neg h3]
    refine ⟨_, if_neg ?_⟩
    rintro h4
    rcases h with h | h | h | h | h | h | h
    · omega
    · omega
    · omega
    · exact h3 (Or.inl h)
    · exact h3 (Or.inr (Or.inl h))
    · exact h3 (Or.inr (Or.inr h))
    · rcases h4 with h4 | h4 | h4
      · exact h.1 h4
      · exact h.2.1 h4
      · exact h.2.2 h4

/-- Prisms with a `subcomm` that is not `comm`: with two processes and `subcomm` of process 0 alone, the last cuboids are missing, although all vertices are
there. (`build_prism` takes the range of cells from `comm`.) -/
theorem C61_refuted_prism_subcomm :
    ∃ A : Arrays ℚ, createBox 0 (0, 2) (some (0, 1)) (0, 0, 0) (1, 1, 1) 1 1 2 .prism = .ok A ∧
      createBox 0 (1, 2) none (0, 0, 0) ((1, 1, 1) : ℚ × ℚ × ℚ) 1 1 2 .prism = .ok ⟨[], []⟩ ∧
      A.x.length = 12 ∧ A.cells.length = 2 ∧ ¬ IsMesh .prism (0, 0, 0) (1, 1, 1) A.x A.cells := by
  have hg : geom (0 : ℚ) 0 1 (0, 0, 0) (1, 1, 1) 1 1 2 = .ok ((List.range' 0 12).map fun v =>
      (0 + ((v % 4 % 2 : Nat) : ℚ) * ((1 - 0) / ((1 : Nat) : ℚ)), 0 + ((v % 4 / 2 : Nat) : ℚ) * ((1 - 0) / ((1 : Nat) : ℚ)),
        0 + ((v / 4 : Nat) : ℚ) * ((1 - 0) / ((2 : Nat) : ℚ)))) := by
    unfold geom
    dsimp only
    rw [if_neg (by norm_num)]
    rfl
  have h0 : ∀ comm sub, createBox 0 comm sub (0, 0, 0) ((1, 1, 1) : ℚ × ℚ × ℚ) 1 1 2 .prism = buildBox 0 comm sub (0, 0, 0) (1, 1, 1) 1 1 2 .prism := by
    intro comm sub
    rw [createBox, if_neg (by omega), if_neg (by norm_num), if_pos (by decide)]
  refine ⟨⟨(List.range' 0 12).map fun v =>
      (0 + ((v % 4 % 2 : Nat) : ℚ) * ((1 - 0) / ((1 : Nat) : ℚ)), 0 + ((v % 4 / 2 : Nat) : ℚ) * ((1 - 0) / ((1 : Nat) : ℚ)),
        0 + ((v / 4 : Nat) : ℚ) * ((1 - 0) / ((2 : Nat) : ℚ))), [[0, 1, 2, 4, 5, 6], [1, 2, 3, 5, 6, 7]]⟩, ?_, h0 _ _, by simp, by simp, fun h => ?_⟩
  · rw [h0]
    simp only [buildBox, bind, Except.bind]
    rw [hg]
    rfl
  · obtain ⟨V, hV, hv⟩ := h.used 11 (by simp)
    have : ∀ V ∈ [[0, 1, 2, 4, 5, 6], [1, 2, 3, 5, 6, 7]], 11 ∉ V := by decide
    exact this V hV hv

/-- Triangles that are too flat are rejected by process 0 only; the others go on. -/
theorem C61_refuted_flat :
    createRectangle (1 : ℚ) 0 2 0 (1 / 2) 0 1 1 1 .triangle .left = .error .width ∧
    createRectangle (1 : ℚ) 1 2 0 (1 / 2) 0 1 1 1 .triangle .left = .ok ⟨[], []⟩ := by
  constructor
  · rw [createRectangle, if_neg (by omega), if_neg (by omega), if_neg (by norm_num)]
    simp only [buildTri, if_true]
    rw [if_pos (by left; rw [abs_of_pos] <;> norm_num)]
  · rw [createRectangle, if_neg (by omega), if_neg (by omega), if_neg (by norm_num)]
    rfl

/-! The hypotheses are met. -/
example := C61_interval (1 / 1000 : ℚ) 0 1 1 4 3 (by decide) (by decide) (by decide) (by norm_num) (by norm_num)
example := C61_rectangle (1 / 1000 : ℚ) 0 2 (-1) 1 2 3 4 2 .triangle .leftRight (by decide) (by decide) (by decide) (by norm_num) (by norm_num) (by norm_num) (by decide)
example := C61_box (1 / 1000 : ℚ) (0, 0, 0) (1, 2, 3) 2 3 1 4 2 (fun s => s + 1) .tetrahedron (by decide) (by decide) (by norm_num) (by norm_num) (by decide) (by decide)
/-- Six squares, twelve triangles; the diagonal of the second square goes the other way. -/
example : triCells .leftRight 3 2 = [[0, 1, 5], [0, 4, 5], [1, 2, 5], [2, 5, 6], [2, 3, 7], [2, 6, 7], [4, 5, 8], [5, 8, 9], [5, 6, 10], [5, 9, 10],
    [6, 7, 10], [7, 10, 11]] := by decide +kernel

end Verif.Props
