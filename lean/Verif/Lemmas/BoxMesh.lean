import Verif.Model.BoxMesh
import Verif.Lemmas.UnitCubes
import Verif.Lemmas.StableSort
import Verif.Props.C01_C02_LocalRange
/-!
# `create_interval`, `create_rectangle` and `create_box` as meshes made of cubes
-/
namespace Verif.BoxMesh
open Verif.Lattice Verif.LocalRange Verif.Spec.RefCell Verif.Spec.Box
open Verif.Connectivity (CellType)

/-! ## Rows of rows -/

theorem grid {α : Type} (a b : Nat) (f : Nat → Nat → α) :
    (List.range a).flatMap (fun i => (List.range b).map (f i)) = (List.range (a * b)).map fun k => f (k / b) (k % b) := by
  induction a with
  | zero => simp
  | succ a ih =>
    rw [List.range_succ, List.flatMap_append, ih, Nat.succ_mul, List.range_add, List.map_append]
    congr 1
    simp only [List.flatMap_cons, List.flatMap_nil, List.append_nil, List.map_map]
    refine List.map_congr_left fun j hj => ?_
    have hj := List.mem_range.mp hj
    simp only [Function.comp_apply]
    rw [Nat.mul_comm a b, Nat.mul_add_div (by omega), Nat.div_eq_of_lt hj, Nat.mul_add_mod, Nat.mod_eq_of_lt hj, add_zero]

theorem grid_get {α : Type} (a b : Nat) (f : Nat → Nat → α) (i j : Nat) (hi : i < a) (hj : j < b) :
    ((List.range a).flatMap (fun i => (List.range b).map (f i)))[i * b + j]? = some (f i j) := by
  rw [grid]
  have : i * b + j < a * b := by
    calc i * b + j < i * b + b := by omega
      _ = (i + 1) * b := by ring
      _ ≤ a * b := Nat.mul_le_mul_right _ (by omega)
  rw [List.getElem?_map, List.getElem?_range this, Option.map_some, Nat.mul_comm i b, Nat.mul_add_div (by omega), Nat.div_eq_of_lt hj, Nat.mul_add_mod,
    Nat.mod_eq_of_lt hj, add_zero]

theorem grid_nodup {α : Type} (a b : Nat) (f : Nat → Nat → α) (hf : ∀ i j i' j', f i j = f i' j' → i = i' ∧ j = j') :
    ((List.range a).flatMap (fun i => (List.range b).map (f i))).Nodup := by
  rw [grid]
  refine List.nodup_range.map_on fun k _ k' _ he => ?_
  obtain ⟨h1, h2⟩ := hf _ _ _ _ he
  rw [← Nat.div_add_mod k b, ← Nat.div_add_mod k' b, h1, h2]

theorem grid_length {α : Type} (a b : Nat) (f : Nat → Nat → α) :
    ((List.range a).flatMap (fun i => (List.range b).map (f i))).length = a * b := by
  rw [grid, List.length_map, List.length_range]

theorem grid_mem {α : Type} (a b : Nat) (f : Nat → Nat → α) (x : α) :
    x ∈ (List.range a).flatMap (fun i => (List.range b).map (f i)) ↔ ∃ i < a, ∃ j < b, f i j = x := by
  simp only [List.mem_flatMap, List.mem_map, List.mem_range]

theorem flatMap_grid {α β : Type} (a b : Nat) (f : Nat → Nat → α) (g : α → List β) :
    ((List.range a).flatMap (fun i => (List.range b).map (f i))).flatMap g = (List.range a).flatMap fun i => (List.range b).flatMap fun j => g (f i j) := by
  rw [List.flatMap_assoc]
  refine List.flatMap_congr fun i _ => ?_
  rw [List.flatMap_map]

/-! ## Intervals -/

def intervalCubes (n : Nat) : List Off := (List.range n).map fun i => (i, 0, 0)
def intervalPts (n : Nat) : List Off := (List.range (n + 1)).map fun i => (2 * i, 0, 0)
def intervalNum (i o : Off) : Nat := i.1 + o.1 / 2

theorem interval_good (n : Nat) : Good (n, 1, 1) [unitInterval] (fun _ => unitInterval) (intervalCubes n) (intervalPts n) intervalNum := by
  refine ⟨?_, ?_, fun _ _ => by simp, ?_, ?_⟩
  · exact List.nodup_range.map fun a b h => by simpa using h
  · rintro ⟨a, b, c⟩
    simp only [intervalCubes, List.mem_map, List.mem_range, Prod.mk.injEq]
    constructor
    · rintro ⟨i, hi, rfl, rfl, rfl⟩; exact ⟨hi, Nat.one_pos, Nat.one_pos⟩
    · rintro ⟨h1, h2, h3⟩; exact ⟨a, h1, rfl, by omega, by omega⟩
  · refine List.nodup_range.map fun a b h => ?_
    simp only [Prod.mk.injEq] at h; omega
  · intro i hi l hl o ho
    obtain ⟨k, hk, rfl⟩ := List.mem_map.mp hi
    have hk := List.mem_range.mp hk
    simp only [unitInterval, List.mem_singleton] at hl
    subst hl
    simp only [List.mem_cons, List.not_mem_nil, or_false] at ho
    rcases ho with rfl | rfl <;>
      · simp only [intervalPts, intervalNum, at2]
        rw [List.getElem?_map, List.getElem?_range (by omega)]
        simp <;> omega

theorem interval_used (n : Nat) (hn : 0 < n) : ∀ p ∈ intervalPts n, ∃ i ∈ intervalCubes n, ∃ l ∈ unitInterval, ∃ o ∈ l, at2 i o = p := by
  intro p hp
  obtain ⟨k, hk, rfl⟩ := List.mem_map.mp hp
  have hk := List.mem_range.mp hk
  by_cases h : k < n
  · exact ⟨(k, 0, 0), List.mem_map.mpr ⟨k, List.mem_range.mpr h, rfl⟩, _, List.mem_cons_self, (0, 0, 0), by simp, rfl⟩
  · refine ⟨(n - 1, 0, 0), List.mem_map.mpr ⟨n - 1, List.mem_range.mpr (by omega), rfl⟩, _, List.mem_cons_self, (2, 0, 0), by simp, ?_⟩
    refine Prod.ext ?_ (Prod.ext ?_ ?_) <;> simp only [at2] <;> omega

theorem interval_cells (n : Nat) : (List.range n).map (fun ix => [ix, ix + 1]) = cells (fun _ => unitInterval) (intervalCubes n) intervalNum := by
  unfold cells intervalCubes
  rw [List.flatMap_map]
  simp [unitInterval, intervalNum, ← List.map_eq_flatMap]

/-! ## Rectangles -/

def rectCubes (nx ny : Nat) : List Off := (List.range ny).flatMap fun iy => (List.range nx).map fun ix => (ix, iy, 0)
def rectPts (nx ny : Nat) : List Off := (List.range (ny + 1)).flatMap fun iy => (List.range (nx + 1)).map fun ix => (2 * ix, 2 * iy, 0)
def rectMids (nx ny : Nat) : List Off := (List.range ny).flatMap fun iy => (List.range nx).map fun ix => (2 * ix + 1, 2 * iy + 1, 0)
def rectNum (nx ny : Nat) (i o : Off) : Nat :=
  if o.1 = 1 then (nx + 1) * (ny + 1) + i.2.1 * nx + i.1 else (i.2.1 + o.2.1 / 2) * (nx + 1) + (i.1 + o.1 / 2)

theorem rectCubes_nodup (nx ny : Nat) : (rectCubes nx ny).Nodup :=
  grid_nodup _ _ _ fun i j i' j' h => by simp only [Prod.mk.injEq] at h; omega

theorem rectCubes_mem (nx ny : Nat) (i : Off) : i ∈ rectCubes nx ny ↔ i.1 < nx ∧ i.2.1 < ny ∧ i.2.2 < 1 := by
  obtain ⟨a, b, c⟩ := i
  rw [rectCubes, grid_mem]
  constructor
  · rintro ⟨iy, hy, ix, hx, he⟩
    simp only [Prod.mk.injEq] at he
    obtain ⟨rfl, rfl, rfl⟩ := he
    exact ⟨hx, hy, Nat.one_pos⟩
  · rintro ⟨h1, h2, h3⟩
    have h3 : c = 0 := by have h3 : c < 1 := h3; omega
    subst h3
    exact ⟨b, h2, a, h1, rfl⟩

theorem rect_corner (nx ny : Nat) (i : Off) (hi : i ∈ rectCubes nx ny) (o : Off) (ho : o = (0, 0, 0) ∨ o = (2, 0, 0) ∨ o = (0, 2, 0) ∨ o = (2, 2, 0)) :
    (rectPts nx ny)[rectNum nx ny i o]? = some (at2 i o) := by
  obtain ⟨h1, h2, h3⟩ := (rectCubes_mem nx ny i).mp hi
  have hz : i.2.2 = 0 := by omega
  rcases ho with rfl | rfl | rfl | rfl <;>
    · simp only [rectNum, at2, hz]
      rw [if_neg (by omega), rectPts, grid_get _ _ _ _ _ (by omega) (by omega)]
      refine congrArg some (Prod.ext ?_ (Prod.ext ?_ ?_)) <;> simp only <;> omega

theorem rectPts_nodup (nx ny : Nat) : (rectPts nx ny).Nodup :=
  grid_nodup _ _ _ fun i j i' j' h => by simp only [Prod.mk.injEq] at h; omega

theorem rect_used (nx ny : Nat) (hx : 0 < nx) (hy : 0 < ny) (p : Off) (hp : p ∈ rectPts nx ny) :
    ∃ i ∈ rectCubes nx ny, ∃ o, (o = (0, 0, 0) ∨ o = (2, 0, 0) ∨ o = (0, 2, 0) ∨ o = (2, 2, 0)) ∧ at2 i o = p := by
  rw [rectPts, grid_mem] at hp
  obtain ⟨iy, h1, ix, h2, rfl⟩ := hp
  by_cases a1 : ix < nx <;> by_cases a2 : iy < ny
  · exact ⟨(ix, iy, 0), (rectCubes_mem _ _ _).mpr ⟨a1, a2, by simp⟩, (0, 0, 0), by simp, rfl⟩
  · refine ⟨(ix, ny - 1, 0), (rectCubes_mem _ _ _).mpr ⟨a1, by simp only; omega, by simp⟩, (0, 2, 0), by simp, ?_⟩
    refine Prod.ext ?_ (Prod.ext ?_ ?_) <;> simp only [at2] <;> omega
  · refine ⟨(nx - 1, iy, 0), (rectCubes_mem _ _ _).mpr ⟨by simp only; omega, a2, by simp⟩, (2, 0, 0), by simp, ?_⟩
    refine Prod.ext ?_ (Prod.ext ?_ ?_) <;> simp only [at2] <;> omega
  · refine ⟨(nx - 1, ny - 1, 0), (rectCubes_mem _ _ _).mpr ⟨by simp only; omega, by simp only; omega, by simp⟩, (2, 2, 0), by simp, ?_⟩
    refine Prod.ext ?_ (Prod.ext ?_ ?_) <;> simp only [at2] <;> omega

/-- The diagonal of a square. -/
def diagAt (diagonal : Diagonal) (iy ix : Nat) : Diagonal :=
  match diagonal with
  | .rightLeft => if (iy + ix) % 2 ≠ 0 then .right else .left
  | .leftRight => if (iy + ix) % 2 ≠ 0 then .left else .right
  | d => d

def diagPat (diagonal : Diagonal) (i : Off) : List (List Off) := if diagAt diagonal i.2.1 i.1 = .left then unitLeft else unitRight

theorem diag_good (diagonal : Diagonal) (nx ny : Nat) :
    Good (nx, ny, 1) [unitLeft, unitRight] (diagPat diagonal) (rectCubes nx ny) (rectPts nx ny) (rectNum nx ny) := by
  refine ⟨rectCubes_nodup _ _, rectCubes_mem nx ny, fun i _ => ?_, rectPts_nodup _ _, fun i hi l hl o ho => ?_⟩
  · unfold diagPat; split <;> simp
  · refine rect_corner nx ny i hi o ?_
    have : ∀ l ∈ unitLeft ++ unitRight, ∀ o ∈ l, o = (0, 0, 0) ∨ o = (2, 0, 0) ∨ o = (0, 2, 0) ∨ o = (2, 2, 0) := by decide
    refine this l ?_ o ho
    rw [List.mem_append]
    unfold diagPat at hl
    split at hl
    · exact Or.inl hl
    · exact Or.inr hl

theorem diag_used (diagonal : Diagonal) (nx ny : Nat) (hx : 0 < nx) (hy : 0 < ny) :
    ∀ p ∈ rectPts nx ny, ∃ i ∈ rectCubes nx ny, ∃ l ∈ diagPat diagonal i, ∃ o ∈ l, at2 i o = p := by
  intro p hp
  obtain ⟨i, hi, o, ho, he⟩ := rect_used nx ny hx hy p hp
  refine ⟨i, hi, ?_⟩
  have h1 : ∃ l ∈ diagPat diagonal i, o ∈ l := by
    unfold diagPat
    split <;> rcases ho with rfl | rfl | rfl | rfl <;> decide
  obtain ⟨l, hl, ho⟩ := h1
  exact ⟨l, hl, o, ho, he⟩

/-- Two cells of a square. -/
def squareOf (loc : Diagonal) (nx iy ix : Nat) : List (List Nat) :=
  if loc = .left then [[iy * (nx + 1) + ix, iy * (nx + 1) + ix + 1, iy * (nx + 1) + ix + (nx + 1)],
    [iy * (nx + 1) + ix + 1, iy * (nx + 1) + ix + (nx + 1), iy * (nx + 1) + ix + 1 + (nx + 1)]]
  else [[iy * (nx + 1) + ix, iy * (nx + 1) + ix + 1, iy * (nx + 1) + ix + 1 + (nx + 1)],
    [iy * (nx + 1) + ix, iy * (nx + 1) + ix + (nx + 1), iy * (nx + 1) + ix + 1 + (nx + 1)]]

theorem triSquare_eq (diagonal loc : Diagonal) (nx iy ix : Nat) : triSquare diagonal loc nx iy ix =
    (squareOf loc nx iy ix, if diagonal = .rightLeft ∨ diagonal = .leftRight then (if loc = .left then .right else .left) else loc) := by
  cases loc <;> simp [triSquare, squareOf]

theorem diag_step (diagonal : Diagonal) (iy ix : Nat) :
    (if diagonal = .rightLeft ∨ diagonal = .leftRight then (if diagAt diagonal iy ix = .left then Diagonal.right else .left) else diagAt diagonal iy ix) =
      diagAt diagonal iy (ix + 1) := by
  cases diagonal <;> simp only [diagAt, reduceCtorEq, or_self, or_true, true_or, if_true, if_false]
  · rcases Nat.mod_two_eq_zero_or_one (iy + ix) with h | h
    · have h' : (iy + (ix + 1)) % 2 = 1 := by omega
      simp [h, h']
    · have h' : (iy + (ix + 1)) % 2 = 0 := by omega
      simp [h, h']
  · rcases Nat.mod_two_eq_zero_or_one (iy + ix) with h | h
    · have h' : (iy + (ix + 1)) % 2 = 1 := by omega
      simp [h, h']
    · have h' : (iy + (ix + 1)) % 2 = 0 := by omega
      simp [h, h']

theorem row_fold (diagonal : Diagonal) (nx iy : Nat) (acc : List (List Nat)) (m : Nat) :
    (List.range m).foldl (fun (s : List (List Nat) × Diagonal) ix =>
      let q := triSquare diagonal s.2 nx iy ix
      (s.1 ++ q.1, q.2)) (acc, diagAt diagonal iy 0) =
    (acc ++ (List.range m).flatMap fun ix => squareOf (diagAt diagonal iy ix) nx iy ix, diagAt diagonal iy m) := by
  induction m with
  | zero => simp
  | succ m ih =>
    rw [List.range_succ, List.foldl_append, ih]
    simp only [List.foldl_cons, List.foldl_nil, List.flatMap_append, List.flatMap_cons, List.flatMap_nil, List.append_nil, triSquare_eq,
      diag_step, List.append_assoc]

theorem triCells_eq (diagonal : Diagonal) (nx ny : Nat) :
    triCells diagonal nx ny = (List.range ny).flatMap fun iy => (List.range nx).flatMap fun ix => squareOf (diagAt diagonal iy ix) nx iy ix := by
  have key : ∀ m, ∃ d, ((diagonal = .rightLeft ∨ diagonal = .leftRight) ∨ d = diagonal) ∧
      (List.range m).foldl (fun (s : List (List Nat) × Diagonal) iy =>
        (List.range nx).foldl (fun (s : List (List Nat) × Diagonal) ix =>
          let q := triSquare diagonal s.2 nx iy ix
          (s.1 ++ q.1, q.2)) (s.1, rowDiagonal diagonal s.2 iy)) ([], diagonal) =
        ((List.range m).flatMap fun iy => (List.range nx).flatMap fun ix => squareOf (diagAt diagonal iy ix) nx iy ix, d) := by
    intro m
    induction m with
    | zero => exact ⟨diagonal, Or.inr rfl, rfl⟩
    | succ m ih =>
      obtain ⟨d, hd, hm⟩ := ih
      refine ⟨diagAt diagonal m nx, ?_, ?_⟩
      · cases diagonal <;> simp [diagAt]
      · rw [List.range_succ, List.foldl_append, hm]
        have hrow : rowDiagonal diagonal d m = diagAt diagonal m 0 := by
          rcases hd with (rfl | rfl) | rfl
          · simp [rowDiagonal, diagAt]
          · simp [rowDiagonal, diagAt]
          · cases d <;> simp [rowDiagonal, diagAt]
        simp only [List.foldl_cons, List.foldl_nil, hrow]
        rw [row_fold]
        simp
  obtain ⟨d, _, h⟩ := key ny
  rw [triCells, h]

theorem diag_cells (diagonal : Diagonal) (nx ny : Nat) : triCells diagonal nx ny = cells (diagPat diagonal) (rectCubes nx ny) (rectNum nx ny) := by
  rw [triCells_eq, cells, rectCubes, flatMap_grid]
  refine List.flatMap_congr fun iy _ => List.flatMap_congr fun ix _ => ?_
  simp only [squareOf, diagPat]
  split
  · simp only [unitLeft, List.map_cons, List.map_nil, rectNum]
    norm_num
    repeat' apply And.intro
    all_goals ring
  · simp only [unitRight, List.map_cons, List.map_nil, rectNum]
    norm_num
    repeat' apply And.intro
    all_goals ring

theorem crossed_good (nx ny : Nat) :
    Good (nx, ny, 1) [unitCrossed] (fun _ => unitCrossed) (rectCubes nx ny) (rectPts nx ny ++ rectMids nx ny) (rectNum nx ny) := by
  refine ⟨rectCubes_nodup _ _, rectCubes_mem nx ny, fun i _ => by simp, ?_, fun i hi l hl o ho => ?_⟩
  · refine List.nodup_append.mpr ⟨rectPts_nodup _ _, grid_nodup _ _ _ fun i j i' j' h => by simp only [Prod.mk.injEq] at h; omega, ?_⟩
    intro p hp q hq he
    subst he
    rw [rectPts, grid_mem] at hp
    rw [rectMids, grid_mem] at hq
    obtain ⟨_, _, _, _, rfl⟩ := hp
    obtain ⟨_, _, _, _, h⟩ := hq
    simp only [Prod.mk.injEq] at h
    omega
  · have : ∀ l ∈ unitCrossed, ∀ o ∈ l, o = (1, 1, 0) ∨ o = (0, 0, 0) ∨ o = (2, 0, 0) ∨ o = (0, 2, 0) ∨ o = (2, 2, 0) := by decide
    rcases this l hl o ho with rfl | h
    · obtain ⟨h1, h2, h3⟩ := (rectCubes_mem nx ny i).mp hi
      have hz : i.2.2 = 0 := by omega
      have hlen : (rectPts nx ny).length = (nx + 1) * (ny + 1) := by rw [rectPts, grid_length]; ring
      rw [rectNum, if_pos rfl, List.getElem?_append_right (by omega), hlen,
        show (nx + 1) * (ny + 1) + i.2.1 * nx + i.1 - (nx + 1) * (ny + 1) = i.2.1 * nx + i.1 by omega, rectMids, grid_get _ _ _ _ _ h2 h1]
      simp [at2, hz]
    · have h1 := rect_corner nx ny i hi o h
      rw [List.getElem?_append_left (List.getElem?_eq_some_iff.mp h1).1]
      exact h1

theorem crossed_used (nx ny : Nat) (hx : 0 < nx) (hy : 0 < ny) :
    ∀ p ∈ rectPts nx ny ++ rectMids nx ny, ∃ i ∈ rectCubes nx ny, ∃ l ∈ unitCrossed, ∃ o ∈ l, at2 i o = p := by
  intro p hp
  rcases List.mem_append.mp hp with hp | hp
  · obtain ⟨i, hi, o, ho, he⟩ := rect_used nx ny hx hy p hp
    refine ⟨i, hi, ?_⟩
    have h1 : ∃ l ∈ unitCrossed, o ∈ l := by rcases ho with rfl | rfl | rfl | rfl <;> decide
    obtain ⟨l, hl, ho⟩ := h1
    exact ⟨l, hl, o, ho, he⟩
  · rw [rectMids, grid_mem] at hp
    obtain ⟨iy, h1, ix, h2, rfl⟩ := hp
    exact ⟨(ix, iy, 0), (rectCubes_mem _ _ _).mpr ⟨h2, h1, by simp⟩, _, List.mem_cons_self, (1, 1, 0), by simp, rfl⟩

theorem crossed_cells (nx ny : Nat) : triCrossed nx ny = cells (fun _ => unitCrossed) (rectCubes nx ny) (rectNum nx ny) := by
  rw [triCrossed, cells, rectCubes, flatMap_grid]
  refine List.flatMap_congr fun iy _ => List.flatMap_congr fun ix _ => ?_
  simp only [unitCrossed, List.map_cons, List.map_nil, rectNum]
  norm_num
  repeat' apply And.intro
  all_goals ring

/-! ## Rectangles of quadrilaterals -/

def quadCubes (nx ny : Nat) : List Off := (List.range nx).flatMap fun ix => (List.range ny).map fun iy => (ix, iy, 0)
def quadPts (nx ny : Nat) : List Off := (List.range (nx + 1)).flatMap fun ix => (List.range (ny + 1)).map fun iy => (2 * ix, 2 * iy, 0)
def quadNum (ny : Nat) (i o : Off) : Nat := (i.1 + o.1 / 2) * (ny + 1) + (i.2.1 + o.2.1 / 2)

theorem quadCubes_mem (nx ny : Nat) (i : Off) : i ∈ quadCubes nx ny ↔ i.1 < nx ∧ i.2.1 < ny ∧ i.2.2 < 1 := by
  obtain ⟨a, b, c⟩ := i
  rw [quadCubes, grid_mem]
  constructor
  · rintro ⟨ix, hx, iy, hy, he⟩
    simp only [Prod.mk.injEq] at he
    obtain ⟨rfl, rfl, rfl⟩ := he
    exact ⟨hx, hy, Nat.one_pos⟩
  · rintro ⟨h1, h2, h3⟩
    have h3 : c = 0 := by have h3 : c < 1 := h3; omega
    subst h3
    exact ⟨a, h1, b, h2, rfl⟩

theorem quad_good (nx ny : Nat) : Good (nx, ny, 1) [unitQuad] (fun _ => unitQuad) (quadCubes nx ny) (quadPts nx ny) (quadNum ny) := by
  refine ⟨grid_nodup _ _ _ fun i j i' j' h => by simp only [Prod.mk.injEq] at h; omega, quadCubes_mem nx ny, fun i _ => by simp,
    grid_nodup _ _ _ fun i j i' j' h => by simp only [Prod.mk.injEq] at h; omega, fun i hi l hl o ho => ?_⟩
  have : ∀ l ∈ unitQuad, ∀ o ∈ l, o = (0, 0, 0) ∨ o = (2, 0, 0) ∨ o = (0, 2, 0) ∨ o = (2, 2, 0) := by decide
  obtain ⟨h1, h2, h3⟩ := (quadCubes_mem nx ny i).mp hi
  have hz : i.2.2 = 0 := by omega
  rcases this l hl o ho with rfl | rfl | rfl | rfl <;>
    · simp only [quadNum, at2, hz]
      rw [quadPts, grid_get _ _ _ _ _ (by omega) (by omega)]
      refine congrArg some (Prod.ext ?_ (Prod.ext ?_ ?_)) <;> simp only <;> omega

theorem quad_used (nx ny : Nat) (hx : 0 < nx) (hy : 0 < ny) :
    ∀ p ∈ quadPts nx ny, ∃ i ∈ quadCubes nx ny, ∃ l ∈ unitQuad, ∃ o ∈ l, at2 i o = p := by
  intro p hp
  rw [quadPts, grid_mem] at hp
  obtain ⟨ix, h2, iy, h1, rfl⟩ := hp
  by_cases a1 : ix < nx <;> by_cases a2 : iy < ny
  · exact ⟨(ix, iy, 0), (quadCubes_mem _ _ _).mpr ⟨a1, a2, by simp⟩, _, List.mem_cons_self, (0, 0, 0), by simp, rfl⟩
  · refine ⟨(ix, ny - 1, 0), (quadCubes_mem _ _ _).mpr ⟨a1, by simp only; omega, by simp⟩, _, List.mem_cons_self, (0, 2, 0), by simp, ?_⟩
    refine Prod.ext ?_ (Prod.ext ?_ ?_) <;> simp only [at2] <;> omega
  · refine ⟨(nx - 1, iy, 0), (quadCubes_mem _ _ _).mpr ⟨by simp only; omega, a2, by simp⟩, _, List.mem_cons_self, (2, 0, 0), by simp, ?_⟩
    refine Prod.ext ?_ (Prod.ext ?_ ?_) <;> simp only [at2] <;> omega
  · refine ⟨(nx - 1, ny - 1, 0), (quadCubes_mem _ _ _).mpr ⟨by simp only; omega, by simp only; omega, by simp⟩, _, List.mem_cons_self, (2, 2, 0), by simp, ?_⟩
    refine Prod.ext ?_ (Prod.ext ?_ ?_) <;> simp only [at2] <;> omega

theorem quad_cells (nx ny : Nat) : (List.range nx).flatMap (fun ix => (List.range ny).map fun iy =>
      let i0 := ix * (ny + 1)
      [i0 + iy, i0 + iy + 1, i0 + iy + ny + 1, i0 + iy + ny + 2]) = cells (fun _ => unitQuad) (quadCubes nx ny) (quadNum ny) := by
  rw [cells, quadCubes, flatMap_grid]
  refine List.flatMap_congr fun ix _ => ?_
  rw [List.map_eq_flatMap]
  refine List.flatMap_congr fun iy _ => ?_
  simp only [unitQuad, List.map_cons, List.map_nil, quadNum]
  norm_num
  repeat' apply And.intro
  all_goals ring

/-! ## Boxes -/

/-- Place in a box of a number. -/
def dec (X Y i : Nat) : Off := (i % (X * Y) % X, i % (X * Y) / X, i / (X * Y))

theorem dec_enc (X Y x y z : Nat) (hx : x < X) (hy : y < Y) : dec X Y ((z * Y + y) * X + x) = (x, y, z) := by
  have h1 : y * X + x < X * Y := by
    calc y * X + x < y * X + X := by omega
      _ = X * (y + 1) := by ring
      _ ≤ X * Y := Nat.mul_le_mul_left _ (by omega)
  have h2 : (z * Y + y) * X + x = X * Y * z + (y * X + x) := by ring
  have h3 : ((z * Y + y) * X + x) % (X * Y) = y * X + x := by rw [h2, Nat.mul_add_mod, Nat.mod_eq_of_lt h1]
  have h4 : ((z * Y + y) * X + x) / (X * Y) = z := by
    rw [h2, Nat.mul_add_div (Nat.zero_lt_of_lt h1), Nat.div_eq_of_lt h1, add_zero]
  rw [dec, h3, h4, Nat.mul_comm y X, Nat.mul_add_mod, Nat.mod_eq_of_lt hx, Nat.mul_add_div (by omega), Nat.div_eq_of_lt hx, add_zero]

theorem dec_inj (X Y i j : Nat) (h : dec X Y i = dec X Y j) : i = j := by
  simp only [dec, Prod.mk.injEq] at h
  obtain ⟨h1, h2, h3⟩ := h
  have : i % (X * Y) = j % (X * Y) := by rw [← Nat.div_add_mod (i % (X * Y)) X, ← Nat.div_add_mod (j % (X * Y)) X, h1, h2]
  rw [← Nat.div_add_mod i (X * Y), ← Nat.div_add_mod j (X * Y), this, h3]

theorem dec_lt (X Y Z i : Nat) (hi : i < X * Y * Z) : (dec X Y i).1 < X ∧ (dec X Y i).2.1 < Y ∧ (dec X Y i).2.2 < Z := by
  have hXY : 0 < X * Y := by
    rcases Nat.eq_zero_or_pos (X * Y) with h | h
    · rw [h, zero_mul] at hi; omega
    · exact h
  have hX : 0 < X := Nat.pos_of_ne_zero (by rintro rfl; simp at hXY)
  refine ⟨Nat.mod_lt _ hX, Nat.div_lt_of_lt_mul (Nat.mod_lt _ hXY), Nat.div_lt_of_lt_mul hi⟩

theorem enc_lt (X Y Z x y z : Nat) (hx : x < X) (hy : y < Y) (hz : z < Z) : (z * Y + y) * X + x < X * Y * Z := by
  have h1 : z * Y + y + 1 ≤ Z * Y := by
    calc z * Y + y + 1 ≤ z * Y + Y := by omega
      _ = (z + 1) * Y := by ring
      _ ≤ Z * Y := Nat.mul_le_mul_right _ (by omega)
  calc (z * Y + y) * X + x < (z * Y + y) * X + X := by omega
    _ = (z * Y + y + 1) * X := by ring
    _ ≤ Z * Y * X := Nat.mul_le_mul_right _ h1
    _ = X * Y * Z := by ring

def boxCubes (nx ny nz : Nat) : List Off := (List.range (nx * ny * nz)).map (dec nx ny)
def boxPts (nx ny nz : Nat) : List Off := (List.range ((nx + 1) * (ny + 1) * (nz + 1))).map fun v =>
  (2 * (dec (nx + 1) (ny + 1) v).1, 2 * (dec (nx + 1) (ny + 1) v).2.1, 2 * (dec (nx + 1) (ny + 1) v).2.2)
def boxNum (nx ny : Nat) (i o : Off) : Nat := ((i.2.2 + o.2.2 / 2) * (ny + 1) + (i.2.1 + o.2.1 / 2)) * (nx + 1) + (i.1 + o.1 / 2)

theorem boxCubes_mem (nx ny nz : Nat) (i : Off) : i ∈ boxCubes nx ny nz ↔ i.1 < nx ∧ i.2.1 < ny ∧ i.2.2 < nz := by
  rw [boxCubes, List.mem_map]
  constructor
  · rintro ⟨k, hk, rfl⟩
    exact dec_lt nx ny nz k (List.mem_range.mp hk)
  · rintro ⟨h1, h2, h3⟩
    exact ⟨_, List.mem_range.mpr (enc_lt nx ny nz _ _ _ h1 h2 h3), dec_enc nx ny _ _ _ h1 h2⟩

/-- The corners of a cube. -/
def cubeCorners : List Off := [(0, 0, 0), (2, 0, 0), (0, 2, 0), (2, 2, 0), (0, 0, 2), (2, 0, 2), (0, 2, 2), (2, 2, 2)]

theorem box_good (P : List (List Off)) (hP : ∀ l ∈ P, ∀ o ∈ l, o ∈ cubeCorners) (nx ny nz : Nat) :
    Good (nx, ny, nz) [P] (fun _ => P) (boxCubes nx ny nz) (boxPts nx ny nz) (boxNum nx ny) := by
  refine ⟨List.nodup_range.map fun a b h => dec_inj _ _ _ _ h, boxCubes_mem nx ny nz, fun i _ => by simp, ?_, fun i hi l hl o ho => ?_⟩
  · refine List.nodup_range.map fun a b h => dec_inj (nx + 1) (ny + 1) _ _ ?_
    simp only [Prod.mk.injEq] at h
    exact Prod.ext (by omega) (Prod.ext (by omega) (by omega))
  · obtain ⟨h1, h2, h3⟩ := (boxCubes_mem nx ny nz i).mp hi
    have hev : ∀ o ∈ cubeCorners, (o.1 = 2 * (o.1 / 2) ∧ o.1 / 2 ≤ 1) ∧ (o.2.1 = 2 * (o.2.1 / 2) ∧ o.2.1 / 2 ≤ 1) ∧ o.2.2 = 2 * (o.2.2 / 2) ∧ o.2.2 / 2 ≤ 1 := by
      decide
    obtain ⟨⟨e1, f1⟩, ⟨e2, f2⟩, e3, f3⟩ := hev o (hP l hl o ho)
    have a1 : i.1 + o.1 / 2 < nx + 1 := by omega
    have a2 : i.2.1 + o.2.1 / 2 < ny + 1 := by omega
    have a3 : i.2.2 + o.2.2 / 2 < nz + 1 := by omega
    rw [boxNum, boxPts, List.getElem?_map, List.getElem?_range (enc_lt _ _ _ _ _ _ a1 a2 a3), Option.map_some, dec_enc _ _ _ _ _ a1 a2]
    refine congrArg some (Prod.ext ?_ (Prod.ext ?_ ?_)) <;> simp only [at2] <;> omega

theorem box_used (P : List (List Off)) (hP : ∀ o ∈ cubeCorners, ∃ l ∈ P, o ∈ l) (nx ny nz : Nat) (hx : 0 < nx) (hy : 0 < ny) (hz : 0 < nz) :
    ∀ p ∈ boxPts nx ny nz, ∃ i ∈ boxCubes nx ny nz, ∃ l ∈ P, ∃ o ∈ l, at2 i o = p := by
  intro p hp
  obtain ⟨v, hv, rfl⟩ := List.mem_map.mp hp
  obtain ⟨h1, h2, h3⟩ := dec_lt _ _ _ v (List.mem_range.mp hv)
  generalize dec (nx + 1) (ny + 1) v = q at h1 h2 h3
  obtain ⟨x, y, z⟩ := q
  have step : ∀ n x : Nat, 0 < n → x < n + 1 → ∃ i < n, ∃ o, (o = 0 ∨ o = 2) ∧ 2 * i + o = 2 * x := by
    intro n x hn hx
    by_cases h : x < n
    · exact ⟨x, h, 0, Or.inl rfl, by omega⟩
    · exact ⟨n - 1, by omega, 2, Or.inr rfl, by omega⟩
  obtain ⟨i1, b1, o1, c1, d1⟩ := step nx x hx h1
  obtain ⟨i2, b2, o2, c2, d2⟩ := step ny y hy h2
  obtain ⟨i3, b3, o3, c3, d3⟩ := step nz z hz h3
  have ho : (o1, o2, o3) ∈ cubeCorners := by
    rcases c1 with rfl | rfl <;> rcases c2 with rfl | rfl <;> rcases c3 with rfl | rfl <;> decide
  obtain ⟨l, hl, hol⟩ := hP _ ho
  exact ⟨(i1, i2, i3), (boxCubes_mem _ _ _ _).mpr ⟨b1, b2, b3⟩, l, hl, _, hol, by simp only [at2, d1, d2, d3]⟩

theorem corners_eq (nx ny i k : Nat) (hk : k < 8) : (corners nx ny i).getD k 0 = boxNum nx ny (dec nx ny i) (cubeCorners.getD k (0, 0, 0)) := by
  simp only [corners, boxNum, dec, cubeCorners]
  interval_cases k <;> simp only [List.getD_cons_zero, List.getD_cons_succ] <;> norm_num <;> ring

theorem box_cells (t : CellType) (P : List (List Off)) (hP : (boxTable t).map (fun l => l.map fun k => cubeCorners.getD k (0, 0, 0)) = P)
    (hk : ∀ l ∈ boxTable t, ∀ k ∈ l, k < 8) (nx ny nz : Nat) :
    (List.range (nx * ny * nz)).flatMap (fun i => (boxTable t).map fun l => l.map fun k => (corners nx ny i).getD k 0) =
      cells (fun _ => P) (boxCubes nx ny nz) (boxNum nx ny) := by
  subst hP
  rw [cells, boxCubes, List.flatMap_map]
  refine List.flatMap_congr fun i _ => ?_
  rw [List.map_map]
  refine List.map_congr_left fun l hl => ?_
  simp only [Function.comp_apply, List.map_map]
  exact List.map_congr_left fun k hkl => corners_eq nx ny i k (hk l hl k hkl)

/-- The ranges of all processes, one after another. -/
theorem ranges_all (size N : Nat) (hs : 0 < size) :
    (List.range size).flatMap (fun r => List.range' (localRange r N size).1 ((localRange r N size).2 - (localRange r N size).1)) = List.range N := by
  have ht := Verif.Props.C01_local_range_tiles N size hs
  have key : ∀ m, m < size → (List.range (m + 1)).flatMap (fun r => List.range' (localRange r N size).1 ((localRange r N size).2 - (localRange r N size).1)) =
      List.range (localRange m N size).2 := by
    intro m
    induction m with
    | zero =>
      intro _
      simp only [zero_add, List.range_one, List.flatMap_cons, List.flatMap_nil, List.append_nil]
      have := ht.start hs
      rw [this, Nat.sub_zero, List.range_eq_range']
    | succ m ih =>
      intro hm
      have h1 := ht.glued m hm
      have h2 := ht.ordered (m + 1) hm
      rw [List.range_succ, List.flatMap_append, ih (by omega)]
      simp only [List.flatMap_cons, List.flatMap_nil, List.append_nil]
      rw [h1] at h2 ⊢
      have h3 := List.range'_append (s := 0) (m := (localRange m N size).2) (n := (localRange (m + 1) N size).2 - (localRange m N size).2) (step := 1)
      rw [List.range_eq_range', List.range_eq_range']
      rw [one_mul, zero_add] at h3
      rw [h3]
      congr 1; omega
  have := key (size - 1) (by omega)
  rw [show size - 1 + 1 = size by omega, ht.stop (size - 1) (by omega)] at this
  exact this

end Verif.BoxMesh
