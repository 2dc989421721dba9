import Verif.Lemmas.NewVertices
/-!
# C54: vertices of the refined mesh are numbered alike on all processes and have the right positions
-/
namespace Verif.Props
open Verif.World Verif.Spec Verif.Spec.Vertices Verif.NewVert

/-- There is one numbering of old vertices and marked edges by `0, 1, ...` without gaps, and every rank uses it: for the old
vertices it has (`adjust_indices`), owned or ghost, and for the marked edges it has (`create_new_vertices`), which have
exactly one new vertex; edges without mark have none.  `M` says which edges are marked; ranks agree on marks (C53). -/
theorem C54_numbering (we wv : World) (hw : we.Valid) (hv : wv.Valid) (hP : wv.P = we.P) (marks : Nat → List Bool) (M : Nat → Prop)
    (hM : ∀ r < we.P, ∀ i g, globalOf we r i = some g → ((marks r).getD i false = true ↔ M g)) :
    ∃ old mid N out, Numbering (wv.r0 wv.P) (we.r0 we.P) M old mid N ∧ newVertices we wv marks = some out ∧
      (∀ r < wv.P, ∀ i g, globalOf wv r i = some g → (adjust we wv marks r)[i]? = some (old g)) ∧
      (∀ r < we.P, ∀ e g, globalOf we r e = some g →
        (M g → RefMark.links (out r).1 (out r).2 e = [mid g]) ∧ (¬ M g → RefMark.links (out r).1 (out r).2 e = [])) := by
  obtain ⟨out, h1, h2⟩ := newVertices_spec we hw wv marks M hM
  exact ⟨_, _, _, out, numbering we wv hP marks M hM, h1, fun r hr i g hg => adjust_spec we wv hv marks r hr i g hg, h2⟩

/-- With the same numbers: the rows of coordinates that the ranks pass on, put together by rank, have the position of each
old vertex and the middle of each marked edge at the place of its number. -/
theorem C54_positions {X : Type} (we wv : World) (hw : we.Valid) (hv : wv.Valid) (hP : wv.P = we.P) (marks : Nat → List Bool) (M : Nat → Prop)
    (hM : ∀ r < we.P, ∀ i g, globalOf we r i = some g → ((marks r).getD i false = true ↔ M g))
    (vpos : Nat → Nat) (closure : Nat → List Nat) (pos : Nat → X) (ends : Nat → Nat × Nat) (m : Nat → Cells X)
    (hm : ∀ r < we.P, Straight we wv vpos closure pos ends r (m r)) (mean : List X → X) (hmean : ∀ x y, mean [x, y] = mean [y, x]) :
    ∃ old mid N out rows, Numbering (wv.r0 wv.P) (we.r0 we.P) M old mid N ∧ newVertices we wv marks = some out ∧
      (∀ r < wv.P, ∀ i g, globalOf wv r i = some g → (adjust we wv marks r)[i]? = some (old g)) ∧
      (∀ r < we.P, ∀ e g, globalOf we r e = some g →
        (M g → RefMark.links (out r).1 (out r).2 e = [mid g]) ∧ (¬ M g → RefMark.links (out r).1 (out r).2 e = [])) ∧
      (List.range we.P).mapM (newGeometry we wv marks vpos closure mean m) = some rows ∧
      (∀ g < wv.r0 wv.P, rows.flatten[old g]? = some (pos g)) ∧
      (∀ g < we.r0 we.P, M g → rows.flatten[mid g]? = some (mean [pos (ends g).1, pos (ends g).2])) := by
  obtain ⟨out, h1, h2⟩ := newVertices_spec we hw wv marks M hM
  obtain ⟨rows, h3, h4, h5⟩ := geometry_spec m hP hm mean hmean marks M hM
  exact ⟨_, _, _, out, rows, numbering we wv hP marks M hM, h1, fun r hr i g hg => adjust_spec we wv hv marks r hr i g hg, h2, h3, h4, h5⟩

/-- The vertices that rank `r` passes on have consecutive numbers, after those of the ranks before: old ones in their order,
then the middles of its own marked edges in their order. -/
theorem C54_blocks (we wv : World) (hw : we.Valid) (hv : wv.Valid) (hP : wv.P = we.P) (marks : Nat → List Bool) (M : Nat → Prop)
    (hM : ∀ r < we.P, ∀ i g, globalOf we r i = some g → ((marks r).getD i false = true ↔ M g)) :
    ∃ (start : Nat → Nat) (out : Nat → List Nat × List Nat), newVertices we wv marks = some out ∧ start 0 = 0 ∧
      ∀ r < we.P, start (r + 1) = start r + wv.size r + ((List.range (we.size r)).filter fun e => (marks r).getD e false).length ∧
        (∀ i < wv.size r, (adjust we wv marks r)[i]? = some (start r + i)) ∧
        (∀ k e, ((List.range (we.size r)).filter fun e => (marks r).getD e false)[k]? = some e →
          RefMark.links (out r).1 (out r).2 e = [start r + wv.size r + k]) := by
  obtain ⟨out, h1, h2⟩ := newVertices_spec we hw wv marks M hM
  refine ⟨Offsets.excl (blockSize we wv marks), out, h1, rfl, fun r hr => ⟨?_, ?_, ?_⟩⟩
  · rw [Offsets.excl_succ]; unfold blockSize markedList; omega
  · intro i hi
    rw [adjust_spec we wv hv marks r (by omega) i (wv.r0 r + i) (by unfold globalOf; rw [if_pos hi]), old_at we wv marks r i (by omega) hi]
  · intro k e hk
    obtain ⟨hk1, hk2⟩ := List.getElem?_eq_some_iff.mp hk
    have hk1 : k < (markedList we marks r).length := hk1
    have hk2 : (markedList we marks r)[k] = e := hk2
    have he := (mem_markedList we marks r e).mp (by rw [← hk2]; exact List.getElem_mem hk1)
    have hg : globalOf we r e = some (we.r0 r + e) := by unfold globalOf; rw [if_pos he.1]
    rw [(h2 r hr e _ hg).1 ((hM r hr e _ hg).mp he.2), ← hk2, mid_at we wv marks r k hr hk1]
    congr 1; omega

/-! Example: two triangles on two ranks; the second one ghosts the common edge and its vertices. -/

def vertEdges : World where
  P := 2
  size := fun r => if r = 0 then 3 else 2
  ghosts := fun r => if r = 0 then [] else [0]
  owners := fun r => if r = 0 then [] else [0]

def vertVertices : World where
  P := 2
  size := fun r => if r = 0 then 3 else 1
  ghosts := fun r => if r = 0 then [] else [1, 2]
  owners := fun r => if r = 0 then [] else [0, 0]

/-- The common edge 0, edge 2 and edge 3 are marked. -/
def vertMarks (r : Nat) : List Bool := if r = 0 then [true, false, true] else [true, false, true]

example : (newVertices vertEdges vertVertices vertMarks).map (fun o => [o 0, o 1]) =
    some [([3, 4], [0, 1, 1, 2]), ([6, 3], [0, 1, 1, 2])] := by decide +kernel

example : adjust vertEdges vertVertices vertMarks 0 = [0, 1, 2] ∧ adjust vertEdges vertVertices vertMarks 1 = [5, 1, 2] := by decide +kernel

def vertCells (r : Nat) : Cells Nat :=
  if r = 0 then ⟨[[0, 1, 2]], [[0, 1, 2]], [[2, 1, 0]], fun _ => [0], fun i => [20, 10, 0].getD i 0⟩
  else ⟨[[1, 2, 0]], [[0, 1, 2]], [[0, 1, 2]], fun _ => [0], fun i => [10, 20, 34].getD i 0⟩

def vertClosure (j : Nat) : List Nat := [[1, 2], [0, 2], [0, 1]].getD j []

def vertEnds (g : Nat) : Nat × Nat := [(1, 2), (0, 2), (0, 1), (2, 3), (3, 1)].getD g (0, 0)

example : (List.range 2).mapM (newGeometry vertEdges vertVertices vertMarks id vertClosure (fun l => l.sum / 2) vertCells) =
    some [[0, 10, 20, 15, 5], [34, 27]] := by decide +kernel

theorem vertEdges_valid : vertEdges.Valid := by
  refine ⟨?_, ?_, ?_⟩
  · intro r hr
    have hr : r < 2 := hr
    interval_cases r <;> rfl
  · intro r hr
    have hr : r < 2 := hr
    interval_cases r <;> decide
  · intro r hr k q g hq hg
    have hr : r < 2 := hr
    interval_cases r
    · have h1 : ([] : List Nat)[k]? = some q := hq
      simp at h1
    · have h1 : ([0] : List Nat)[k]? = some q := hq
      have h2 : ([0] : List Nat)[k]? = some g := hg
      match k, h1, h2 with
      | 0, h1, h2 => cases h1; cases h2; decide

example : ∀ r < 2, Straight vertEdges vertVertices id vertClosure (fun g => [0, 10, 20, 34].getD g 0) vertEnds r (vertCells r) := by
  intro r hr
  interval_cases r
  · refine ⟨rfl, ?_, ?_, ?_⟩
    · intro c vs ds h1 h2 i v h3 g hg
      have h1 : ([[0, 1, 2]] : List (List Nat))[c]? = some vs := h1
      have h2 : ([[2, 1, 0]] : List (List Nat))[c]? = some ds := h2
      match c, h1, h2 with
      | 0, h1, h2 =>
        cases h1; cases h2
        match i, h3 with
        | 0, h3 => cases h3; cases hg; rfl
        | 1, h3 => cases h3; cases hg; rfl
        | 2, h3 => cases h3; cases hg; rfl
    · intro v hv
      have hv : v < 3 := hv
      interval_cases v
      · exact ⟨0, _, 0, rfl, rfl⟩
      · exact ⟨0, _, 1, rfl, rfl⟩
      · exact ⟨0, _, 2, rfl, rfl⟩
    · intro e g hg
      have he : e < 3 := SubMap.globalOf_lt _ _ _ _ hg
      interval_cases e <;> cases hg
      · exact ⟨0, _, _, _, 1, 2, _, _, _, _, rfl, rfl, by decide, rfl, rfl, rfl, rfl, rfl, rfl, rfl, Or.inl rfl⟩
      · exact ⟨0, _, _, _, 0, 2, _, _, _, _, rfl, rfl, by decide, rfl, rfl, rfl, rfl, rfl, rfl, rfl, Or.inl rfl⟩
      · exact ⟨0, _, _, _, 0, 1, _, _, _, _, rfl, rfl, by decide, rfl, rfl, rfl, rfl, rfl, rfl, rfl, Or.inl rfl⟩
  · refine ⟨rfl, ?_, ?_, ?_⟩
    · intro c vs ds h1 h2 i v h3 g hg
      have h1 : ([[1, 2, 0]] : List (List Nat))[c]? = some vs := h1
      have h2 : ([[0, 1, 2]] : List (List Nat))[c]? = some ds := h2
      match c, h1, h2 with
      | 0, h1, h2 =>
        cases h1; cases h2
        match i, h3 with
        | 0, h3 => cases h3; cases hg; rfl
        | 1, h3 => cases h3; cases hg; rfl
        | 2, h3 => cases h3; cases hg; rfl
    · intro v hv
      have hv : v < 1 := hv
      interval_cases v
      exact ⟨0, _, 2, rfl, rfl⟩
    · intro e g hg
      have he : e < 3 := SubMap.globalOf_lt _ _ _ _ hg
      interval_cases e <;> cases hg
      · exact ⟨0, _, _, _, 1, 2, _, _, _, _, rfl, rfl, by decide, rfl, rfl, rfl, rfl, rfl, rfl, rfl, Or.inl rfl⟩
      · exact ⟨0, _, _, _, 0, 2, _, _, _, _, rfl, rfl, by decide, rfl, rfl, rfl, rfl, rfl, rfl, rfl, Or.inr rfl⟩
      · exact ⟨0, _, _, _, 0, 1, _, _, _, _, rfl, rfl, by decide, rfl, rfl, rfl, rfl, rfl, rfl, rfl, Or.inl rfl⟩

end Verif.Props
