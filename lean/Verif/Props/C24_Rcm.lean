import Verif.Lemmas.Ordering
/-!
# C24: `reorder_rcm` returns a permutation
-/
namespace Verif.Props
open Verif.Rcm

/-- Undirected: `b` is linked from `a` exactly when `a` is linked from `b`. -/
def Symmetric (g : List (List Nat)) : Prop := ∀ a b : Nat, b ∈ g.getD a [] → a ∈ g.getD b []

/-- C24, undirected graphs: for every graph whose links name existing nodes, connected or not,
with or without self links and repeated links, and whatever order the library sort gives nodes of
equal degree, the call terminates without reading out of bounds and returns a permutation of
`0, …, n-1`.  The full claim (all graphs) is false, see `C24_refuted_directed`. -/
theorem C24_permutation_partial (g : List (List Nat)) (hb : ∀ l ∈ g, ∀ b ∈ l, b < g.length) (hs : Symmetric g)
    (srt : List Nat → List Nat) (hsrt : ∀ l, (srt l).Perm l) :
    ∃ r, reorderRcm g srt = some r ∧ r.Perm ((List.range g.length).map fun (i : Nat) => (i : Int)) := by
  have hg : InBounds g := by
    intro a b hab
    unfold Edge links at hab
    rw [List.getD_eq_getElem?_getD] at hab
    cases hl : g[a]? with
    | none => rw [hl] at hab; simp at hab
    | some l => rw [hl] at hab; exact hb l (List.mem_of_getElem? hl) b hab
  obtain ⟨r, order, h1, h2⟩ := rcmLoop_spec g hg hs srt hsrt (g.length + 1) (List.replicate g.length (-1), 0) []
    ⟨by simp, rfl, by simp, by simp, by simp, by intro q hq _; simp [hq], by simp⟩ (by omega)
  refine ⟨r, h1, ?_⟩
  have hlen : r.length = g.length := h2.len
  have hol : order.length = g.length := h2.count.symm
  have hperm : order.Perm (List.range g.length) := by
    apply (List.subperm_of_subset h2.nodup (fun x hx => List.mem_range.mpr (h2.bound x hx))).perm_of_length_le
    simp [hol]
  apply List.Perm.symm
  apply (List.subperm_of_subset ?_ ?_).perm_of_length_le
  · simp [hlen]
  · refine (List.nodup_range).map ?_
    intro a b hab
    simpa using hab
  · intro x hx
    obtain ⟨k, hk, rfl⟩ := List.mem_map.mp hx
    rw [List.mem_range, ← hol] at hk
    exact List.mem_of_getElem? (h2.val k _ (List.getElem?_eq_getElem hk))

/-- Two components, a self link and an isolated node. -/
example : (∀ l ∈ [[2, 0], [3], [0], [1], []], ∀ b ∈ l, b < 5) ∧ Symmetric [[2, 0], [3], [0], [1], []] ∧
    reorderRcm [[2, 0], [3], [0], [1], []] id = some [3, 2, 4, 1, 0] := by
  refine ⟨by decide, ?_, by decide +kernel⟩
  intro a b h
  have ha : a < 5 := by
    by_contra hc
    rw [List.getD_eq_getElem?_getD, List.getElem?_eq_none (by simp; omega)] at h
    simp at h
  interval_cases a <;> simp at h <;> (try rcases h with rfl | rfl) <;> (try subst h) <;> simp

/-- The full claim fails for directed graphs: with the single link 0 → 1 the result is `[2, 1]`. -/
theorem C24_refuted_directed : ∃ g : List (List Nat), (∀ l ∈ g, ∀ b ∈ l, b < g.length) ∧
    (∀ srt : List Nat → List Nat, (∀ l, (srt l).Perm l) → ∃ r, reorderRcm g srt = some r ∧
      ¬ r.Perm ((List.range g.length).map fun (i : Nat) => (i : Int))) := by
  refine ⟨[[1], []], by decide, ?_⟩
  intro srt hs
  have h0 : srt [] = [] := List.perm_nil.mp (hs [])
  have h1 : srt [1] = [1] := List.perm_singleton.mp (hs [1])
  refine ⟨[2, 1], ?_, by decide⟩
  have e0 : reorderRcm [[1], []] srt = rcmLoop [[1], []] srt 3 ([-1, -1], 0) := rfl
  have a1 : rcmUnlabelled [[1], []] srt [-1, -1] = some [1] := by
    have p : pickNode [[1], []] [-1, -1] = 1 := by decide +kernel
    have l : levelStructure [[1], []] 1 = some ([1], [0, 1]) := by decide +kernel
    have v : rootLoop [[1], []] 3 1 ([1], [0, 1]) = some 1 := by decide +kernel
    have b : bfs [[1], []] srt 3 (fun x => decide (x = 1)) [1] 0 = some [1] := by
      simp [bfs, scan, links, h0]
    simp [rcmUnlabelled, p, l, v, b]
  have a2 : rcmUnlabelled [[1], []] srt [-1, 0] = some [1, 0] := by
    have p : pickNode [[1], []] [-1, 0] = 0 := by decide +kernel
    have l : levelStructure [[1], []] 0 = some ([0, 1], [0, 1, 2]) := by decide +kernel
    have v : rootLoop [[1], []] 3 0 ([0, 1], [0, 1, 2]) = some 0 := by decide +kernel
    have b : bfs [[1], []] srt 3 (fun x => decide (x = 0)) [0] 0 = some [0, 1] := by
      simp [bfs, scan, links, visit, h0, h1]
    simp [rcmUnlabelled, p, l, v, b]
  rw [e0]
  simp [rcmLoop, a1, a2, label]

end Verif.Props
