import Verif.Spec.PointMesh
/-!
# C114: meshes of points
-/
namespace Verif.Props
open Verif.PointMesh Verif.Spec.PointMesh

variable {T : Type}

private theorem inner_spec (f : Nat → T) (i : Nat) (c : Nat) (hc : c ≤ 3) (v : List T) (hv : 3 * i + 3 ≤ v.length) :
    let w := (List.range c).foldl (fun v j => v.set (3 * i + j) (f j)) v
    w.length = v.length ∧ (∀ (j : Nat), j < c → w[3 * i + j]? = some (f j)) ∧
      ∀ (k : Nat), (k < 3 * i ∨ 3 * i + c ≤ k) → w[k]? = v[k]? := by
  induction c with
  | zero => exact ⟨rfl, fun j h => absurd h (by omega), fun _ _ => rfl⟩
  | succ c ih =>
    obtain ⟨h1, h2, h3⟩ := ih (by omega)
    intro w
    have hw : w = ((List.range c).foldl (fun v j => v.set (3 * i + j) (f j)) v).set (3 * i + c) (f c) := by
      show (List.range (c + 1)).foldl _ v = _
      rw [List.range_succ, List.foldl_append]
      rfl
    rw [hw]
    generalize (List.range c).foldl (fun v j => v.set (3 * i + j) (f j)) v = u at h1 h2 h3
    refine ⟨by simp [h1], fun j hj => ?_, fun k hk => ?_⟩
    · by_cases e : j = c
      · subst e; rw [List.getElem?_set_self (by omega)]
      · rw [List.getElem?_set_ne (by omega)]; exact h2 j (by omega)
    · rw [List.getElem?_set_ne (by omega)]; exact h3 k (by omega)

private theorem outer_spec (f : Nat → Nat → T) (c : Nat) (hc : c ≤ 3) (n : Nat) (v : List T) (hv : 3 * n ≤ v.length) :
    let w := (List.range n).foldl (fun v i => (List.range c).foldl (fun v j => v.set (3 * i + j) (f i j)) v) v
    w.length = v.length ∧ (∀ (i j : Nat), i < n → j < c → w[3 * i + j]? = some (f i j)) ∧
      (∀ (i j : Nat), i < n → c ≤ j → j < 3 → w[3 * i + j]? = v[3 * i + j]?) ∧ ∀ (k : Nat), 3 * n ≤ k → w[k]? = v[k]? := by
  induction n with
  | zero => exact ⟨rfl, fun i j h => absurd h (by omega), fun i j h => absurd h (by omega), fun _ _ => rfl⟩
  | succ n ih =>
    obtain ⟨h1, h2, h3, h4⟩ := ih (by omega)
    intro w
    have hw : w = (List.range c).foldl (fun v j => v.set (3 * n + j) (f n j))
        ((List.range n).foldl (fun v i => (List.range c).foldl (fun v j => v.set (3 * i + j) (f i j)) v) v) := by
      show (List.range (n + 1)).foldl _ v = _
      rw [List.range_succ, List.foldl_append]
      rfl
    rw [hw]
    generalize (List.range n).foldl (fun v i => (List.range c).foldl (fun v j => v.set (3 * i + j) (f i j)) v) v = u at h1 h2 h3 h4
    obtain ⟨g1, g2, g3⟩ := inner_spec (f n) n c hc u (by omega)
    refine ⟨g1.trans h1, fun i j hi hj => ?_, fun i j hi hj hj3 => ?_, fun k hk => ?_⟩
    · by_cases e : i = n
      · subst e; exact g2 j hj
      · rw [g3 _ (by omega)]; exact h2 i j (by omega) hj
    · by_cases e : i = n
      · subst e; rw [g3 _ (by omega)]; exact h4 _ (by omega)
      · rw [g3 _ (by omega)]; exact h3 i j (by omega) hj hj3
    · rw [g3 _ (by omega)]; exact h4 k (by omega)

private theorem coordinates_spec [Zero T] (x : NdArray T) (h : 0 < x.cols) (h3 : x.cols ≤ 3) :
    ∃ c, coordinates x = some c ∧ c.length = 3 * x.rows ∧ ∀ (i j : Nat), i < x.rows → j < 3 → c[3 * i + j]? = some (given x i j) := by
  unfold coordinates
  rw [if_neg (by omega)]
  by_cases hs : x.cols = 3 ∧ x.stride0 = 3 ∧ x.stride1 = 1
  · rw [if_pos hs]
    obtain ⟨e1, e2, e3⟩ := hs
    refine ⟨_, rfl, by simp [e1]; omega, fun i j hi hj => ?_⟩
    rw [List.getElem?_map, List.getElem?_range (by rw [e1]; omega), Option.map_some]
    unfold given
    rw [if_pos (by omega), e2, e3]
    congr 2
    push_cast
    omega
  · rw [if_neg hs]
    obtain ⟨h1, h2, h4, _⟩ := outer_spec (entry x) x.cols h3 x.rows (List.replicate (3 * x.rows) (0 : T)) (by simp)
    refine ⟨_, rfl, by unfold pad; rw [h1]; simp, fun i j hi hj => ?_⟩
    unfold given
    by_cases hjc : j < x.cols
    · rw [if_pos hjc]; exact h2 i j hi hjc
    · rw [if_neg hjc]
      have := h4 i j hi (by omega) hj
      unfold pad
      rw [this, List.getElem?_replicate, if_pos (by omega)]

/-- **The points are the given ones**: for arrays with one to three columns and any strides (also slices, transposed and reversed arrays), the
mesh has one cell for each point, at its place, padded with zeros, in the order given; other arrays raise an exception. -/
theorem C114_points [Zero T] (xs : List (NdArray T)) (r : Nat) (x : NdArray T) (hx : xs[r]? = some x) :
    (0 < x.cols ∧ x.cols ≤ 3 → ∃ m, createPointMesh xs r = some m ∧ IsPoints x m ∧
      ∀ (i : Nat), i < x.rows → m.original[i]? = some (m.start + i))
    ∧ (¬ (0 < x.cols ∧ x.cols ≤ 3) → createPointMesh xs r = none) := by
  constructor
  · rintro ⟨h0, h3⟩
    obtain ⟨c, hc, hl, hp⟩ := coordinates_spec x h0 h3
    unfold createPointMesh
    rw [hx]
    simp only [bind, Option.bind, hc]
    rw [if_neg (by simp [hl])]
    refine ⟨_, rfl, ⟨rfl, by simp, hl, by simp, fun i hi => List.getElem?_range hi, hp⟩, fun i hi => ?_⟩
    simp only [List.length_range]
    rw [List.getElem?_map, List.getElem?_range hi, Option.map_some, Nat.add_comm]
  · intro h
    unfold createPointMesh
    rw [hx]
    have : coordinates x = none := if_pos (by omega)
    simp only [bind, Option.bind, this]

private theorem sum_find (l : List Nat) (g : Nat) (hg : g < l.sum) :
    ∃ (r i : Nat) (n : Nat), l[r]? = some n ∧ i < n ∧ g = (l.take r).sum + i := by
  induction l generalizing g with
  | nil => simp at hg
  | cons a l ih =>
    by_cases h : g < a
    · exact ⟨0, g, a, rfl, h, by simp⟩
    · rw [List.sum_cons] at hg
      obtain ⟨r, i, n, h1, h2, h3⟩ := ih (g - a) (by omega)
      exact ⟨r + 1, i, n, h1, h2, by rw [List.take_succ_cons, List.sum_cons]; omega⟩

private theorem take_next (l : List Nat) (r n : Nat) (h : l[r]? = some n) : (l.take (r + 1)).sum = (l.take r).sum + n := by
  induction l generalizing r with
  | nil => simp at h
  | cons a l ih =>
    cases r with
    | zero => injection h with h; subst h; simp
    | succ r =>
      rw [List.take_succ_cons, List.take_succ_cons, List.sum_cons, List.sum_cons, ih r h]
      omega

private theorem take_mono (l : List Nat) (a b : Nat) (h : a ≤ b) : (l.take a).sum ≤ (l.take b).sum := by
  induction l generalizing a b with
  | nil => simp
  | cons x l ih =>
    cases a with
    | zero => simp
    | succ a =>
      cases b with
      | zero => omega
      | succ b =>
        rw [List.take_succ_cons, List.take_succ_cons, List.sum_cons, List.sum_cons]
        have := ih a b (by omega)
        omega

/-- **Numbers**: no point is shared; every number below the number of all points is the global number of exactly one point of one process. -/
theorem C114_numbers [Zero T] (xs : List (NdArray T)) (h : ∀ x ∈ xs, 0 < x.cols ∧ x.cols ≤ 3) :
    (∀ g, g < total xs → ∃ (r i : Nat) (m : Points T), createPointMesh xs r = some m ∧ m.original[i]? = some g)
    ∧ (∀ (r i : Nat) (m : Points T) (g : Nat), createPointMesh xs r = some m → m.original[i]? = some g → g < total xs)
    ∧ ∀ (r i r' i' : Nat) (m m' : Points T) (g : Nat), createPointMesh xs r = some m → createPointMesh xs r' = some m' →
        m.original[i]? = some g → m'.original[i']? = some g → r = r' ∧ i = i' := by
  have form : ∀ (r : Nat) (m : Points T), createPointMesh xs r = some m → ∃ n, (xs.map (·.rows))[r]? = some n ∧
      m.original = (List.range n).map (fun i => i + ((xs.map (·.rows)).take r).sum) := by
    intro r m hm
    unfold createPointMesh at hm
    cases hx : xs[r]? with
    | none => rw [hx] at hm; cases hm
    | some x =>
      rw [hx] at hm
      simp only [bind, Option.bind] at hm
      split at hm
      · cases hm
      · beta_reduce at hm
        split at hm
        · cases hm
        · injection hm with hm
          refine ⟨x.rows, by rw [List.getElem?_map, hx]; rfl, ?_⟩
          rw [← hm]
          simp only [List.length_range, List.map_take]
  have entryOf : ∀ (n s i g : Nat), ((List.range n).map (fun i => i + s))[i]? = some g → i < n ∧ g = i + s := by
    intro n s i g hg
    rw [List.getElem?_map] at hg
    by_cases hi : i < n
    · rw [List.getElem?_range hi, Option.map_some] at hg
      injection hg with hg
      exact ⟨hi, hg.symm⟩
    · rw [List.getElem?_eq_none (by simpa using hi)] at hg
      cases hg
  refine ⟨fun g hg => ?_, fun r i m g hm hg => ?_, fun r i r' i' m m' g hm hm' hg hg' => ?_⟩
  · obtain ⟨r, i, n, h1, h2, h3⟩ := sum_find _ g hg
    rw [List.getElem?_map] at h1
    cases hx : xs[r]? with
    | none => rw [hx] at h1; cases h1
    | some x =>
      obtain ⟨m, hm, _, hi⟩ := (C114_points xs r x hx).1 (h x (List.mem_of_getElem? hx))
      rw [hx] at h1
      injection h1 with h1
      obtain ⟨n', hn', horig⟩ := form r m hm
      rw [List.getElem?_map, hx] at hn'
      injection hn' with hn'
      refine ⟨r, i, m, hm, ?_⟩
      rw [horig, List.getElem?_map, List.getElem?_range (by omega), Option.map_some, h3, Nat.add_comm]
  · obtain ⟨n, hn, horig⟩ := form r m hm
    rw [horig] at hg
    obtain ⟨h1, h2⟩ := entryOf _ _ _ _ hg
    have a := take_next _ r n hn
    have b : ((xs.map (fun x => x.rows)).take (r + 1)).sum ≤ total xs := by
      have b := take_mono (xs.map NdArray.rows) (r + 1) (xs.map NdArray.rows).length (Nat.succ_le_of_lt (List.getElem?_eq_some_iff.1 hn).1)
      rw [List.take_length] at b
      exact b
    omega
  · obtain ⟨n, hn, horig⟩ := form r m hm
    obtain ⟨n', hn', horig'⟩ := form r' m' hm'
    rw [horig] at hg
    rw [horig'] at hg'
    obtain ⟨h1, h2⟩ := entryOf _ _ _ _ hg
    obtain ⟨h3, h4⟩ := entryOf _ _ _ _ hg'
    have a := take_next _ r n hn
    have b := take_next _ r' n' hn'
    rcases Nat.lt_trichotomy r r' with hl | hl | hl
    · have := take_mono (xs.map (·.rows)) (r + 1) r' hl
      omega
    · subst hl
      exact ⟨rfl, by omega⟩
    · have := take_mono (xs.map (·.rows)) (r' + 1) r hl
      omega

/-- Two processes; the second gives the rows of an array in reverse order. -/
example :
    let a : NdArray Int := ⟨fun k => k, 0, 2, 3, 3, 1⟩
    let b : NdArray Int := ⟨fun k => 10 * k, 4, 3, 2, -2, 1⟩
    (createPointMesh [a, b] 0).map (·.x) = some [0, 1, 2, 3, 4, 5]
      ∧ (createPointMesh [a, b] 1).map (·.x) = some [40, 50, 0, 20, 30, 0, 0, 10, 0]
      ∧ (createPointMesh [a, b] 1).map (·.original) = some [2, 3, 4] := by decide

end Verif.Props
