import Verif.Lemmas.VtkTet
/-!
# The faces of the remainders of a tetrahedron
-/
namespace Verif.CellPerm
open Verif.Spec

variable {α : Type} (g : Nat → Nat → Nat → α)

/-- Layer `l + 1` without its edges and its first row. -/
def restL (k l : Nat) : List α := strip (hL g l) 0 (k - l - 1) (k - l)

theorem restL_length (k l : Nat) (hl : l < k) : (restL g k l).length + 1 = T (k - l) := by
  have := strip_len1 (hL g l) 0 (k - l - 1)
  rwa [show k - l - 1 + 1 = k - l by omega] at this

theorem after_length (a : Int) (f : Nat → Int) (A : List α) (b : Nat → List α) (n : Nat) (ha : a = A.length)
    (h : ∀ i, i < n → f i = (b i).length) : after a f n = ((A ++ (List.range n).flatMap b).length : Int) := by
  induction n with
  | zero => simp [after, ha]
  | succ n ih =>
    rw [after, ih (fun i hi => h i (by omega)), h n (by omega), List.range_succ, List.flatMap_append]
    simp
    omega

/-- Face `y = 0`. -/
theorem face0 (k : Nat) (hk : 2 ≤ k) :
    popNest (after (((k : Int) + 2 - 3) * ((k : Int) + 2 - 2) / 2) fun i => ((k : Int) + 2 - 2 - i) * ((k : Int) + 2 - 1 - i) / 2 - 1)
      (fun i => k - 1 - i) (fun _ _ => 0) (k - 1) 0
      (strip (h0 g) 1 (k - 1) (k - 1) ++ (List.range k).flatMap (fun i => mid g k i ++ strip (hL g i) 0 (k - i - 1) (k - i))) =
    .ok (triLattice (k - 2) (fun p q => g (p + 1) 0 (q + 1)),
      strip (h0 g) 1 (k - 1) (k - 1) ++ (List.range (k - 1)).flatMap (restL g k)) := by
  have t3 : ((k : Int) + 2 - 3) * ((k : Int) + 2 - 2) / 2 = T (k - 1) := T_int _ _ (k - 1) (by omega) (by omega)
  have := popNest_ok
    (after (((k : Int) + 2 - 3) * ((k : Int) + 2 - 2) / 2) fun i => ((k : Int) + 2 - 2 - i) * ((k : Int) + 2 - 1 - i) / 2 - 1)
    (fun i => k - 1 - i) (fun _ _ => 0) (k - 1) 0
    (fun i => (strip (h0 g) 1 (k - 1) (k - 1) ++ (List.range i).flatMap (restL g k)) ++
      (List.range (k - 1 - i)).flatMap fun t => mid g k (i + t) ++ restL g k (i + t))
    (fun i => mid g k i)
    (fun i hi => by
      rw [Nat.zero_add, show k - 1 - i = (k - 1 - (i + 1)) + 1 by omega, List.range_succ_eq_map, List.flatMap_cons,
        List.flatMap_map, Nat.add_zero]
      have := popFront (mid g k i) (restL g k i ++ (List.range (k - 1 - (i + 1))).flatMap fun t => mid g k (i + t.succ) ++ restL g k (i + t.succ))
        (strip (h0 g) 1 (k - 1) (k - 1) ++ (List.range i).flatMap (restL g k)) 0
        (after (((k : Int) + 2 - 3) * ((k : Int) + 2 - 2) / 2) (fun i => ((k : Int) + 2 - 2 - i) * ((k : Int) + 2 - 1 - i) / 2 - 1) i)
        (after_length _ _ _ _ _ (by rw [t3, strip_len']) (fun l hl => by
          have := restL_length g k l (by omega)
          rw [T_int _ _ (k - l) (by omega) (by omega)]
          omega))
      rw [mid_length, show k - i - 1 = (k - 1 - (i + 1)) + 1 by omega] at this
      simp only [List.append_assoc, Nat.add_zero] at this ⊢
      rw [this, List.range_succ, List.flatMap_append]
      simp only [List.flatMap_cons, List.flatMap_nil, List.append_nil, List.append_assoc, Nat.succ_eq_add_one]
      congr 5
      apply List.flatMap_congr
      intro t _
      rw [show i + (t + 1) = i + 1 + t by omega])
  simp only [List.range_zero, List.flatMap_nil, List.append_nil, Nat.sub_zero, Nat.zero_add, Nat.sub_self] at this
  have e : (List.range k).flatMap (fun i => mid g k i ++ strip (hL g i) 0 (k - i - 1) (k - i)) =
      (List.range (k - 1)).flatMap (fun i => mid g k i ++ restL g k i) := by
    conv_lhs => rw [show k = (k - 1) + 1 by omega, List.range_succ, List.flatMap_append]
    rw [show k - 1 + 1 = k by omega]
    simp [mid, restL, show k - (k - 1) = 1 by omega, strip]
  rw [e, this]
  congr 2
  rw [triLattice_eq, strip]
  rw [show k - 2 + 1 = k - 1 by omega]
  apply List.flatMap_congr
  intro i hi
  rw [mid, map_range', map_range', show k - i - 1 = k - 1 - i by omega]
  simp [Nat.add_comm]

/-- Layer `l + 1` after `i` rounds of the second face. -/
def lay1 (k i l : Nat) : List α :=
  let i' := min i (k - l - 1)
  strip (hL g l) 0 (k - l - 1 - i') (k - l) ++ strip (fun x t => hL g l x (k - l - 1 - i' + t)) 0 i' i'

theorem lay1_zero (k l : Nat) : lay1 g k 0 l = restL g k l := by
  simp [lay1, restL, strip]

/-- The part of a layer before the value that is removed in round `i`. -/
def u1 (k i l : Nat) : List α :=
  strip (hL g l) 0 (k - l - 2 - i) (k - l) ++ (List.range' 0 (i + 1)).map (hL g l · (k - l - 2 - i))

theorem u1_length (k i l : Nat) (h : i + l + 2 ≤ k) : (u1 g k i l).length + T i + (i + 2) = T (k - l) := by
  have := strip_length (hL g l) 0 (k - l - 2 - i) (k - l) (by omega)
  rw [show k - l - (k - l - 2 - i) = i + 1 + 1 by omega, T_succ, T_succ] at this
  simp only [u1, List.length_append, List.length_map, List.length_range']
  omega

/-- The part after that. -/
def v1 (k i l : Nat) : List α := strip (fun x t => hL g l x (k - l - 1 - i + t)) 0 i i

theorem lay1_before (k i l : Nat) (h : i + l + 2 ≤ k) :
    lay1 g k i l = u1 g k i l ++ hL g l (i + 1) (k - l - 2 - i) :: v1 g k i l := by
  simp only [lay1, u1, v1]
  rw [show min i (k - l - 1) = i by omega]
  rw [show k - l - 1 - i = (k - l - 2 - i) + 1 by omega, strip_succ, show k - l - (k - l - 2 - i) = (i + 1) + 1 by omega,
    List.range'_concat]
  simp

theorem lay1_after (k i l : Nat) (h : i + l + 2 ≤ k) : lay1 g k (i + 1) l = u1 g k i l ++ v1 g k i l := by
  simp only [lay1, u1, v1]
  rw [show min (i + 1) (k - l - 1) = i + 1 by omega, strip_first]
  rw [show k - l - 1 - (i + 1) = k - l - 2 - i by omega, List.append_assoc]
  congr 3
  funext x j
  congr 1
  omega

theorem lay1_same (k i l : Nat) (h : k < i + l + 2) : lay1 g k (i + 1) l = lay1 g k i l := by
  simp only [lay1]
  rw [show min (i + 1) (k - l - 1) = min i (k - l - 1) by omega]

theorem lay1_last (k i l : Nat) (h : k ≤ i + l + 1) : lay1 g k i l = strip (hL g l) 0 (k - l - 1) (k - l - 1) := by
  simp only [lay1]
  rw [show min i (k - l - 1) = k - l - 1 by omega, Nat.sub_self]
  simp [strip]

theorem after_T (a : Int) (f : Nat → Int) (D : Nat → Int) (h0 : D 0 = a) (h : ∀ i, D (i + 1) = D i + f i) (n : Nat) :
    after a f n = D n := by
  induction n with
  | zero => rw [after, h0]
  | succ n ih => rw [after, ih, h]

/-- Removing one value from each of the first layers. -/
theorem face_round (k i : Nat) (hi : i < k - 1) (lay : Nat → Nat → List α) (u v : Nat → List α) (x : Nat → α) (f : Nat → Int) (d : Int)
    (A : List α) (hb : ∀ l, i + l + 2 ≤ k → lay i l = u l ++ x l :: v l) (ha : ∀ l, i + l + 2 ≤ k → lay (i + 1) l = u l ++ v l)
    (hs : ∀ l, k < i + l + 2 → lay (i + 1) l = lay i l) (hd : d = (A.length : Int) + (u 0).length)
    (hf : ∀ l, i + l + 3 ≤ k → f l = ((v l).length : Int) + (u (l + 1)).length) :
    popLoop f (k - 1 - i) 0 d (A ++ (List.range (k - 1)).flatMap (lay i)) =
      .ok ((List.range (k - 1 - i)).map x, A ++ (List.range (k - 1)).flatMap (lay (i + 1))) := by
  have e1 : (List.range (k - 1)).flatMap (lay i) = (List.range (k - 1 - i)).flatMap (fun l => u l ++ x l :: v l) ++
      (List.range i).flatMap fun l => lay i (k - 1 - i + l) := by
    conv_lhs => rw [show k - 1 = (k - 1 - i) + i by omega, flatMap_range_add]
    congr 1
    apply List.flatMap_congr
    intro l hl
    have := List.mem_range.1 hl
    exact hb l (by omega)
  have e2 : (List.range (k - 1)).flatMap (lay (i + 1)) = (List.range (k - 1 - i)).flatMap (fun l => u l ++ v l) ++
      (List.range i).flatMap fun l => lay i (k - 1 - i + l) := by
    conv_lhs => rw [show k - 1 = (k - 1 - i) + i by omega, flatMap_range_add]
    congr 1
    · apply List.flatMap_congr
      intro l hl
      have := List.mem_range.1 hl
      exact ha l (by omega)
    · apply List.flatMap_congr
      intro l _
      exact hs _ (by omega)
  have := popBlocks (k - 1 - i) u v x f 0 d A ((List.range i).flatMap fun l => lay i (k - 1 - i + l)) (fun _ => hd)
    (fun l hl => by rw [Nat.zero_add]; exact hf l (by omega))
  rw [e1, e2, ← List.append_assoc, this, List.append_assoc]

/-- Pairs of rounds and positions form a triangle. -/
theorem nest_tri (k : Nat) (hk : 2 ≤ k) (x : Nat → Nat → α) :
    (List.range (k - 1)).flatMap (fun i => (List.range (k - 1 - i)).map (x i)) = triLattice (k - 2) (fun p q => x q p) := by
  rw [triLattice, show k - 2 + 1 = k - 1 by omega]

/-- Face `x + y + z = k + 1`. -/
theorem face1 (k : Nat) (hk : 2 ≤ k) :
    popNest (after (((k : Int) + 2) * ((k : Int) + 2) - 4 * ((k : Int) + 2) + 2) fun i => -(2 + i : Int))
      (fun i => k - 1 - i) (fun i ii => ((k : Int) + 2 - 3 - ii) * ((k : Int) + 2 - 3 - ii + 1) / 2 - 2 - i) (k - 1) 0
      (strip (h0 g) 1 (k - 1) (k - 1) ++ (List.range (k - 1)).flatMap (restL g k)) =
    .ok (triLattice (k - 2) (fun p q => g (q + 1) (k - 1 - p - q) (p + 1)),
      strip (h0 g) 1 (k - 1) (k - 1) ++ (List.range (k - 1)).flatMap fun l => strip (hL g l) 0 (k - l - 1) (k - l - 1)) := by
  have hst : ∀ i, after (((k : Int) + 2) * ((k : Int) + 2) - 4 * ((k : Int) + 2) + 2) (fun i => -(2 + i : Int)) i =
      (T (k - 1) : Int) + T k - T i - (i + 2) := by
    intro i
    refine after_T _ _ (fun i => (T (k - 1) : Int) + T k - T i - (i + 2)) ?_ (fun i => ?_) i
    · have h1 := T_eq k
      have h2 := T_pos k (by omega)
      have h3 : (2 : Int) * T k = k * (k + 1) := by exact_mod_cast h1
      have h4 : (T k : Int) = T (k - 1) + k := by exact_mod_cast h2
      simp only [T_zero]
      push_cast
      linarith
    · simp only [T_succ]
      push_cast
      ring
  have := popNest_ok (after (((k : Int) + 2) * ((k : Int) + 2) - 4 * ((k : Int) + 2) + 2) fun i => -(2 + i : Int))
    (fun i => k - 1 - i) (fun i ii => ((k : Int) + 2 - 3 - ii) * ((k : Int) + 2 - 3 - ii + 1) / 2 - 2 - i) (k - 1) 0
    (fun i => strip (h0 g) 1 (k - 1) (k - 1) ++ (List.range (k - 1)).flatMap (lay1 g k i))
    (fun i => (List.range (k - 1 - i)).map fun l => hL g l (i + 1) (k - l - 2 - i))
    (fun i hi => by
      rw [Nat.zero_add]
      refine face_round k i hi (lay1 g k) (u1 g k i) (v1 g k i) _ _ _ _ (fun l hl => lay1_before g k i l hl)
        (fun l hl => lay1_after g k i l hl) (fun l hl => lay1_same g k i l hl) ?_ (fun l hl => ?_)
      · have := u1_length g k i 0 (by omega)
        rw [Nat.sub_zero] at this
        rw [hst, strip_len']
        omega
      · have := u1_length g k i (l + 1) (by omega)
        rw [T_int _ _ (k - (l + 1)) (by omega) (by omega), v1, strip_len']
        omega)
  have e0 : (List.range (k - 1)).flatMap (lay1 g k 0) = (List.range (k - 1)).flatMap (restL g k) := by
    apply List.flatMap_congr
    intro l _
    exact lay1_zero g k l
  have e1 : (List.range (k - 1)).flatMap (lay1 g k (k - 1)) =
      (List.range (k - 1)).flatMap fun l => strip (hL g l) 0 (k - l - 1) (k - l - 1) := by
    apply List.flatMap_congr
    intro l _
    exact lay1_last g k _ l (by omega)
  rw [e0, e1] at this
  rw [this, nest_tri k hk (fun i l => hL g l (i + 1) (k - l - 2 - i))]
  congr 2
  simp only [triLattice]
  apply List.flatMap_congr
  intro q hq
  apply List.map_congr_left
  intro p hp
  have h1 := List.mem_range.1 hq
  have h2 := List.mem_range.1 hp
  simp only [hL]
  congr 1
  omega

/-- Layer `l + 1` after `i` rounds of the third face. -/
def lay2 (k i l : Nat) : List α :=
  let i' := min i (k - l - 1)
  strip (hL g l) 1 i' (k - l - 2) ++ strip (fun x t => hL g l x (i' + t)) 0 (k - l - 1 - i') (k - l - 1 - i')

/-- The part after the value that is removed in round `i`. -/
def v2 (k i l : Nat) : List α :=
  (List.range' 1 (k - l - 2 - i)).map (hL g l · i) ++ strip (fun x t => hL g l x (i + 1 + t)) 0 (k - l - 2 - i) (k - l - 2 - i)

theorem lay2_before (k i l : Nat) (h : i + l + 2 ≤ k) :
    lay2 g k i l = strip (hL g l) 1 i (k - l - 2) ++ hL g l 0 i :: v2 g k i l := by
  simp only [lay2, v2]
  rw [show min i (k - l - 1) = i by omega, show k - l - 1 - i = (k - l - 2 - i) + 1 by omega, strip_first, List.range'_succ]
  simp only [List.map_cons, List.cons_append, Nat.add_zero, Nat.zero_add]
  congr 4
  funext x j
  congr 1
  omega

theorem lay2_after (k i l : Nat) (h : i + l + 2 ≤ k) :
    lay2 g k (i + 1) l = strip (hL g l) 1 i (k - l - 2) ++ v2 g k i l := by
  simp only [lay2, v2]
  rw [show min (i + 1) (k - l - 1) = i + 1 by omega, strip_succ, List.append_assoc,
    show k - l - 1 - (i + 1) = k - l - 2 - i by omega]

theorem lay2_same (k i l : Nat) (h : k < i + l + 2) : lay2 g k (i + 1) l = lay2 g k i l := by
  simp only [lay2]
  rw [show min (i + 1) (k - l - 1) = min i (k - l - 1) by omega]

/-- Face `x = 0`. -/
theorem face2 (k : Nat) (hk : 2 ≤ k) :
    popNest (after (((k : Int) + 2 - 3) * ((k : Int) + 2 - 2) / 2) fun i => (k : Int) + 2 - 4 - i)
      (fun i => k - 1 - i) (fun i ii => ((k : Int) + 2 - 3 - ii) * ((k : Int) + 2 - 3 - ii + 1) / 2 - 1 - 2 * i) (k - 1) 0
      (strip (h0 g) 1 (k - 1) (k - 1) ++ (List.range (k - 1)).flatMap fun l => strip (hL g l) 0 (k - l - 1) (k - l - 1)) =
    .ok (triLattice (k - 2) (fun p q => g 0 (q + 1) (p + 1)),
      strip (h0 g) 1 (k - 1) (k - 1) ++ (List.range (k - 1)).flatMap fun l => strip (hL g l) 1 (k - l - 2) (k - l - 2)) := by
  have t3 : ((k : Int) + 2 - 3) * ((k : Int) + 2 - 2) / 2 = T (k - 1) := T_int _ _ (k - 1) (by omega) (by omega)
  have hst : ∀ i, i < k - 1 → after (((k : Int) + 2 - 3) * ((k : Int) + 2 - 2) / 2) (fun i => (k : Int) + 2 - 4 - i) i =
      (T (k - 1) : Int) + T (k - 2) - T (k - 2 - i) := by
    intro i hi
    induction i with
    | zero => rw [after, t3]; simp
    | succ i ih =>
      rw [after, ih (by omega)]
      have := T_pos (k - 2 - i) (by omega)
      rw [show k - 2 - i - 1 = k - 2 - (i + 1) by omega] at this
      omega
  have := popNest_ok (after (((k : Int) + 2 - 3) * ((k : Int) + 2 - 2) / 2) fun i => (k : Int) + 2 - 4 - i)
    (fun i => k - 1 - i) (fun i ii => ((k : Int) + 2 - 3 - ii) * ((k : Int) + 2 - 3 - ii + 1) / 2 - 1 - 2 * i) (k - 1) 0
    (fun i => strip (h0 g) 1 (k - 1) (k - 1) ++ (List.range (k - 1)).flatMap (lay2 g k i))
    (fun i => (List.range (k - 1 - i)).map fun l => hL g l 0 i)
    (fun i hi => by
      rw [Nat.zero_add]
      refine face_round k i hi (lay2 g k) (fun l => strip (hL g l) 1 i (k - l - 2)) (v2 g k i) _ _ _ _
        (fun l hl => lay2_before g k i l hl) (fun l hl => lay2_after g k i l hl) (fun l hl => lay2_same g k i l hl) ?_ (fun l hl => ?_)
      · have := strip_length (hL g 0) 1 i (k - 0 - 2) (by omega)
        rw [Nat.sub_zero] at this
        rw [hst i hi, strip_len', Nat.sub_zero]
        omega
      · have := strip_length (hL g (l + 1)) 1 i (k - (l + 1) - 2) (by omega)
        have a1 := T_pos (k - l - 2 - i) (by omega)
        rw [show k - l - 2 - i - 1 = k - (l + 1) - 2 - i by omega] at a1
        have a2 := T_pos (k - (l + 1)) (by omega)
        have a3 := T_pos (k - (l + 1) - 1) (by omega)
        rw [show k - (l + 1) - 1 - 1 = k - (l + 1) - 2 by omega] at a3
        rw [T_int _ _ (k - (l + 1)) (by omega) (by omega), v2, List.length_append, List.length_map, List.length_range', strip_len']
        push_cast
        omega)
  have e0 : (List.range (k - 1)).flatMap (lay2 g k 0) =
      (List.range (k - 1)).flatMap fun l => strip (hL g l) 0 (k - l - 1) (k - l - 1) := by
    apply List.flatMap_congr
    intro l _
    simp [lay2, strip]
  have e1 : (List.range (k - 1)).flatMap (lay2 g k (k - 1)) =
      (List.range (k - 1)).flatMap fun l => strip (hL g l) 1 (k - l - 2) (k - l - 2) := by
    apply List.flatMap_congr
    intro l _
    simp only [lay2]
    rw [show min (k - 1) (k - l - 1) = k - l - 1 by omega, Nat.sub_self, strip_cut _ _ _ _ (show k - l - 2 ≤ k - l - 1 by omega)]
    simp [strip]
  rw [e0, e1] at this
  rw [this, nest_tri k hk (fun i l => hL g l 0 i)]
  rfl

/-- Face `z = 0`. -/
theorem face3 (k : Nat) (hk : 2 ≤ k) (R : List α) :
    popNest (fun _ => 0) (fun i => k - 1 - i) (fun i ii => (k : Int) + 2 - 4 - i - ii) (k - 1) 0 (strip (h0 g) 1 (k - 1) (k - 1) ++ R) =
    .ok (triLattice (k - 2) (fun p q => g (q + 1) (p + 1) 0), R) := by
  have := popNest_ok (fun _ => 0) (fun i => k - 1 - i) (fun i ii => (k : Int) + 2 - 4 - i - ii) (k - 1) 0
    (fun i => strip (h0 g) (1 + i) (k - 1 - i) (k - 1 - i) ++ R)
    (fun i => (List.range (k - 1 - i)).map fun j => h0 g (1 + i) j)
    (fun i hi => by
      rw [Nat.zero_add]
      have := popBlocks (k - 1 - i) (fun _ => []) (fun j => (List.range' (1 + i + 1) (k - 2 - i - j)).map (h0 g · j)) (fun j => h0 g (1 + i) j)
        (fun ii => (k : Int) + 2 - 4 - i - ii) 0 0 [] R (fun _ => rfl) (fun j hj => by simp; omega)
      simp only [List.nil_append] at this
      have e1 : strip (h0 g) (1 + i) (k - 1 - i) (k - 1 - i) =
          (List.range (k - 1 - i)).flatMap fun j => h0 g (1 + i) j :: (List.range' (1 + i + 1) (k - 2 - i - j)).map (h0 g · j) := by
        unfold strip
        apply List.flatMap_congr
        intro j hj
        have := List.mem_range.1 hj
        rw [show k - 1 - i - j = (k - 2 - i - j) + 1 by omega, List.range'_succ]
        rfl
      rw [e1, this]
      congr 3
      rw [← strip_cut (h0 g) (1 + (i + 1)) (k - 1 - i) (k - 1 - (i + 1)) (by omega)]
      unfold strip
      apply List.flatMap_congr
      intro j hj
      rw [show k - 1 - (i + 1) - j = k - 2 - i - j by omega]
      rfl)
  simp only [Nat.add_zero, Nat.sub_zero, Nat.sub_self] at this
  rw [this, nest_tri k hk (fun i j => h0 g (1 + i) j)]
  simp [h0, strip, Nat.add_comm]

theorem tetFaces_spec (k : Nat) (hk : 2 ≤ k) : tetFaces ((k : Int) + 2)
    (strip (h0 g) 1 (k - 1) (k - 1) ++ (List.range k).flatMap (fun i => mid g k i ++ strip (hL g i) 0 (k - i - 1) (k - i))) =
    .ok ((vtkTriLattice (k - 2)).map (fun p => g (p.1 + 1) 0 (p.2 + 1)) ++
      (vtkTriLattice (k - 2)).map (fun p => g (p.2 + 1) (k - 1 - p.1 - p.2) (p.1 + 1)) ++
      (vtkTriLattice (k - 2)).map (fun p => g 0 (p.2 + 1) (p.1 + 1)) ++
      (vtkTriLattice (k - 2)).map (fun p => g (p.2 + 1) (p.1 + 1) 0),
      (List.range (k - 1)).flatMap fun l => strip (hL g l) 1 (k - l - 2) (k - l - 2)) := by
  have hc : ((k : Int) + 2 - 3).toNat = k - 1 := by omega
  simp only [tetFaces, hc, bind, Except.bind, face0 g k hk, face1 g k hk, face2 g k hk, face3 g k hk, triRem_spec, pure, Except.pure]

end Verif.CellPerm
