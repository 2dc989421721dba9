import Verif.Model.EntityList
import Verif.Props.C35_Permutations
import Mathlib.Data.List.Permutation
/-!
# C36: vertices of an entity
-/
namespace Verif.Props
open Verif.EntityList Verif.Spec

section
variable {α : Type} (d : α) (key : α → Int)

theorem cs01 (p q r s : α) : ∃ p' q', cmpswap d key 0 1 [p, q, r, s] = [p', q', r, s] ∧ [p', q', r, s].Perm [p, q, r, s] ∧
    key p' ≤ key q' ∧ ((key p' = key p ∧ key q' = key q) ∨ (key p' = key q ∧ key q' = key p)) := by
  unfold cmpswap
  by_cases h : key p > key q
  · exact ⟨q, p, if_pos h, List.Perm.swap _ _ _, by omega, by omega⟩
  · exact ⟨p, q, if_neg h, List.Perm.refl _, by omega, by omega⟩

theorem cs23 (p q r s : α) : ∃ r' s', cmpswap d key 2 3 [p, q, r, s] = [p, q, r', s'] ∧ [p, q, r', s'].Perm [p, q, r, s] ∧
    key r' ≤ key s' ∧ ((key r' = key r ∧ key s' = key s) ∨ (key r' = key s ∧ key s' = key r)) := by
  unfold cmpswap
  by_cases h : key r > key s
  · exact ⟨s, r, if_pos h, ((List.Perm.swap _ _ _).cons q).cons p, by omega, by omega⟩
  · exact ⟨r, s, if_neg h, List.Perm.refl _, by omega, by omega⟩

theorem cs12 (p q r s : α) : ∃ q' r', cmpswap d key 1 2 [p, q, r, s] = [p, q', r', s] ∧ [p, q', r', s].Perm [p, q, r, s] ∧
    key q' ≤ key r' ∧ ((key q' = key q ∧ key r' = key r) ∨ (key q' = key r ∧ key r' = key q)) := by
  unfold cmpswap
  by_cases h : key q > key r
  · exact ⟨r, q, if_pos h, (List.Perm.swap _ _ _).cons p, by omega, by omega⟩
  · exact ⟨q, r, if_neg h, List.Perm.refl _, by omega, by omega⟩

theorem cs02 (p q r s : α) : ∃ p' r', cmpswap d key 0 2 [p, q, r, s] = [p', q, r', s] ∧ [p', q, r', s].Perm [p, q, r, s] ∧
    key p' ≤ key r' ∧ ((key p' = key p ∧ key r' = key r) ∨ (key p' = key r ∧ key r' = key p)) := by
  unfold cmpswap
  by_cases h : key p > key r
  · refine ⟨r, p, if_pos h, ?_, by omega, by omega⟩
    exact (List.Perm.swap _ _ _).trans (((List.Perm.swap _ _ _).cons q).trans (List.Perm.swap _ _ _))
  · exact ⟨p, r, if_neg h, List.Perm.refl _, by omega, by omega⟩

theorem cs13 (p q r s : α) : ∃ q' s', cmpswap d key 1 3 [p, q, r, s] = [p, q', r, s'] ∧ [p, q', r, s'].Perm [p, q, r, s] ∧
    key q' ≤ key s' ∧ ((key q' = key q ∧ key s' = key s) ∨ (key q' = key s ∧ key s' = key q)) := by
  unfold cmpswap
  by_cases h : key q > key s
  · refine ⟨s, q, if_pos h, ?_, by omega, by omega⟩
    exact ((List.Perm.swap _ _ _).trans (((List.Perm.swap _ _ _).cons r).trans (List.Perm.swap _ _ _))).cons p
  · exact ⟨q, s, if_neg h, List.Perm.refl _, by omega, by omega⟩

/-- The five exchanges sort four elements. -/
theorem network_sorts (a b c e : α) : ∃ x y z t, network d key [a, b, c, e] = [x, y, z, t] ∧
    [x, y, z, t].Perm [a, b, c, e] ∧ key x ≤ key y ∧ key y ≤ key z ∧ key z ≤ key t := by
  obtain ⟨a1, b1, h1, p1, o1, k1⟩ := cs01 d key a b c e
  obtain ⟨c1, e1, h2, p2, o2, k2⟩ := cs23 d key a1 b1 c e
  obtain ⟨a2, c2, h3, p3, o3, k3⟩ := cs02 d key a1 b1 c1 e1
  obtain ⟨b2, e2, h4, p4, o4, k4⟩ := cs13 d key a2 b1 c2 e1
  obtain ⟨b3, c3, h5, p5, o5, k5⟩ := cs12 d key a2 b2 c2 e2
  refine ⟨a2, b3, c3, e2, ?_, p5.trans (p4.trans (p3.trans (p2.trans p1))), ?_, o5, ?_⟩
  · unfold network; rw [h1, h2, h3, h4, h5]
  · clear h1 h2 h3 h4 h5 p1 p2 p3 p4 p5
    rcases k5 with ⟨k5, k5'⟩ | ⟨k5, k5'⟩
    · rcases k3 with ⟨k3, k3'⟩ | ⟨k3, k3'⟩ <;> rcases k4 with ⟨k4, k4'⟩ | ⟨k4, k4'⟩ <;> omega
    · omega
  · clear h1 h2 h3 h4 h5 p1 p2 p3 p4 p5
    rcases k5 with ⟨k5, k5'⟩ | ⟨k5, k5'⟩
    · rcases k3 with ⟨k3, k3'⟩ | ⟨k3, k3'⟩ <;> rcases k4 with ⟨k4, k4'⟩ | ⟨k4, k4'⟩ <;> omega
    · omega
end

/-! ### Orientations -/

theorem orient_two (code : Nat) (a b : Int) : orient code [a, b] = [a, b] ∨ orient code [a, b] = [b, a] := by
  unfold orient
  have h : ∀ n x y, rotN n [x, y] = [x, y] := by
    intro n x y
    induction n with
    | zero => rfl
    | succ n ih => rw [rotN, ih]; rfl
  split
  · exact Or.inr (h _ _ _)
  · exact Or.inl (h _ _ _)

theorem orient_map (g : Int → Int) (code : Nat) (l : List Int) : (orient code l).map g = orient code (l.map g) := by
  have hr : ∀ l : List Int, (rot l).map g = rot (l.map g) := by
    intro l
    match l with
    | [] => rfl
    | [_] => rfl
    | [_, _] => rfl
    | [_, _, _] => rfl
    | [_, _, _, _] => rfl
    | _ :: _ :: _ :: _ :: _ :: _ => rfl
  have hf : ∀ l : List Int, (reflect l).map g = reflect (l.map g) := by
    intro l
    match l with
    | [] => rfl
    | [_] => rfl
    | [_, _] => rfl
    | [_, _, _] => rfl
    | [_, _, _, _] => rfl
    | _ :: _ :: _ :: _ :: _ :: _ => rfl
  have hn : ∀ n (l : List Int), (rotN n l).map g = rotN n (l.map g) := by
    intro n
    induction n with
    | zero => intro l; rfl
    | succ n ih => intro l; rw [rotN, rotN, hr, ih]
  unfold orient
  rw [hn]
  split
  · rw [hf]
  · rfl

theorem orient_perm (code : Nat) (l : List Int) : (orient code l).Perm l := by
  have hr : ∀ l : List Int, (rot l).Perm l := by
    intro l
    match l with
    | [] => exact List.Perm.refl _
    | [_] => exact List.Perm.refl _
    | [_, _] => exact List.Perm.refl _
    | [a, b, c] => rw [List.perm_iff_count]; intro u; simp only [rot, List.count_cons, List.count_nil]; omega
    | [a, b, c, d] => rw [List.perm_iff_count]; intro u; simp only [rot, List.count_cons, List.count_nil]; omega
    | _ :: _ :: _ :: _ :: _ :: _ => exact List.Perm.refl _
  have hf : ∀ l : List Int, (reflect l).Perm l := by
    intro l
    match l with
    | [] => exact List.Perm.refl _
    | [_] => exact List.Perm.refl _
    | [_, _] => exact List.Perm.swap _ _ _
    | [a, b, c] => rw [List.perm_iff_count]; intro u; simp only [reflect, List.count_cons, List.count_nil]; omega
    | [a, b, c, d] => rw [List.perm_iff_count]; intro u; simp only [reflect, List.count_cons, List.count_nil]; omega
    | _ :: _ :: _ :: _ :: _ :: _ => exact List.Perm.refl _
  have hn : ∀ n (l : List Int), (rotN n l).Perm l := by
    intro n
    induction n with
    | zero => intro l; exact List.Perm.refl _
    | succ n ih => intro l; exact (hr _).trans (ih l)
  unfold orient
  refine (hn _ _).trans ?_
  split
  · exact hf _
  · exact List.Perm.refl _

/-! ### The theorems -/

/-- Entities with two, three or four vertices whose global numbers differ. -/
structure EntityOk (g : Int → Int) (ev : List Int) : Prop where
  len : ev.length = 2 ∨ ev.length = 3 ∨ ev.length = 4
  inj : (ev.map g).Nodup

theorem sorted_unique_list (l m : List Int) (h : l.Perm m) (hl : l.Pairwise (· ≤ ·)) (hm : m.Pairwise (· ≤ ·)) : l = m :=
  h.eq_of_pairwise (fun _ _ _ _ h1 h2 => le_antisymm h1 h2) hl hm

theorem quad_row (g : Int → Int) (a b c e : Int) (hinj : ([a, b, c, e].map g).Nodup) (σ : List Nat)
    (hp : σ.Perm [0, 1, 2, 3]) (x y z t : Nat) (hσ : σ = [x, y, z, t])
    (h1 : g ([a, b, c, e].getD x 0) ≤ g ([a, b, c, e].getD y 0))
    (h2 : g ([a, b, c, e].getD y 0) ≤ g ([a, b, c, e].getD z 0))
    (h3 : g ([a, b, c, e].getD z 0) ≤ g ([a, b, c, e].getD t 0)) :
    SameFace [a, b, c, e] ((rotateOut (σ.idxOf (3 - σ.getD 0 0)) σ).map fun i => [a, b, c, e].getD i 0) ∧
    LowToHigh (((rotateOut (σ.idxOf (3 - σ.getD 0 0)) σ).map fun i => [a, b, c, e].getD i 0).map g) := by
  have hm : [x, y, z, t] ∈ [[0,1,2,3],[0,1,3,2],[0,2,1,3],[0,2,3,1],[0,3,1,2],[0,3,2,1],[1,0,2,3],[1,0,3,2],[1,2,0,3],[1,2,3,0],
      [1,3,0,2],[1,3,2,0],[2,0,1,3],[2,0,3,1],[2,1,0,3],[2,1,3,0],[2,3,0,1],[2,3,1,0],[3,0,1,2],[3,0,2,1],[3,1,0,2],[3,1,2,0],
      [3,2,0,1],[3,2,1,0]] := by
    rw [hσ] at hp
    have hx : x ∈ [0, 1, 2, 3] := hp.subset (by simp)
    have hy : y ∈ [0, 1, 2, 3] := hp.subset (by simp)
    have hz : z ∈ [0, 1, 2, 3] := hp.subset (by simp)
    have ht : t ∈ [0, 1, 2, 3] := hp.subset (by simp)
    have hn : [x, y, z, t].Nodup := hp.nodup_iff.mpr (by decide)
    simp only [List.mem_cons, List.not_mem_nil, or_false] at hx hy hz ht
    rcases hx with rfl | rfl | rfl | rfl <;> rcases hy with rfl | rfl | rfl | rfl <;>
      first
      | (exfalso; revert hn; simp; done)
      | (rcases hz with rfl | rfl | rfl | rfl <;> rcases ht with rfl | rfl | rfl | rfl <;>
          first | (exfalso; revert hn; simp; done) | decide)
  simp only [List.map_cons, List.map_nil, List.nodup_cons, List.mem_cons, List.not_mem_nil, or_false, not_or,
    not_false_eq_true, List.nodup_nil, and_true] at hinj
  obtain ⟨⟨n1, n2, n3⟩, ⟨n4, n5⟩, n6⟩ := hinj
  subst hσ
  simp only [List.mem_cons, List.not_mem_nil, or_false, List.cons.injEq, and_true] at hm
  rcases hm with ⟨rfl, rfl, rfl, rfl⟩ | ⟨rfl, rfl, rfl, rfl⟩ | ⟨rfl, rfl, rfl, rfl⟩ | ⟨rfl, rfl, rfl, rfl⟩ | ⟨rfl, rfl, rfl, rfl⟩ |
    ⟨rfl, rfl, rfl, rfl⟩ | ⟨rfl, rfl, rfl, rfl⟩ | ⟨rfl, rfl, rfl, rfl⟩ | ⟨rfl, rfl, rfl, rfl⟩ | ⟨rfl, rfl, rfl, rfl⟩ |
    ⟨rfl, rfl, rfl, rfl⟩ | ⟨rfl, rfl, rfl, rfl⟩ | ⟨rfl, rfl, rfl, rfl⟩ | ⟨rfl, rfl, rfl, rfl⟩ | ⟨rfl, rfl, rfl, rfl⟩ |
    ⟨rfl, rfl, rfl, rfl⟩ | ⟨rfl, rfl, rfl, rfl⟩ | ⟨rfl, rfl, rfl, rfl⟩ | ⟨rfl, rfl, rfl, rfl⟩ | ⟨rfl, rfl, rfl, rfl⟩ |
    ⟨rfl, rfl, rfl, rfl⟩ | ⟨rfl, rfl, rfl, rfl⟩ | ⟨rfl, rfl, rfl, rfl⟩ | ⟨rfl, rfl, rfl, rfl⟩ <;>
  (simp only [List.getD_cons_zero, List.getD_cons_succ] at h1 h2 h3
   refine ⟨?_, ?_⟩
   · first | exact ⟨0, rfl⟩ | exact ⟨1, rfl⟩ | exact ⟨2, rfl⟩ | exact ⟨3, rfl⟩ | exact ⟨4, rfl⟩ | exact ⟨5, rfl⟩ |
       exact ⟨6, rfl⟩ | exact ⟨7, rfl⟩
   · refine ⟨?_, ?_, ?_⟩ <;> simp only [List.getD_cons_zero, List.getD_cons_succ] <;> omega)

/-- C36: the stored vertices of an entity are its vertices, rotated or reflected, with the lowest global number
first and its lower neighbour second; the key is the sorted list of its local vertices. Other vertex counts
are refused. -/
theorem C36_row (g : Int → Int) (ev : List Int) :
    (EntityOk g ev → ∃ el ks, entityRow g ev = .ok (el, ks) ∧ SameFace ev el ∧ LowToHigh (el.map g) ∧
      ks.Perm ev ∧ ks.Pairwise (· ≤ ·)) ∧
    (¬ (ev.length = 2 ∨ ev.length = 3 ∨ ev.length = 4) → entityRow g ev = .error .unsupported) := by
  constructor
  · rintro ⟨hlen, hinj⟩
    match ev, hlen with
    | [l0, l1], _ =>
      have hne : g l0 ≠ g l1 := by simpa using hinj
      unfold entityRow
      by_cases h : g l0 ≤ g l1
      · simp only [if_pos h]
        refine ⟨_, _, rfl, ⟨0, rfl⟩, ?_, ?_, ?_⟩
        · show g l0 < g l1; omega
        · rcases le_total l0 l1 with h' | h'
          · rw [min_eq_left h', max_eq_right h']
          · rw [min_eq_right h', max_eq_left h']; exact List.Perm.swap _ _ _
        · simp
      · simp only [if_neg h]
        refine ⟨_, _, rfl, ⟨1, rfl⟩, ?_, ?_, ?_⟩
        · show g l1 < g l0; omega
        · rcases le_total l1 l0 with h' | h'
          · rw [min_eq_left h', max_eq_right h']; exact List.Perm.swap _ _ _
          · rw [min_eq_right h', max_eq_left h']
        · simp
    | [l0, l1, l2], _ =>
      simp only [List.map_cons, List.map_nil, List.nodup_cons, List.mem_cons, List.not_mem_nil, or_false, not_or,
        not_false_eq_true, List.nodup_nil, and_true] at hinj
      obtain ⟨⟨n1, n2⟩, n3⟩ := hinj
      have key3 : ∀ a b c : Int, ∃ x y z : Int,
          (let q := if a > b then (b, a) else (a, b)
           let s0 := q.1
           let s1 := q.2
           let q := if s1 > c then (c, s1) else (s1, c)
           let s1 := q.1
           let s2 := q.2
           let q := if s0 > s1 then (s1, s0) else (s0, s1)
           ([q.1, q.2, s2] : List Int)) = [x, y, z] ∧ [x, y, z].Perm [a, b, c] ∧ [x, y, z].Pairwise (· ≤ ·) := by
        intro a b c
        simp only []
        refine ⟨_, _, _, rfl, ?_, ?_⟩
        · split_ifs <;> first
            | exact List.Perm.refl _
            | exact List.Perm.swap _ _ _
            | exact (List.Perm.swap _ _ _).cons _
            | exact (List.Perm.swap _ _ _).trans ((List.Perm.swap _ _ _).cons _)
            | exact ((List.Perm.swap _ _ _).cons _).trans (List.Perm.swap _ _ _)
            | exact (List.Perm.swap _ _ _).trans (((List.Perm.swap _ _ _).cons _).trans (List.Perm.swap _ _ _))
        · split_ifs <;> simp <;> simp at * <;> omega
      have ho : (g l0 < g l1 ∧ g l1 < g l2) ∨ (g l0 < g l2 ∧ g l2 < g l1) ∨ (g l1 < g l0 ∧ g l0 < g l2) ∨
          (g l1 < g l2 ∧ g l2 < g l0) ∨ (g l2 < g l0 ∧ g l0 < g l1) ∨ (g l2 < g l1 ∧ g l1 < g l0) := by omega
      have hel : ∃ a b c, (∃ code, [a, b, c] = orient code [l0, l1, l2]) ∧ g a < g b ∧ g b < g c ∧
          [a, b, c].Perm [l0, l1, l2] ∧
          entityRow g [l0, l1, l2] = .ok ([a, b, c],
            (let q := if a > b then (b, a) else (a, b)
             let s0 := q.1
             let s1 := q.2
             let q := if s1 > c then (c, s1) else (s1, c)
             let s1 := q.1
             let s2 := q.2
             let q := if s0 > s1 then (s1, s0) else (s0, s1)
             ([q.1, q.2, s2] : List Int))) := by
        unfold entityRow
        simp only []
        rcases ho with ⟨ha, hb⟩ | ⟨ha, hb⟩ | ⟨ha, hb⟩ | ⟨ha, hb⟩ | ⟨ha, hb⟩ | ⟨ha, hb⟩ <;> have hc := lt_trans ha hb
        · refine ⟨l0, l1, l2, ⟨0, rfl⟩, ha, hb, List.Perm.refl _, ?_⟩
          simp [not_lt_of_gt ha, not_lt_of_gt hb]
        · refine ⟨l0, l2, l1, ⟨1, rfl⟩, ha, hb, (List.Perm.swap _ _ _).cons _, ?_⟩
          simp [not_lt_of_gt ha, hb, not_lt_of_gt hc]
        · refine ⟨l1, l0, l2, ⟨3, rfl⟩, ha, hb, List.Perm.swap _ _ _, ?_⟩
          simp [ha, not_lt_of_gt hb, not_lt_of_gt ha]
        · refine ⟨l1, l2, l0, ⟨4, rfl⟩, ha, hb, ?_, ?_⟩
          · exact ((List.Perm.swap _ _ _).cons _).trans (List.Perm.swap _ _ _)
          · simp [hc, hb, not_lt_of_gt ha]
        · refine ⟨l2, l0, l1, ⟨2, rfl⟩, ha, hb, ?_, ?_⟩
          · exact (List.Perm.swap _ _ _).trans ((List.Perm.swap _ _ _).cons _)
          · simp [ha, not_lt_of_gt hb, hc]
        · refine ⟨l2, l1, l0, ⟨5, rfl⟩, ha, hb, ?_, ?_⟩
          · exact (List.Perm.swap _ _ _).trans (((List.Perm.swap _ _ _).cons _).trans (List.Perm.swap _ _ _))
          · simp [ha, hb, hc]
      obtain ⟨a, b, c, hs, h1, h2, hp, he⟩ := hel
      obtain ⟨x, y, z, e1, e2, e3⟩ := key3 a b c
      refine ⟨[a, b, c], [x, y, z], by rw [he, e1], hs, ⟨h1, h2⟩, e2.trans hp, e3⟩
    | [a, b, c, e], _ =>
      obtain ⟨x, y, z, t, h1, h2, h3, h4, h5⟩ := network_sorts 0 (fun i : Nat => g ([a, b, c, e].getD i 0)) 0 1 2 3
      obtain ⟨q1, q2⟩ := quad_row g a b c e hinj [x, y, z, t] h2 x y z t rfl h3 h4 h5
      have hrow : entityRow g [a, b, c, e] = .ok
          ((rotateOut ([x, y, z, t].idxOf (3 - [x, y, z, t].getD 0 0)) [x, y, z, t]).map fun i => [a, b, c, e].getD i 0,
            network 0 (fun x => x)
              ((rotateOut ([x, y, z, t].idxOf (3 - [x, y, z, t].getD 0 0)) [x, y, z, t]).map fun i => [a, b, c, e].getD i 0)) := by
        unfold entityRow; simp only [h1]
      generalize hel : ((rotateOut ([x, y, z, t].idxOf (3 - [x, y, z, t].getD 0 0)) [x, y, z, t]).map
        fun i => [a, b, c, e].getD i 0) = el at *
      have hp : el.Perm [a, b, c, e] := by
        obtain ⟨code, rfl⟩ := q1
        exact orient_perm _ _
      have hlen : el.length = 4 := by rw [hp.length_eq]; rfl
      match el, hlen with
      | [e0, e1, e2, e3], _ =>
        obtain ⟨x', y', z', t', k1, k2, k3, k4, k5⟩ := network_sorts 0 (fun x : Int => x) e0 e1 e2 e3
        refine ⟨_, _, hrow, q1, q2, ?_, ?_⟩
        · rw [k1]; exact k2.trans hp
        · rw [k1]
          simp only [List.pairwise_cons, List.mem_cons, List.not_mem_nil, or_false, forall_eq_or_imp, forall_eq,
            List.Pairwise.nil, and_true, IsEmpty.forall_iff, implies_true]
          omega
  · intro h
    match ev, h with
    | [], _ => rfl
    | [_], _ => rfl
    | [_, _], h => exact absurd (Or.inl rfl) h
    | [_, _, _], h => exact absurd (Or.inr (Or.inl rfl)) h
    | [_, _, _, _], h => exact absurd (Or.inr (Or.inr rfl)) h
    | _ :: _ :: _ :: _ :: _ :: _, _ => rfl

theorem map_inj_list {g : Int → Int} {l m : List Int} (h : ∀ x ∈ l, ∀ y ∈ m, g x = g y → x = y)
    (he : l.map g = m.map g) : l = m := by
  induction l generalizing m with
  | nil => cases m with
    | nil => rfl
    | cons y m => simp at he
  | cons x l ih => cases m with
    | nil => simp at he
    | cons y m =>
      simp only [List.map_cons, List.cons.injEq] at he
      rw [h x (by simp) y (by simp) he.1, ih (fun a ha b hb => h a (by simp [ha]) b (by simp [hb])) he.2]

theorem lowToHigh_same (r r' : List Int) (hl : r.length = 2 ∨ r.length = 3 ∨ r.length = 4) (hs : SameFace r r') (p q : Nat)
    (h1 : LowToHigh (orient p r)) (h2 : LowToHigh (orient q r')) : orient p r = orient q r' := by
  rcases hl with hl | hl
  · match r, hl with
    | [a, b], _ =>
      obtain ⟨k, rfl⟩ := hs
      rcases orient_two k a b with e | e <;> rw [e] at h2 ⊢ <;> rcases orient_two p a b with e1 | e1 <;> rw [e1] at h1 ⊢
      · rcases orient_two q a b with e2 | e2 <;> rw [e2] at h2 ⊢
        simp only [LowToHigh] at h1 h2; omega
      · rcases orient_two q a b with e2 | e2 <;> rw [e2] at h2 ⊢
        simp only [LowToHigh] at h1 h2; omega
      · rcases orient_two q b a with e2 | e2 <;> rw [e2] at h2 ⊢
        simp only [LowToHigh] at h1 h2; omega
      · rcases orient_two q b a with e2 | e2 <;> rw [e2] at h2 ⊢
        simp only [LowToHigh] at h1 h2; omega
  · exact lowToHigh_unique r r' hl hs p q h1 h2

/-- C36: two cells, on the same or on different processes, that list an entity from different starting points
store its vertices in the same order. -/
theorem C36_same_everywhere (g g' : Int → Int) (ev ev' : List Int) (h : EntityOk g ev) (h' : EntityOk g' ev')
    (hs : SameFace (ev.map g) (ev'.map g')) :
    ∃ el ks el' ks', entityRow g ev = .ok (el, ks) ∧ entityRow g' ev' = .ok (el', ks') ∧ el.map g = el'.map g' := by
  obtain ⟨el, ks, e1, ⟨p, e2⟩, e3, _⟩ := (C36_row g ev).1 h
  obtain ⟨el', ks', f1, ⟨q, f2⟩, f3, _⟩ := (C36_row g' ev').1 h'
  refine ⟨el, ks, el', ks', e1, f1, ?_⟩
  subst e2 f2
  rw [orient_map] at e3 f3 ⊢
  rw [orient_map]
  exact lowToHigh_same _ _ (by simpa using h.len) hs p q e3 f3

/-- C36: on one process, two listings of an entity give the same row and key; and the keys of two entities
agree exactly when they have the same vertices. -/
theorem C36_key (g : Int → Int) (ev ev' : List Int) (h : EntityOk g ev) (h' : EntityOk g ev') :
    ∃ el ks el' ks', entityRow g ev = .ok (el, ks) ∧ entityRow g ev' = .ok (el', ks') ∧
      (ks = ks' ↔ ev.Perm ev') ∧ (SameFace ev ev' → el = el') := by
  obtain ⟨el, ks, e1, s1, l1, p1, o1⟩ := (C36_row g ev).1 h
  obtain ⟨el', ks', f1, s2, l2, p2, o2⟩ := (C36_row g ev').1 h'
  refine ⟨el, ks, el', ks', e1, f1, ⟨?_, ?_⟩, ?_⟩
  · rintro rfl; exact p1.symm.trans p2
  · intro hp; exact sorted_unique_list _ _ (p1.trans (hp.trans p2.symm)) o1 o2
  · rintro ⟨k, rfl⟩
    obtain ⟨_, _, _, _, a1, a2, a3⟩ := C36_same_everywhere g g ev (orient k ev) h h' ⟨k, orient_map g k ev⟩
    rw [e1] at a1; rw [f1] at a2
    cases a1; cases a2
    obtain ⟨p, rfl⟩ := s1
    obtain ⟨q, rfl⟩ := s2
    have hinj : ∀ x ∈ ev, ∀ y ∈ ev, g x = g y → x = y := List.inj_on_of_nodup_map h.inj
    refine map_inj_list ?_ a3
    intro x hx y hy
    exact hinj x ((orient_perm _ _).subset hx) y ((orient_perm _ _).subset ((orient_perm _ _).subset hy))

/-! Cases meeting the hypotheses: a quadrilateral and a triangle seen from two sides. -/

example : EntityOk (fun x => 10 - x) [4, 7, 2, 9] ∧ EntityOk (fun x => 10 - x) [2, 4, 9, 7] ∧
    SameFace [4, 7, 2, 9] [2, 4, 9, 7] ∧
    entityRow (fun x => 10 - x) [4, 7, 2, 9] = .ok ([9, 7, 2, 4], [2, 4, 7, 9]) ∧
    entityRow (fun x => 10 - x) [2, 4, 9, 7] = .ok ([9, 7, 2, 4], [2, 4, 7, 9]) :=
  ⟨⟨by decide, by decide⟩, ⟨by decide, by decide⟩, ⟨2, rfl⟩, by decide, by decide⟩

example : EntityOk (fun x => (x * 3) % 7) [1, 2, 4] ∧
    entityRow (fun x => (x * 3) % 7) [1, 2, 4] = .ok ([1, 4, 2], [1, 2, 4]) :=
  ⟨⟨by decide, by decide⟩, by decide⟩

end Verif.Props
