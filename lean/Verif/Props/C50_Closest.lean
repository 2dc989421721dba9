import Verif.Props.C49_Collisions
/-! # C50: the closest entity -/
namespace Verif.Props
open Verif.BB Verif.Spec.BB

variable {K : Type} [LinearOrder K] [CommRing K] [IsStrictOrderedRing K]

omit [CommRing K] [IsStrictOrderedRing K] in
theorem fromPoints_rep (nth : List ((Nat → K) × Nat) → List ((Nat → K) × Nat)) (hnth : ∀ l, (nth l).Perm l)
    (M : List ((Nat → K) × Nat)) (hne : M ≠ []) : ∃ t, fromPoints nth M = some t ∧ 0 < t.nodes.length ∧
      (∃ x ∈ M, t.nodes[0]? = some (x.2, x.2) ∧ t.boxes[0]? = some ⟨x.1, x.1⟩) ∧
      ∃ l, l.Perm (M.map fun x => (⟨x.1, x.1⟩, x.2)) ∧ Rep t (fun _ _ => True) (t.nodes.length - 1) l := by
  obtain ⟨i, t, e, _, _, h1, h2, h3, hx, l, hl, hr⟩ := buildG_spec nth hnth (fun x => ((⟨x.1, x.1⟩ : Box K), x.2))
    (fun x l => (⟨(minElement x l).1, (maxElement x l).1⟩ : Box K)) (fun _ _ => True) (fun _ _ _ _ => trivial) M.length M ⟨[], []⟩ hne le_rfl rfl
  refine ⟨t, ?_, by omega, hx, l, hl, ?_⟩
  · unfold fromPoints; rw [if_neg hne, buildPoints_eq, e]; rfl
  · rw [h1]; exact hr

/-- The entity returned has the smallest distance of all entities of the tree.  `exact e` is the distance of entity `e` (GJK), attained at
a point `y` of its box; the midpoints belong to entities of the tree and are not closer than the entities. The boxes of the tree of midpoints are
not used: they need not be bounding boxes. -/
theorem C50_closest (nth : List (Box K × Nat) → List (Box K × Nat)) (hnth : ∀ l, (nth l).Perm l)
    (nthM : List ((Nat → K) × Nat) → List ((Nat → K) × Nat)) (hnthM : ∀ l, (nthM l).Perm l)
    (L : List (Box K × Nat)) (M : List ((Nat → K) × Nat)) (hL : L ≠ []) (hM : M ≠ []) (tdim : Nat) (htd : 0 < tdim)
    (exact : Nat → K) (x : Nat → K)
    (hexact : ∀ b ∈ L, ∃ y, In b.1 y ∧ exact b.2 = sqDist x y)
    (hmid : ∀ m ∈ M, exact m.2 ≤ sqDist x m.1 ∧ m.2 ∈ L.map (·.2)) :
    ∃ t mid e, fromLeaves nth L = some t ∧ fromPoints nthM M = some mid ∧ closest t tdim mid exact x = some (some e) ∧
      e ∈ L.map (·.2) ∧ ∀ b ∈ L, exact e ≤ exact b.2 := by
  obtain ⟨t, ht, hlen, _, l, hl, hr⟩ := fromLeaves_rep nth hnth L hL
  obtain ⟨mid, hmt, hmpos, ⟨z, hz, hz1, hz2⟩, lm, hlm, hrm⟩ := fromPoints_rep nthM hnthM M hM
  have hposL : 0 < L.length := List.length_pos_iff.mpr hL
  obtain ⟨s, es, _, cs, _⟩ := closestRec_rep mid _ 0 exact x mid.nodes.length _ lm hrm (by omega) (z.2, sqDist x z.1)
  have hs : exact s.1 ≤ s.2 ∧ s.1 ∈ L.map (·.2) := by
    rcases cs with rfl | ⟨y, hy, rfl⟩
    · exact hmid z hz
    · obtain ⟨m, hm, rfl⟩ := List.mem_map.mp (hlm.mem_iff.mp hy)
      exact hmid m hm
  obtain ⟨r, er, mr, cr, kr⟩ := closestRec_rep t Inside tdim exact x t.nodes.length _ l hr (by omega) s
  have hd : ∀ y : Box K × Nat, leafDist tdim exact x y = exact y.2 := fun y => by simp [leafDist, Nat.pos_iff_ne_zero.mp htd]
  have hmin : ∀ b ∈ L, r.2 ≤ exact b.2 := by
    intro b hb
    rw [← hd b]
    refine kr ?_ (fun b c h => sqDistBox_mono h x) b (hl.mem_iff.mpr hb)
    intro y hy
    obtain ⟨w, hw, he⟩ := hexact y (hl.mem_iff.mp hy)
    rw [hd, he]
    exact sqDistBox_le y.1 x w hw
  refine ⟨t, mid, r.1, ht, hmt, ?_, ?_, ?_⟩
  · unfold closest
    rw [if_neg (by omega), hz1, hz2]
    simp only [Option.bind_some]
    rw [es]
    simp only [Option.bind_some]
    rw [er]
    rfl
  · rcases cr with rfl | ⟨y, hy, rfl⟩
    · exact hs.2
    · exact List.mem_map.mpr ⟨y, hl.mem_iff.mp hy, rfl⟩
  · intro b hb
    rcases cr with rfl | ⟨y, hy, rfl⟩
    · exact hs.1.trans (hmin b hb)
    · rw [← hd y]; exact hmin b hb

/-- Vertices (topological dimension 0) without padding: leaf boxes are points. -/
theorem C50_vertices_partial (nth : List (Box K × Nat) → List (Box K × Nat)) (hnth : ∀ l, (nth l).Perm l)
    (nthM : List ((Nat → K) × Nat) → List ((Nat → K) × Nat)) (hnthM : ∀ l, (nthM l).Perm l)
    (V M : List ((Nat → K) × Nat)) (hL : V ≠ []) (hM : M ≠ []) (exact : Nat → K) (x : Nat → K)
    (hmid : ∀ m ∈ M, m ∈ V) :
    ∃ t mid e, fromLeaves nth (V.map fun v => (⟨v.1, v.1⟩, v.2)) = some t ∧ fromPoints nthM M = some mid ∧
      closest t 0 mid exact x = some (some e) ∧ ∃ v ∈ V, v.2 = e ∧ ∀ u ∈ V, sqDist x v.1 ≤ sqDist x u.1 := by
  obtain ⟨t, ht, hlen, _, l, hl, hr⟩ := fromLeaves_rep nth hnth (V.map fun v => ((⟨v.1, v.1⟩ : Box K), v.2)) (by simpa using hL)
  obtain ⟨mid, hmt, hmpos, ⟨z, hz, hz1, hz2⟩, lm, hlm, hrm⟩ := fromPoints_rep nthM hnthM M hM
  have hposL : 0 < V.length := List.length_pos_iff.mpr hL
  rw [List.length_map] at hlen
  obtain ⟨s, es, _, cs, _⟩ := closestRec_rep mid _ 0 exact x mid.nodes.length _ lm hrm (by omega) (z.2, sqDist x z.1)
  have hs : ∃ v ∈ V, s = (v.2, sqDist x v.1) := by
    rcases cs with rfl | ⟨y, hy, rfl⟩
    · exact ⟨z, hmid z hz, rfl⟩
    · obtain ⟨m, hm, rfl⟩ := List.mem_map.mp (hlm.mem_iff.mp hy)
      exact ⟨m, hmid m hm, by simp [leafDist]⟩
  obtain ⟨r, er, mr, cr, kr⟩ := closestRec_rep t Inside 0 exact x t.nodes.length _ l hr (by omega) s
  have hmin : ∀ u ∈ V, r.2 ≤ sqDist x u.1 := by
    intro u hu
    refine kr ?_ (fun b c h => sqDistBox_mono h x) (⟨u.1, u.1⟩, u.2) (hl.mem_iff.mpr (List.mem_map.mpr ⟨u, hu, rfl⟩))
    intro y hy
    obtain ⟨v, hv, rfl⟩ := List.mem_map.mp (hl.mem_iff.mp hy)
    exact sqDistBox_le _ x v.1 fun j _ => ⟨le_refl _, le_refl _⟩
  have hr' : ∃ v ∈ V, r = (v.2, sqDist x v.1) := by
    rcases cr with rfl | ⟨y, hy, rfl⟩
    · exact hs
    · obtain ⟨v, hv, rfl⟩ := List.mem_map.mp (hl.mem_iff.mp hy)
      exact ⟨v, hv, by simp [leafDist]⟩
  obtain ⟨v, hv, rfl⟩ := hr'
  refine ⟨t, mid, v.2, ht, hmt, ?_, v, hv, rfl, hmin⟩
  unfold closest
  rw [if_neg (by omega), hz1, hz2]
  simp only [Option.bind_some]
  rw [es]
  simp only [Option.bind_some]
  rw [er]
  rfl

/-- An empty tree gives the answer -1. -/
theorem C50_empty (nth : List (Box K × Nat) → List (Box K × Nat)) (tdim : Nat) (mid : BB.Tree K) (exact : Nat → K) (x : Nat → K) :
    ∃ t, fromLeaves nth ([] : List (Box K × Nat)) = some t ∧ closest t tdim mid exact x = some none :=
  ⟨⟨[], []⟩, rfl, rfl⟩

/-- Vertices with padding: the distance is taken to the corner of the padded box, and the wrong vertex is returned. -/
theorem C50_refuted_padded_vertices :
    ∃ t mid, fromMesh flInt 10 id [(0, pt 90 (-10) (-9), [pt 90 (-10) (-9)]), (1, pt 100 0 0, [pt 100 0 0])] = some t ∧
      fromPoints id [(pt 90 (-10) (-9), 0), (pt 100 0 0, 1)] = some mid ∧
      closest t 0 mid (fun _ => 0) (pt 90 (-10) (-10)) = some (some 1) ∧
      sqDist (pt 90 (-10) (-10)) (pt 90 (-10) (-9)) < sqDist (pt 90 (-10) (-10)) (pt 100 0 0) := by
  refine ⟨_, _, rfl, rfl, ?_, ?_⟩ <;> decide +kernel

/-- The search in a tree of points need not find the closest point, even for one of the points; `compute_closest_entity` on
mesh entities does not rely on it. -/
theorem C50_refuted_point_search :
    ∃ mid, fromPoints id [(pt 8 0 0, 3), (pt 9 0 0, 4), (pt 10 100 0, 7), (pt 11 0 0, 8)] = some mid ∧
      closestRec mid 0 (fun _ => 0) (pt 11 0 0) mid.nodes.length (mid.nodes.length - 1) (3, sqDist (pt 11 0 0) (pt 8 0 0)) =
        some (4, 4) ∧ sqDist (pt 11 0 0) (pt 11 0 0) = 0 := by
  refine ⟨_, rfl, ?_, ?_⟩ <;> decide +kernel

/-- Two segments; the hypotheses of `C50_closest` are met, and the search gives the closer one although its midpoint is farther. -/
example : let L : List (Box Int × Nat) := [(⟨pt 0 0 0, pt 100 0 0⟩, 0), (⟨pt 0 5 0, pt 2 5 0⟩, 1)]
    let M : List ((Nat → Int) × Nat) := [(pt 50 0 0, 0), (pt 1 5 0, 1)]
    let exact : Nat → Int := fun e => if e = 0 then 1 else 16
    (∀ b ∈ L, ∃ y, In b.1 y ∧ exact b.2 = sqDist (pt 1 1 0) y) ∧
    (∀ m ∈ M, exact m.2 ≤ sqDist (pt 1 1 0) m.1 ∧ m.2 ∈ L.map (·.2)) ∧
    ∃ t mid, fromLeaves id L = some t ∧ fromPoints id M = some mid ∧ closest t 1 mid exact (pt 1 1 0) = some (some 0) := by
  intro L M exact
  refine ⟨?_, ?_, _, _, rfl, rfl, by decide +kernel⟩
  · intro b hb
    simp only [L, List.mem_cons, List.not_mem_nil, or_false] at hb
    rcases hb with rfl | rfl
    · refine ⟨pt 1 0 0, ?_, by decide +kernel⟩
      intro j hj
      have : j = 0 ∨ j = 1 ∨ j = 2 := by omega
      rcases this with rfl | rfl | rfl <;> simp [pt]
    · refine ⟨pt 1 5 0, ?_, by decide +kernel⟩
      intro j hj
      have : j = 0 ∨ j = 1 ∨ j = 2 := by omega
      rcases this with rfl | rfl | rfl <;> simp [pt]
  · intro m hm
    simp only [M, List.mem_cons, List.not_mem_nil, or_false] at hm
    rcases hm with rfl | rfl <;> exact ⟨by decide +kernel, by simp [L]⟩

end Verif.Props
