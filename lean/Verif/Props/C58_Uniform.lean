import Verif.Lemmas.UniformNumbers
import Verif.Props.C09_DistributeData
import Verif.Lemmas.WorldCheck
/-! # C58: uniform refinement -/
namespace Verif.Props
open Verif.World Verif.Uniform Verif.Spec Verif.Spec.RefCell Verif.Spec.Mixed Verif.Spec.UniformMesh
open Verif.Connectivity (CellType)

theorem C58_aux_kids : ∀ t ∈ plain, table t = some (kids t) ∧ t ≠ .pyramid ∧ (∀ l ∈ kids t, l.length = nverts t ∧ ∀ i ∈ l, i < (pts t).length) ∧
    (∀ f ∈ facets t, ∀ i ∈ f, i < nverts t) := by decide +kernel

theorem C58_aux_pick (t : CellType) (ht : t ∈ plain) (f : List Nat → Nat) :
    pickAll ((pts t).map f) (kids t) = some ((kids t).map fun l => l.map fun i => f ((pts t).getD i [])) := by
  unfold pickAll
  refine mapM_some _ _ _ fun l hl => mapM_some _ _ _ fun i hi => ?_
  have := ((C58_aux_kids t ht).2.2.1 l hl).2 i hi
  rw [List.getElem?_map, List.getElem?_eq_getElem this, List.getD_eq_getElem _ _ this]
  rfl

theorem C58_aux_modify {α : Type} (k : Nat) (a b : List α) (l : List (List α)) :
    (l.modify k (· ++ a)).modify k (· ++ b) = l.modify k (· ++ (a ++ b)) := by
  apply List.ext_getElem?
  intro i
  simp only [List.getElem?_modify]
  split <;> cases l[i]? <;> simp

theorem C58_aux_cells (I : Input) (r k ktet : Nat) (t : CellType) (tab : List (List Nat)) (ht : t ≠ .pyramid) (rows : Conns → List (List Nat))
    (hr : ∀ c co, (I.cells r k)[c]? = some co → pickAll (entities I r t c co) tab = some (rows co)) (mixed : List (List (List Nat))) :
    addCells I r k ktet t tab mixed = some (mixed.modify k (· ++ (I.cells r k).flatMap rows)) := by
  unfold addCells
  have hfold : ∀ (step : List (List (List Nat)) → Conns × Nat → Option (List (List (List Nat)))) (L : List Conns) (n : Nat),
      (∀ c co, L[c]? = some co → ∀ m, step m (co, n + c) = some (m.modify k (· ++ rows co))) → ∀ mixed : List (List (List Nat)),
      (L.zipIdx n).foldlM step mixed = some (mixed.modify k (· ++ L.flatMap rows)) := by
    intro step L
    induction L with
    | nil =>
      intro n _ mixed
      simp only [List.zipIdx_nil, List.foldlM_nil, List.flatMap_nil, List.append_nil]
      show some mixed = _
      congr 1
      apply List.ext_getElem?
      intro i
      rw [List.getElem?_modify]
      split <;> cases mixed[i]? <;> simp
    | cons a L ih =>
      intro n hL mixed
      rw [List.zipIdx_cons, List.foldlM_cons]
      have h0 := hL 0 a rfl mixed
      simp only [Nat.add_zero] at h0
      rw [h0]
      show (List.foldlM step (mixed.modify k (· ++ rows a)) (L.zipIdx (n + 1))) = _
      rw [ih (n + 1) (fun c co hc m => by
        have := hL (c + 1) co (by simpa using hc) m
        rw [← this]; congr 2; omega)]
      rw [C58_aux_modify, List.flatMap_cons]
  refine hfold _ (I.cells r k) 0 (fun c co hc m => ?_) mixed
  rw [Nat.zero_add]
  simp only [hr c co hc, Option.bind_eq_bind, Option.bind_some, if_neg ht]
  rfl

theorem C58_aux_fold (R : Nat → List (List Nat)) (step : Nat → CellType → List (List (List Nat)) → Except Err (Option (List (List (List Nat)))))
    (L : List CellType) (n : Nat)
    (hs : ∀ k t, L[k]? = some t → ∀ m, step (n + k) t m = .ok (some (m.modify (n + k) (· ++ R (n + k))))) (m : List (List (List Nat))) :
    (L.zipIdx n).foldlM (fun (m : Option (List (List (List Nat)))) p => match m with
      | none => (.ok none : Except Err (Option (List (List (List Nat)))))
      | some m => step p.2 p.1 m) (some m) = .ok (some ((List.range' n L.length).foldl (fun m k => m.modify k (· ++ R k)) m)) := by
  induction L generalizing n m with
  | nil => rfl
  | cons t L ih =>
    rw [List.zipIdx_cons, List.foldlM_cons]
    have h0 := hs 0 t rfl m
    simp only [Nat.add_zero] at h0
    simp only [h0]
    show (List.foldlM _ (some (m.modify n (· ++ R n))) (L.zipIdx (n + 1))) = _
    rw [ih (n + 1) (fun k t hk m => by
      have := hs (k + 1) t (by simpa using hk) m
      rw [show n + 1 + k = n + (k + 1) by omega]; exact this)]
    rw [List.length_cons, List.range'_succ, List.foldl_cons]

theorem C58_aux_modifies (R : Nat → List (List Nat)) (ks : List Nat) (hks : ks.Nodup) (m : List (List (List Nat))) (i : Nat) :
    (ks.foldl (fun m k => m.modify k (· ++ R k)) m)[i]? = if i ∈ ks then m[i]?.map (· ++ R i) else m[i]? := by
  induction ks generalizing m with
  | nil => simp
  | cons k ks ih =>
    rw [List.foldl_cons, ih (List.nodup_cons.mp hks).2, List.getElem?_modify]
    have hk := (List.nodup_cons.mp hks).1
    by_cases h1 : k = i
    · subst h1
      simp [hk]
    · have : (i ∈ k :: ks) ↔ i ∈ ks := by simp [Ne.symm h1]
      simp only [this, h1]
      split <;> simp

theorem C58_aux_getD (l : List Nat) (f : Nat → Nat) (i : Nat) (hi : i < l.length) : (l.map f).getD i 0 = f (l.getD i 0) := by
  rw [List.getD_eq_getElem?_getD, List.getElem?_map, List.getElem?_eq_getElem hi, List.getD_eq_getElem _ _ hi]
  rfl

theorem C58_aux_uniform (I : Input) (P : Nat) (ev : Nat → Nat → Finset Nat) (h : InputOk Plain I P ev) :
    ∃ (N : Nat) (T : CellType → List (List Nat)) (out : Nat → List (List (List Nat))),
      (∀ r < P, topology I r = .ok (some (out r))) ∧ IsUniform I P ev (nameOf I P ev) N T out := by
  set name := nameOf I P ev with hname
  set R : Nat → Nat → List (List Nat) := fun r k => (I.cells r k).flatMap fun c =>
    (kids (I.types.getD k .point)).map fun l => l.map fun i => name (Mixed.part (gverts I r c) ((pts (I.types.getD k .point)).getD i [])) with hR
  set out : Nat → List (List (List Nat)) := fun r => (List.range I.types.length).map (R r) with hout
  have hty : ∀ k t, I.types[k]? = some t → I.types.getD k .point = t := by
    intro k t hk; rw [List.getD_eq_getElem?_getD, hk]; rfl
  have hpl : ∀ k t, I.types[k]? = some t → t ∈ plain := fun k t hk => (plain_iff t).mp (h.types t (List.mem_of_getElem? hk)).1
  have htop : ∀ r < P, topology I r = .ok (some (out r)) := by
    intro r hr
    unfold topology
    rw [if_neg (by rcases h.dims with hd | hd <;> omega), if_neg ?_]
    swap
    · intro hany
      obtain ⟨j, hj, hc⟩ := List.any_eq_true.mp hany
      rw [h.created j (List.mem_range.mp hj)] at hc
      simp at hc
    have hstep : ∀ k t, I.types[k]? = some t → ∀ m, typeStep I r k t m = .ok (some (m.modify k (· ++ R r k))) := by
      intro k t hk m
      obtain ⟨t1, t2, t3, _⟩ := C58_aux_kids t (hpl k t hk)
      unfold typeStep
      rw [t1]
      simp only
      rw [if_neg (fun hh => t2 hh.1), C58_aux_cells I r k _ t (kids t) t2
        (fun co => (kids t).map fun l => l.map fun i => name (Mixed.part (gverts I r co) ((pts t).getD i [])))]
      · rw [hR]; simp only; rw [hty k t hk]
      · intro c co hc
        rw [(entities_spec h r hr k t hk c co hc).1]
        exact C58_aux_pick t (hpl k t hk) fun l => name (Mixed.part (gverts I r co) l)
    refine (C58_aux_fold (R r) (typeStep I r) I.types 0 (fun k t hk m => by rw [Nat.zero_add]; exact hstep k t hk m) _).trans ?_
    congr 2
    apply List.ext_getElem?
    intro i
    rw [C58_aux_modifies (R r) _ (List.nodup_range' ..), hout]
    simp only [List.getElem?_map]
    by_cases hi : i < I.types.length
    · rw [if_pos (by simp [List.mem_range'_1]; omega), List.getElem?_range hi]
      simp [hi]
    · rw [if_neg (by simp [List.mem_range'_1]; omega), List.getElem?_eq_none (by simpa using hi), List.getElem?_eq_none (by simpa using hi)]
      rfl
  refine ⟨start I P, kids, out, htop, ?_⟩
  have hpt : ∀ r < P, ∀ k t, I.types[k]? = some t → ∀ c ∈ I.cells r k, ∀ l ∈ pts t, IsPoint I P ev (Mixed.part (gverts I r c) l) := by
    intro r hr k t hk c hc
    obtain ⟨i, hi⟩ := List.mem_iff_getElem?.mp hc
    exact (entities_spec h r hr k t hk i c hi).2
  refine ⟨?_, name_inj h, ?_, ?_, ?_, ?_, ?_⟩
  · rintro s ⟨j, hj, g, hg, rfl⟩
    rw [hname, nameOf_ev h j g hj hg]; exact num_lt h j g hj hg
  · intro x hx
    obtain ⟨j, hj, g, hg, rfl⟩ := num_onto h x hx
    exact ⟨ev j g, ⟨j, hj, g, hg, rfl⟩, nameOf_ev h j g hj hg⟩
  · intro r hr
    refine ⟨by simp [hout], ?_⟩
    intro k t hk
    have hkl := (List.getElem?_eq_some_iff.mp hk).1
    rw [hout]; simp only
    rw [List.getElem?_map, List.getElem?_range hkl]
    simp only [Option.map_some, hR]
    rw [hty k t hk]
  · intro r hr k t hk c hc l hl
    obtain ⟨h1, h2⟩ := (C58_aux_kids t (hpl k t hk)).2.2.1 l hl
    refine ⟨h1, fun i hi => ⟨h2 i hi, ?_⟩⟩
    rw [List.getD_eq_getElem _ _ (h2 i hi)]
    exact hpt r hr k t hk c hc _ (List.getElem_mem _)
  · intro t ht K _ _ _
    rcases (h.types t ht).1 with rfl | rfl | rfl | rfl | rfl
    · exact triangle_tiles
    · exact quadrilateral_tiles
    · exact tetrahedron_tiles
    · exact prism_tiles
    · exact hexahedron_tiles
  · -- sides by numbers are sides by points
    have hsides : ((List.range P).flatMap fun r => typed I (out r)).flatMap facetSets =
        ((allCells I P).flatMap gsides).map (Finset.image name) := by
      unfold allCells typed
      rw [List.flatMap_assoc, List.flatMap_assoc, List.map_flatMap]
      refine List.flatMap_congr fun r hr => ?_
      have hr := List.mem_range.mp hr
      rw [List.flatMap_assoc, List.flatMap_assoc, List.map_flatMap]
      refine List.flatMap_congr fun k hk => ?_
      have hk := List.mem_range.mp hk
      have hkt : I.types[k]? = some I.types[k] := List.getElem?_eq_getElem hk
      rw [hty k _ hkt]
      have : (out r).getD k [] = R r k := by
        rw [hout]; simp only
        rw [List.getD_eq_getElem?_getD, List.getElem?_map, List.getElem?_range hk]; rfl
      rw [this, hR]
      simp only
      rw [hty k _ hkt, List.flatMap_map, List.flatMap_map, List.map_flatMap, List.flatMap_assoc]
      refine List.flatMap_congr fun c hc => ?_
      generalize hT : I.types[k] = t at *
      have htp := hpl k t hkt
      rw [List.flatMap_map]
      unfold gsides sidesOf
      rw [List.map_map, List.map_flatMap]
      refine List.flatMap_congr fun l hl => ?_
      unfold facetSets
      simp only [List.map_map]
      refine List.map_congr_left fun f hf => ?_
      simp only [Function.comp]
      ext x
      simp only [Mixed.part, Finset.mem_image, List.mem_toFinset, List.mem_map]
      obtain ⟨hll, _⟩ := (C58_aux_kids t htp).2.2.1 l hl
      have hfb := (C58_aux_kids t htp).2.2.2 f hf
      constructor
      · rintro ⟨i, hi, rfl⟩
        have hil : i < l.length := by rw [hll]; exact hfb i hi
        refine ⟨_, ⟨_, ⟨i, hi, rfl⟩, rfl⟩, ?_⟩
        exact (C58_aux_getD l (fun i => name (Finset.image (fun i => (gverts I r c).getD i 0) ((pts t).getD i []).toFinset)) i hil).symm
      · rintro ⟨_, ⟨_, ⟨i, hi, rfl⟩, rfl⟩, rfl⟩
        have hil : i < l.length := by rw [hll]; exact hfb i hi
        refine ⟨i, hi, ?_⟩
        exact C58_aux_getD l _ i hil
    -- points of sides
    have hspt : ∀ s ∈ (allCells I P).flatMap gsides, ∀ p ∈ s, IsPoint I P ev p := by
      intro s hs p hp
      obtain ⟨C, hC, hs⟩ := List.mem_flatMap.mp hs
      unfold allCells at hC
      obtain ⟨r, hr, hC⟩ := List.mem_flatMap.mp hC
      obtain ⟨k, hk, hC⟩ := List.mem_flatMap.mp hC
      obtain ⟨c, hc, rfl⟩ := List.mem_map.mp hC
      have hk := List.mem_range.mp hk
      have hkt : I.types[k]? = some I.types[k] := List.getElem?_eq_getElem hk
      rw [hty k _ hkt] at hs
      unfold gsides sidesOf at hs
      obtain ⟨s0, hs0, rfl⟩ := List.mem_map.mp hs
      obtain ⟨l, hl, hs0⟩ := List.mem_flatMap.mp hs0
      obtain ⟨f, hf, rfl⟩ := List.mem_map.mp hs0
      obtain ⟨p0, hp0, rfl⟩ := Finset.mem_image.mp hp
      rw [List.mem_toFinset] at hp0
      obtain ⟨i, hi, rfl⟩ := List.mem_map.mp hp0
      obtain ⟨k1, _, k3, k4⟩ := C58_aux_kids _ (hpl k _ hkt)
      have hil : i < l.length := by rw [(k3 l hl).1]; exact k4 f hf i hi
      rw [List.getD_eq_getElem _ _ hil]
      have h2 := (k3 l hl).2 _ (List.getElem_mem hil)
      rw [List.getD_eq_getElem _ _ h2]
      exact hpt r (List.mem_range.mp hr) k _ hkt c hc _ (List.getElem_mem h2)
    have hplain : ∀ C ∈ allCells I P, C.1 ∈ plain := by
      intro C hC
      unfold allCells at hC
      obtain ⟨r, hr, hC⟩ := List.mem_flatMap.mp hC
      obtain ⟨k, hk, hC⟩ := List.mem_flatMap.mp hC
      obtain ⟨c, hc, rfl⟩ := List.mem_map.mp hC
      have hk := List.mem_range.mp hk
      have hkt : I.types[k]? = some I.types[k] := List.getElem?_eq_getElem hk
      show I.types.getD k .point ∈ plain
      rw [hty k _ hkt]
      exact hpl k _ hkt
    intro s hs
    rw [hsides] at hs ⊢
    obtain ⟨s0, hs0, rfl⟩ := List.mem_map.mp hs
    have hcount : (((allCells I P).flatMap gsides).map (Finset.image name)).count (Finset.image name s0) = ((allCells I P).flatMap gsides).count s0 := by
      refine count_map_inj (Finset.image name) _ s0 fun x hx he => ?_
      ext p
      constructor
      · intro hp
        have := he ▸ Finset.mem_image_of_mem name hp
        obtain ⟨q, hq, e⟩ := Finset.mem_image.mp this
        rw [← name_inj h q p (hspt s0 hs0 q hq) (hspt x hx p hp) e]; exact hq
      · intro hp
        have := he.symm ▸ Finset.mem_image_of_mem name hp
        obtain ⟨q, hq, e⟩ := Finset.mem_image.mp this
        rw [← name_inj h q p (hspt x hx q hq) (hspt s0 hs0 p hp) e]; exact hq
    have hin : ∀ F, span s0 = F → ∀ y ∈ Finset.image name s0, ∃ p ⊆ F, IsPoint I P ev p ∧ y = name p := by
      intro F hF y hy
      obtain ⟨p, hp, rfl⟩ := Finset.mem_image.mp hy
      refine ⟨p, ?_, hspt s0 hs0 p hp, rfl⟩
      rw [← hF]
      exact Finset.subset_biUnion_of_mem id hp
    rw [hcount]
    rcases conform (allCells I P) hplain h.mesh s0 hs0 with ⟨C, hC, F, hF, h1, h2⟩ | ⟨⟨C, hC, h1⟩, h2⟩
    · exact Or.inl ⟨C, hC, F, hF, hin F h1, h2⟩
    · exact Or.inr ⟨C, hC, hin _ h1, h2⟩

theorem C58_aux_centre {K : Type} [Field K] (L : List K) : centre L = L.sum / (L.length : K) := by
  unfold centre
  rw [List.sum_eq_foldl]

/-- Uniform refinement of a mesh of triangles, quadrilaterals, tetrahedra, prisms and hexahedra (mixed in any way that the dimension
allows) on any number of ranks gives new vertices with consistent numbers, and new cells that tile the old ones and fit together; the coordinates
hold at each number the mean of the vertices of the entity.  The full statement would include pyramids, for which it is false
(`C58_refuted_pyramid_hole`, `C58_refuted_pyramid_fits`). -/
theorem C58_uniform_partial (I : Input) (P : Nat) (ev : Nat → Nat → Finset Nat) (h : InputOk Plain I P ev) :
    ∃ (name : Finset Nat → Nat) (N : Nat) (T : CellType → List (List Nat)) (out : Nat → List (List (List Nat))),
      (∀ r < P, topology I r = .ok (some (out r))) ∧ IsUniform I P ev name N T out ∧
      ∀ {K : Type} [Field K] (pos : Nat → K) (geo : Nat → Geo K), (∀ r < P, GeoOk I ev pos r (geo r)) →
        ∀ r < P, ∀ k t, I.types[k]? = some t → ∀ c ∈ I.cells r k, ∀ i < (pts t).length,
          ((List.range P).flatMap fun r => newX I centre r (geo r))[name (Mixed.part (gverts I r c) ((pts t).getD i []))]? =
            some (RefCell.mean (fun i => pos ((gverts I r c).getD i 0)) ((pts t).getD i [])) := by
  obtain ⟨N, T, out, h1, h2⟩ := C58_aux_uniform I P ev h
  refine ⟨_, N, T, out, h1, h2, fun pos geo hG r hr k t hk c hc i hi => ?_⟩
  have ht := List.mem_of_getElem? hk
  have htp : t ∈ plain := (plain_iff t).mp (h.types t ht).1
  have hcell : (t, gverts I r c) ∈ allCells I P := by
    refine List.mem_flatMap.mpr ⟨r, List.mem_range.mpr hr, List.mem_flatMap.mpr ⟨k, List.mem_range.mpr (List.getElem?_eq_some_iff.mp hk).1, ?_⟩⟩
    refine List.mem_map.mpr ⟨c, hc, ?_⟩
    rw [List.getD_eq_getElem?_getD, hk]; rfl
  obtain ⟨hlen, hnd⟩ := h.mesh.verts _ hcell
  have hlen : (gverts I r c).length = nverts t := hlen
  have hloc : ∀ t ∈ plain, ∀ i < (pts t).length, ((pts t).getD i []).Nodup ∧ (∀ a ∈ (pts t).getD i [], a < nverts t) := by decide +kernel
  obtain ⟨n1, n2⟩ := hloc t htp i hi
  set l := (pts t).getD i [] with hl
  have hpt : IsPoint I P ev (Mixed.part (gverts I r c) l) := by
    obtain ⟨c', hc'⟩ := List.mem_iff_getElem?.mp hc
    exact (entities_spec h r hr k t hk c' c hc').2 l (by rw [hl, List.getD_eq_getElem _ _ hi]; exact List.getElem_mem hi)
  obtain ⟨gs, g1, g2, g3⟩ := newX_get h centre (fun x => by simp [centre]) pos geo hG _ hpt
  rw [g3]
  have hperm : gs.Perm (l.map fun a => (gverts I r c).getD a 0) := by
    rw [List.perm_ext_iff_of_nodup g1]
    · intro a
      rw [← List.mem_toFinset, g2]
      simp [Mixed.part]
    · refine List.Nodup.map_on (fun a ha b hb he => ?_) n1
      have ha' := n2 a ha
      have hb' := n2 b hb
      rw [List.getD_eq_getElem _ _ (by omega), List.getD_eq_getElem _ _ (by omega)] at he
      exact (List.Nodup.getElem_inj_iff hnd).mp he
  rw [C58_aux_centre, (hperm.map pos).sum_eq, (hperm.map pos).length_eq, List.map_map]
  simp only [List.length_map]
  rfl

/-- Meshes of lower dimension, missing entities, and pyramids without tetrahedra are rejected. -/
theorem C58_rejects (I : Input) (r : Nat) :
    (I.tdim < 2 → topology I r = .error .dim) ∧
    (2 ≤ I.tdim → (∃ j < I.maps.length, I.created j = false) → topology I r = .error .missing) ∧
    (2 ≤ I.tdim → (∀ j < I.maps.length, I.created j = true) → I.types.head? = some .pyramid → .tetrahedron ∉ I.types → topology I r = .error .noTets) := by
  refine ⟨fun h => ?_, fun h ⟨j, hj, hc⟩ => ?_, fun h hc ht hn => ?_⟩
  · unfold topology; rw [if_pos h]
  · unfold topology
    rw [if_neg (by omega), if_pos (List.any_eq_true.mpr ⟨j, List.mem_range.mpr hj, by rw [hc]; rfl⟩)]
  · unfold topology
    rw [if_neg (by omega), if_neg]
    · cases hT : I.types with
      | nil => rw [hT] at ht; simp at ht
      | cons t L =>
        rw [hT] at ht
        cases ht
        rw [List.zipIdx_cons, List.foldlM_cons]
        have : typeStep I r 0 .pyramid (List.replicate (CellType.pyramid :: L).length []) = .error .noTets := by
          unfold typeStep
          simp only [table]
          rw [if_pos ⟨trivial, hn⟩]
        simp only [this]
        rfl
    · intro hany
      obtain ⟨j, hj, hx⟩ := List.any_eq_true.mp hany
      rw [hc j (List.mem_range.mp hj)] at hx
      simp at hx

/-- Refuted for pyramids: a point of the reference pyramid lies in none of its new cells. -/
theorem C58_refuted_pyramid_hole : Inside .pyramid ((3 / 10, 3 / 10, 2 / 5) : ℚ × ℚ × ℚ) ∧
    (∀ l ∈ (table .pyramid).getD [], ∀ x : ℚ × ℚ × ℚ, Inside .pyramid x → mapRef .pyramid .pyramid l x ≠ (3 / 10, 3 / 10, 2 / 5)) ∧
    (∀ l ∈ pyrToTet, ∀ x : ℚ × ℚ × ℚ, Inside .tetrahedron x → mapRef .pyramid .tetrahedron l x ≠ (3 / 10, 3 / 10, 2 / 5)) := by
  refine ⟨by norm_num [Inside], ?_, ?_⟩
  · intro l hl x hx he
    obtain ⟨x, y, z⟩ := x
    obtain ⟨a1, a2, a3, a4, a5⟩ := hx
    simp only [table, Option.getD_some, List.mem_cons, List.not_mem_nil, or_false] at hl
    rcases hl with rfl | rfl | rfl | rfl | rfl <;>
    · simp [mapRef, mapTo, newPos, RefCell.mean, pts, vertex] at he
      obtain ⟨e1, e2, e3⟩ := he
      linarith
  · intro l hl x hx he
    obtain ⟨x, y, z⟩ := x
    obtain ⟨a1, a2, a3, a4⟩ := hx
    simp only [pyrToTet, List.mem_cons, List.not_mem_nil, or_false] at hl
    rcases hl with rfl | rfl | rfl | rfl <;>
    · simp [mapRef, mapTo, newPos, RefCell.mean, pts, vertex] at he
      obtain ⟨e1, e2, e3⟩ := he
      linarith

theorem C58_aux_named (I : Input) (ev : Nat → Nat → Finset Nat) (r j : Nat) (V loc : List Nat) (ls : List (List Nat))
    (h : loc.map (fun e => (globalOf (I.map j) r e).map (ev j)) = ls.map fun l => some (Mixed.part V l)) : Named I ev r j V loc ls := by
  have hl := congrArg List.length h
  simp only [List.length_map] at hl
  refine ⟨hl, fun i e l he hl' => ?_⟩
  have := congrArg (fun x => x[i]?) h
  simp only [List.getElem?_map, he, hl', Option.map_some, Option.some.injEq] at this
  exact Option.map_eq_some_iff.mp this

theorem C58_aux_all {α : Type} (L : List α) (Q : Nat → α → Prop) (h : ∀ p ∈ L.zipIdx, Q p.2 p.1) (i : Nat) (a : α) (ha : L[i]? = some a) : Q i a :=
  h (a, i) (List.mem_zipIdx_iff_getElem?.mpr ha)

/-! A pyramid and a tetrahedron with a common face on one rank. -/

def pyrMap (n : Nat) : World := { P := 1, size := fun _ => n, ghosts := fun _ => [], owners := fun _ => [] }

def pyrInput : Input where
  tdim := 3
  types := [.pyramid, .tetrahedron]
  maps := [pyrMap 6, pyrMap 11, pyrMap 1]
  created := fun _ => true
  cells := fun _ k => if k = 0 then [⟨[0, 1, 2, 3, 4], [0, 1, 2, 3, 4, 5, 6, 7], [0]⟩] else if k = 1 then [⟨[0, 1, 4, 5], [8, 9, 4, 10, 2, 0], []⟩] else []

def pyrEv (j g : Nat) : Finset Nat :=
  (([[[0], [1], [2], [3], [4], [5]],
    [[0, 1], [0, 2], [0, 4], [1, 3], [1, 4], [2, 3], [2, 4], [3, 4], [4, 5], [1, 5], [0, 5]], [[0, 1, 2, 3]]].getD j []).getD g []).toFinset

theorem pyrMap_valid (n : Nat) : (pyrMap n).Valid := by
  apply valid_of_check
  intro r hr
  refine ⟨rfl, List.nodup_nil, fun p hp => ?_⟩
  cases hp

theorem pyr_ok : InputOk (fun t => Plain t ∨ t = .pyramid) pyrInput 1 pyrEv where
  dims := Or.inr rfl
  types := by
    intro t ht
    have ht : t ∈ [CellType.pyramid, CellType.tetrahedron] := ht
    simp only [List.mem_cons, List.not_mem_nil, or_false] at ht
    rcases ht with rfl | rfl
    · exact ⟨Or.inr rfl, rfl⟩
    · exact ⟨Or.inl (by unfold Plain; decide), rfl⟩
  kinds := by decide
  created := fun _ _ => rfl
  valid := by
    intro j hj
    have hj : j < 3 := hj
    interval_cases j <;> exact ⟨pyrMap_valid _, rfl⟩
  single := by decide +kernel
  card := by decide +kernel
  inj := by decide +kernel
  verts := by
    intro r hr k t hk
    have hr : r = 0 := by omega
    subst hr
    refine C58_aux_all pyrInput.types (fun k t => ∀ c ∈ pyrInput.cells 0 k, c.verts.length = nverts t ∧ ∀ v ∈ c.verts, ∃ g, globalOf (pyrInput.map 0) 0 v = some g)
      ?_ k t hk
    have : ∀ p ∈ pyrInput.types.zipIdx, ∀ c ∈ pyrInput.cells 0 p.2, c.verts.length = nverts p.1 ∧ ∀ v ∈ c.verts, (globalOf (pyrInput.map 0) 0 v).isSome := by
      decide +kernel
    intro p hp c hc
    exact ⟨(this p hp c hc).1, fun v hv => Option.isSome_iff_exists.mp ((this p hp c hc).2 v hv)⟩
  edges := by
    intro r hr k t hk c hc
    have hr : r = 0 := by omega
    subst hr
    have : ∀ p ∈ pyrInput.types.zipIdx, ∀ c ∈ pyrInput.cells 0 p.2, c.edges.map (fun e => (globalOf (pyrInput.map 1) 0 e).map (pyrEv 1)) =
        (parts p.1 2).map fun l => some (Mixed.part (gverts pyrInput 0 c) l) := by decide +kernel
    exact C58_aux_named _ _ _ _ _ _ _ (C58_aux_all pyrInput.types (fun k t => ∀ c ∈ pyrInput.cells 0 k, c.edges.map (fun e =>
      (globalOf (pyrInput.map 1) 0 e).map (pyrEv 1)) = (parts t 2).map fun l => some (Mixed.part (gverts pyrInput 0 c) l)) this k t hk c hc)
  quads := by
    intro _ r hr k t hk
    have hr : r = 0 := by omega
    subst hr
    refine ⟨fun _ => by decide, fun c hc => ?_⟩
    have : ∀ p ∈ pyrInput.types.zipIdx, ∀ c ∈ pyrInput.cells 0 p.2, c.quads.map (fun e => (globalOf (pyrInput.map 2) 0 e).map (pyrEv 2)) =
        (parts p.1 4).map fun l => some (Mixed.part (gverts pyrInput 0 c) l) := by decide +kernel
    exact C58_aux_named _ _ _ _ _ _ _ (C58_aux_all pyrInput.types (fun k t => ∀ c ∈ pyrInput.cells 0 k, c.quads.map (fun e =>
      (globalOf (pyrInput.map 2) 0 e).map (pyrEv 2)) = (parts t 4).map fun l => some (Mixed.part (gverts pyrInput 0 c) l)) this k t hk c hc)
  flat := by
    intro r _ k hk
    exact absurd (List.mem_of_getElem? hk) (by decide)
  hexes := by
    intro r _ k hk
    exact absurd (List.mem_of_getElem? hk) (by decide)
  mesh := ⟨by decide +kernel, by decide +kernel, by decide +kernel⟩

/-- Refuted for pyramids: in the refined mesh of a pyramid and a tetrahedron with a common face, the quadrilateral below the topmost new pyramid
belongs to one new cell only, although it is not a part of an old face.  (`name` is any map that gives the numbers of the code.) -/
theorem C58_refuted_pyramid_fits : ∃ (I : Input) (ev : Nat → Nat → Finset Nat) (out : List (List (List Nat))),
    InputOk (fun t => Plain t ∨ t = .pyramid) I 1 ev ∧ topology I 0 = .ok (some out) ∧
    ∀ name : Finset Nat → Nat, (∀ j < I.maps.length, ∀ g < (I.map j).r0 1, name (ev j g) = newV I j 0 g) →
      ¬ Fits I 1 ev name fun _ => out := by
  refine ⟨pyrInput, pyrEv, [[[0, 6, 7, 17, 8], [1, 9, 6, 17, 10], [3, 11, 9, 17, 13], [2, 7, 11, 17, 12], [8, 10, 12, 13, 4]],
    [[6, 17, 8, 10], [7, 17, 12, 8], [11, 17, 13, 12], [9, 17, 10, 13],
      [0, 16, 8, 6], [1, 15, 10, 6], [4, 14, 10, 8], [5, 14, 15, 16], [6, 14, 10, 8], [6, 14, 8, 16], [6, 14, 16, 15], [6, 14, 15, 10]]],
    pyr_ok, by decide +kernel, fun name hname hf => ?_⟩
  have h1 := hf {8, 10, 12, 13} (by decide +kernel)
  rcases h1 with ⟨C, hC, F, hF, h2, _⟩ | ⟨C, hC, _, h3⟩
  · have key : ∀ C ∈ allCells pyrInput 1, ∀ F ∈ facetSets C, ∃ y ∈ ({8, 10, 12, 13} : Finset Nat), ∀ j < pyrInput.maps.length,
        ∀ g < (pyrInput.map j).r0 1, pyrEv j g ⊆ F → newV pyrInput j 0 g ≠ y := by decide +kernel
    obtain ⟨y, hy, hn⟩ := key C hC F hF
    obtain ⟨p, hp, ⟨j, hj, g, hg, rfl⟩, he⟩ := h2 y hy
    rw [hname j hj g hg] at he
    exact hn j hj g hg hp he.symm
  · revert h3
    decide +kernel

/-! A quadrilateral on rank 0 and a triangle on rank 1 with a common edge. -/

def fanVerts : World where
  P := 2
  size := fun q => if q = 0 then 4 else 1
  ghosts := fun q => if q = 1 then [1, 3] else []
  owners := fun q => if q = 1 then [0, 0] else []

def fanEdges : World where
  P := 2
  size := fun q => if q = 0 then 4 else 2
  ghosts := fun q => if q = 1 then [2] else []
  owners := fun q => if q = 1 then [0] else []

def fanQuads : World where
  P := 2
  size := fun q => if q = 0 then 1 else 0
  ghosts := fun _ => []
  owners := fun _ => []

def fanInput : Input where
  tdim := 2
  types := [.triangle, .quadrilateral]
  maps := [fanVerts, fanEdges, fanQuads]
  created := fun _ => true
  cells := fun r k => if r = 0 ∧ k = 1 then [⟨[0, 1, 2, 3], [0, 1, 2, 3], []⟩] else if r = 1 ∧ k = 0 then [⟨[1, 2, 0], [0, 1, 2], []⟩] else []

def fanEv (j g : Nat) : Finset Nat :=
  (([[[0], [1], [2], [3], [4]], [[0, 1], [0, 2], [1, 3], [2, 3], [3, 4], [1, 4]], [[0, 1, 2, 3]]].getD j []).getD g []).toFinset

theorem fan_ok : InputOk Plain fanInput 2 fanEv where
  dims := Or.inl rfl
  types := by unfold Plain; decide
  kinds := by decide
  created := fun _ _ => rfl
  valid := by
    intro j hj
    have hj : j < 3 := hj
    interval_cases j <;> exact ⟨valid_of_check _ (by decide +kernel), rfl⟩
  single := by decide +kernel
  card := by decide +kernel
  inj := by decide +kernel
  verts := by
    intro r hr k t hk
    refine C58_aux_all fanInput.types (fun k t => ∀ c ∈ fanInput.cells r k, c.verts.length = nverts t ∧ ∀ v ∈ c.verts, ∃ g, globalOf (fanInput.map 0) r v = some g)
      ?_ k t hk
    have : ∀ r < 2, ∀ p ∈ fanInput.types.zipIdx, ∀ c ∈ fanInput.cells r p.2, c.verts.length = nverts p.1 ∧ ∀ v ∈ c.verts, (globalOf (fanInput.map 0) r v).isSome := by
      decide +kernel
    intro p hp c hc
    exact ⟨(this r hr p hp c hc).1, fun v hv => Option.isSome_iff_exists.mp ((this r hr p hp c hc).2 v hv)⟩
  edges := by
    intro r hr k t hk c hc
    have : ∀ r < 2, ∀ p ∈ fanInput.types.zipIdx, ∀ c ∈ fanInput.cells r p.2, c.edges.map (fun e => (globalOf (fanInput.map 1) r e).map (fanEv 1)) =
        (parts p.1 2).map fun l => some (Mixed.part (gverts fanInput r c) l) := by decide +kernel
    exact C58_aux_named _ _ _ _ _ _ _ (C58_aux_all fanInput.types (fun k t => ∀ c ∈ fanInput.cells r k, c.edges.map (fun e =>
      (globalOf (fanInput.map 1) r e).map (fanEv 1)) = (parts t 2).map fun l => some (Mixed.part (gverts fanInput r c) l)) (this r hr) k t hk c hc)
  quads := fun h => absurd h (by decide)
  flat := by
    intro r hr k hk
    have hk' : k = 1 := by
      match k, hk with
      | 1, _ => rfl
    subst hk'
    refine ⟨by decide, ?_, fun i c hc => ?_⟩
    · have : ∀ r < 2, (fanInput.cells r 1).length ≤ (fanInput.map 2).size r := by decide +kernel
      exact this r hr
    · refine C58_aux_all (fanInput.cells r 1) (fun i c => fanEv 2 ((fanInput.map 2).r0 r + i) = Mixed.part (gverts fanInput r c) (List.range 4)) ?_ i c hc
      have : ∀ r < 2, ∀ p ∈ (fanInput.cells r 1).zipIdx, fanEv 2 ((fanInput.map 2).r0 r + p.2) = Mixed.part (gverts fanInput r p.1) (List.range 4) := by
        decide +kernel
      exact this r hr
  hexes := by
    intro r _ k hk
    exact absurd (List.mem_of_getElem? hk) (by decide)
  mesh := ⟨by decide +kernel, by decide +kernel, by decide +kernel⟩

/-- `C58_uniform_partial` applies to it; the new cells and the new number of the middle of the common edge on both ranks: -/
example := C58_uniform_partial fanInput 2 fanEv fan_ok
example : topology fanInput 0 = .ok (some [[], [[0, 4, 5, 8], [1, 6, 4, 8], [2, 7, 5, 8], [3, 7, 6, 8]]]) ∧
    topology fanInput 1 = .ok (some [[[1, 11, 6], [3, 6, 10], [9, 10, 11], [10, 11, 6]], []]) ∧ newV fanInput 1 1 2 = newV fanInput 1 0 2 := by
  decide +kernel

/-- Its geometry on rank 1, with positions the integers `10 * g`. -/
def fanGeo : Geo Int where
  c2v := fun k => if k = 0 then [[1, 2, 0]] else []
  xdof := fun k => if k = 0 then [[2, 0, 1]] else []
  vdof := fun _ i => i
  x := fun d => ([30, 40, 10] : List Int).getD d 0
  e2v := fun j w => if j = 0 then [0] else if j = 1 then [[2, 0], [1, 0]].getD w [] else []

example : GeoOk fanInput fanEv (fun g => 10 * (g : Int)) 1 fanGeo where
  len := by decide
  vertex := by
    intro k hk c vs ds h1 h2 i v hi g hg
    have hk : k < 2 := hk
    interval_cases k
    · match c, h1, h2 with
      | 0, h1, h2 =>
        cases h1; cases h2
        match i, hi with
        | 0, hi => cases hi; have : some 1 = some g := hg; cases this; rfl
        | 1, hi => cases hi; have : some 3 = some g := hg; cases this; rfl
        | 2, hi => cases hi; have : some 4 = some g := hg; cases this; rfl
    · have h1 : ([] : List (List Nat))[c]? = some vs := h1
      simp at h1
  used := by
    intro v hv
    have hv : v < 3 := hv
    refine ⟨0, by decide, 0, [1, 2, 0], ?_⟩
    interval_cases v
    · exact ⟨2, rfl, rfl⟩
    · exact ⟨0, rfl, rfl⟩
    · exact ⟨1, rfl, rfl⟩
  ents := by
    intro j hj w hw
    have hj : j < 3 := hj
    interval_cases j
    · have hw : w < 1 := hw
      interval_cases w
      exact ⟨[4], by decide +kernel, by decide, by decide +kernel⟩
    · have hw : w < 2 := hw
      interval_cases w
      · exact ⟨[3, 4], by decide +kernel, by decide, by decide +kernel⟩
      · exact ⟨[1, 4], by decide +kernel, by decide, by decide +kernel⟩
    · exact absurd (show w < 0 from hw) (Nat.not_lt_zero w)

end Verif.Props
