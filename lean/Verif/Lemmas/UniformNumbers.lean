import Verif.Lemmas.UniformConform
import Verif.Lemmas.UniformTiles
import Verif.Lemmas.NewVertices
import Verif.Spec.UniformMesh
import Verif.Props.C10_C11_Scatter
import Verif.Props.C46_Vector
/-! Numbers of the vertices after uniform refinement. -/
namespace Verif.Uniform
open Verif.World Verif.Spec Verif.Spec.RefCell Verif.Spec.Mixed Verif.Spec.UniformMesh Verif.Props
open Verif.Connectivity (CellType)

variable {A : CellType → Prop} {I : Input} {P : Nat} {ev : Nat → Nat → Finset Nat}

/-- Number of the vertex in the middle of entity `g` of kind `j`. -/
def num (I : Input) (j g : Nat) : Nat :=
  start I (NewVert.ownerOf (I.map j) g) + entityOffset I (NewVert.ownerOf (I.map j) g) j + (g - (I.map j).r0 (NewVert.ownerOf (I.map j) g))

theorem num_own (j q i : Nat) (hq : q < (I.map j).P) (hi : i < (I.map j).size q) :
    num I j ((I.map j).r0 q + i) = start I q + entityOffset I q j + i := by
  unfold num
  rw [NewVert.ownerOf_eq (I.map j) q _ hq ⟨by omega, by omega⟩]
  omega

theorem newV_spec (j r i g : Nat) (hv : (I.map j).Valid) (hr : r < (I.map j).P) (hg : globalOf (I.map j) r i = some g) :
    newV I j r i = num I j g := by
  obtain ⟨h1, h2⟩ := C10_forward_scatter (I.map j) hv 1 (ownNumber I j) r hr
  unfold globalOf at hg
  split at hg
  · next hi =>
    cases hg
    unfold newV
    rw [h2 i (by omega), num_own j r i hr hi]
    unfold ownNumber; rw [if_pos hi]
  · next hi =>
    have hk : i - (I.map j).size r < ((I.map j).owners r).length := by
      rw [hv.len r hr]; exact (List.getElem?_eq_some_iff.mp hg).1
    obtain ⟨e1, e2, e3, e4⟩ := hv.owner r hr _ _ _ (List.getElem?_eq_getElem hk) hg
    have := h1 _ _ g (List.getElem?_eq_getElem hk) hg 0 (by omega)
    unfold newV
    rw [show i = 1 * (I.map j).size r + ((i - (I.map j).size r) * 1 + 0) by omega, this]
    generalize ((I.map j).owners r)[i - (I.map j).size r] = q at *
    unfold ownNumber
    rw [if_pos (by omega)]
    have := num_own (I := I) j q (g - (I.map j).r0 q) (by omega) (by omega)
    rw [show (I.map j).r0 q + (g - (I.map j).r0 q) = g by omega] at this
    rw [this]; omega

section ok
variable (h : InputOk A I P ev)
include h

theorem split_num (j g : Nat) (hj : j < I.maps.length) (hg : g < (I.map j).r0 P) : ∃ q i, q < P ∧ i < (I.map j).size q ∧ g = (I.map j).r0 q + i ∧
    num I j g = start I q + (entityOffset I q j + i) ∧ entityOffset I q j + i < nlocal I q := by
  obtain ⟨q, i, hq, hi, rfl⟩ := Offsets.excl_split (I.map j).size hg
  have hP := (h.valid j hj).2
  refine ⟨q, i, hq, hi, rfl, ?_, ?_⟩
  · have := num_own (I := I) j q i (by omega) hi
    unfold World.r0 at this
    rw [this]; omega
  · have := Offsets.excl_lt (fun j => (I.map j).size q) hj
    unfold nlocal entityOffset; omega

theorem num_lt (j g : Nat) (hj : j < I.maps.length) (hg : g < (I.map j).r0 P) : num I j g < start I P := by
  obtain ⟨q, i, hq, hi, rfl, h1, h2⟩ := split_num h j g hj hg
  have := Offsets.excl_lt (nlocal I) hq
  rw [h1]; unfold start at *; omega

theorem num_inj (j g : Nat) (hj : j < I.maps.length) (hg : g < (I.map j).r0 P) (j' g' : Nat) (hj' : j' < I.maps.length) (hg' : g' < (I.map j').r0 P)
    (he : num I j g = num I j' g') : j = j' ∧ g = g' := by
  obtain ⟨q, i, hq, hi, rfl, h1, h2⟩ := split_num h j g hj hg
  obtain ⟨q', i', hq', hi', rfl, h1', h2'⟩ := split_num h j' g' hj' hg'
  rw [h1, h1'] at he
  unfold start at he
  obtain ⟨rfl, he⟩ := Offsets.excl_inj (nlocal I) h2 h2' he
  unfold entityOffset at he
  obtain ⟨rfl, rfl⟩ := Offsets.excl_inj (fun j => (I.map j).size q) hi hi' he
  exact ⟨rfl, rfl⟩

theorem num_onto (x : Nat) (hx : x < start I P) : ∃ j < I.maps.length, ∃ g < (I.map j).r0 P, num I j g = x := by
  obtain ⟨q, y, hq, hy, rfl⟩ := Offsets.excl_split (nlocal I) hx
  unfold nlocal entityOffset at hy
  obtain ⟨j, i, hj, hi, rfl⟩ := Offsets.excl_split _ hy
  refine ⟨j, hj, (I.map j).r0 q + i, ?_, ?_⟩
  · have := Offsets.excl_lt (I.map j).size hq
    unfold World.r0; omega
  · rw [num_own j q i (by rw [(h.valid j hj).2]; exact hq) hi]
    unfold start entityOffset; omega

end ok

open Classical in
/-- Number of the vertex in the middle of the entity with vertices `s`. -/
noncomputable def nameOf (I : Input) (P : Nat) (ev : Nat → Nat → Finset Nat) (s : Finset Nat) : Nat :=
  if hs : ∃ p : Nat × Nat, p.1 < I.maps.length ∧ p.2 < (I.map p.1).r0 P ∧ s = ev p.1 p.2 then num I hs.choose.1 hs.choose.2 else 0

section ok
variable (h : InputOk A I P ev)
include h

theorem nameOf_ev (j g : Nat) (hj : j < I.maps.length) (hg : g < (I.map j).r0 P) : nameOf I P ev (ev j g) = num I j g := by
  have hs : ∃ p : Nat × Nat, p.1 < I.maps.length ∧ p.2 < (I.map p.1).r0 P ∧ ev j g = ev p.1 p.2 := ⟨(j, g), hj, hg, rfl⟩
  unfold nameOf
  rw [dif_pos hs]
  obtain ⟨h1, h2, h3⟩ := hs.choose_spec
  have hc := congrArg Finset.card h3
  rw [h.card j hj g hg, h.card _ h1 _ h2] at hc
  have hjj : hs.choose.1 = j := (Nat.pow_right_injective (le_refl 2) hc).symm
  have hgg : hs.choose.2 = g := by
    rw [hjj] at h2 h3
    exact (h.inj j hj g hg _ h2 h3).symm
  rw [hjj, hgg]

theorem name_inj (s s' : Finset Nat) (hs : IsPoint I P ev s) (hs' : IsPoint I P ev s') (he : nameOf I P ev s = nameOf I P ev s') : s = s' := by
  obtain ⟨j, hj, g, hg, rfl⟩ := hs
  obtain ⟨j', hj', g', hg', rfl⟩ := hs'
  rw [nameOf_ev h j g hj hg, nameOf_ev h j' g' hj' hg'] at he
  obtain ⟨rfl, rfl⟩ := num_inj h j g hj hg j' g' hj' hg' he
  rfl

theorem named_map (r j : Nat) (hr : r < P) (hj : j < I.maps.length) (V loc : List Nat) (ls : List (List Nat)) (hn : Named I ev r j V loc ls) :
    loc.map (newV I j r) = ls.map (fun l => nameOf I P ev (part V l)) ∧ ∀ l ∈ ls, IsPoint I P ev (part V l) := by
  obtain ⟨hl, hn⟩ := hn
  obtain ⟨hv, hP⟩ := h.valid j hj
  constructor
  · apply List.ext_getElem
    · simpa using hl
    · intro i h1 h2
      rw [List.getElem_map, List.getElem_map]
      obtain ⟨g, hg, he⟩ := hn i _ _ (List.getElem?_eq_getElem (by simpa using h1)) (List.getElem?_eq_getElem (by simpa using h2))
      have hlt := globalOf_lt_total (I.map j) hv r (by omega) _ g hg
      rw [hP] at hlt
      rw [newV_spec j r _ g hv (by omega) hg, ← he, nameOf_ev h j g hj hlt]
  · intro l hl'
    obtain ⟨i, hi, rfl⟩ := List.mem_iff_getElem.mp hl'
    obtain ⟨g, hg, he⟩ := hn i _ _ (List.getElem?_eq_getElem (by omega)) (List.getElem?_eq_getElem hi)
    have hlt := globalOf_lt_total (I.map j) hv r (by omega) _ g hg
    rw [hP] at hlt
    exact ⟨j, hj, g, hlt, he.symm⟩

end ok

theorem plain_iff (t : CellType) : Plain t ↔ t ∈ plain := by
  simp [Plain, plain]

theorem pts_parts : ∀ t ∈ plain, pts t = parts t 1 ++ parts t 2 ++ parts t 4 ++ parts t 8 ∧
    parts t 1 = (List.range (nverts t)).map (fun i => [i]) ∧
    parts t 8 = (if t = .hexahedron then [List.range 8] else []) ∧
    (dim t = 2 → parts t 4 = if t = .quadrilateral then [List.range 4] else []) := by decide +kernel

theorem part_single (V : List Nat) (i : Nat) : part V [i] = {V.getD i 0} := by
  simp [Mixed.part]

theorem entities_spec (h : InputOk Plain I P ev) (r : Nat) (hr : r < P) (k : Nat) (t : CellType) (hk : I.types[k]? = some t) (c : Nat) (co : Conns)
    (hc : (I.cells r k)[c]? = some co) :
    entities I r t c co = (pts t).map (fun l => nameOf I P ev (part (gverts I r co) l)) ∧ ∀ l ∈ pts t, IsPoint I P ev (part (gverts I r co) l) := by
  obtain ⟨hpl, hdim⟩ := h.types t (List.mem_of_getElem? hk)
  obtain ⟨e0, e1, e8, e4⟩ := pts_parts t ((plain_iff t).mp hpl)
  have hmem := List.mem_of_getElem? hc
  have hk2 := h.kinds
  -- vertices
  have n0 : Named I ev r 0 (gverts I r co) co.verts (parts t 1) := by
    obtain ⟨v1, v2⟩ := h.verts r hr k t hk co hmem
    refine ⟨by rw [e1]; simpa using v1, ?_⟩
    intro i e l he hl
    obtain ⟨g, hg⟩ := v2 e (List.mem_of_getElem? he)
    refine ⟨g, hg, ?_⟩
    have hi := (List.getElem?_eq_some_iff.mp he).1
    rw [e1, List.getElem?_map, List.getElem?_range (by omega)] at hl
    cases hl
    have hlt := globalOf_lt_total (I.map 0) (h.valid 0 (by omega)).1 r (by rw [(h.valid 0 (by omega)).2]; exact hr) e g hg
    rw [(h.valid 0 (by omega)).2] at hlt
    rw [part_single, h.single g hlt]
    congr 1
    unfold gverts
    rw [List.getD_eq_getElem?_getD, List.getElem?_map, he]
    simp [hg]
  have n1 := h.edges r hr k t hk co hmem
  obtain ⟨m0, q0⟩ := named_map h r 0 hr (by omega) _ _ _ n0
  obtain ⟨m1, q1⟩ := named_map h r 1 hr (by omega) _ _ _ n1
  -- quadrilaterals
  have hq : (if I.maps.length > 2 then
      if I.tdim = 3 then co.quads.map (newV I 2 r) else if t = .quadrilateral then [newV I 2 r c] else []
    else []) = (parts t 4).map (fun l => nameOf I P ev (part (gverts I r co) l)) ∧ ∀ l ∈ parts t 4, IsPoint I P ev (part (gverts I r co) l) := by
    rcases h.dims with hd | hd
    · rw [e4 (by omega)]
      by_cases ht : t = .quadrilateral
      · rw [ht] at hk
        obtain ⟨f1, f2, f3⟩ := h.flat r hr k hk
        have hci := (List.getElem?_eq_some_iff.mp hc).1
        have hw := (I.map 2).r0
        have hg : globalOf (I.map 2) r c = some ((I.map 2).r0 r + c) := by unfold globalOf; rw [if_pos (by omega)]
        have hn : Named I ev r 2 (gverts I r co) [c] [List.range 4] := by
          refine ⟨rfl, ?_⟩
          intro i e l he hl
          cases i with
          | zero =>
            cases he; cases hl
            exact ⟨_, hg, f3 c co hc⟩
          | succ i => simp at he
        obtain ⟨m2, q2⟩ := named_map h r 2 hr f1 _ _ _ hn
        rw [if_pos f1, if_neg (by omega), if_pos ht, if_pos ht]
        exact ⟨m2, q2⟩
      · rw [if_neg ht, if_neg ht]
        refine ⟨?_, by simp⟩
        split <;> [rw [if_neg (by omega)]; skip] <;> rfl
    · obtain ⟨f1, f2⟩ := h.quads hd r hr k t hk
      have f2 := f2 co hmem
      by_cases h4 : parts t 4 = []
      · rw [h4] at f2 ⊢
        have : co.quads = [] := List.length_eq_zero_iff.mp f2.1
        rw [this, if_pos hd]
        refine ⟨?_, by simp⟩
        split <;> rfl
      · obtain ⟨m2, q2⟩ := named_map h r 2 hr (f1 h4) _ _ _ f2
        rw [if_pos (f1 h4), if_pos hd]
        exact ⟨m2, q2⟩
  have hx : (if I.maps.length > 3 ∧ t = .hexahedron then [newV I 3 r c] else []) =
      (parts t 8).map (fun l => nameOf I P ev (part (gverts I r co) l)) ∧ ∀ l ∈ parts t 8, IsPoint I P ev (part (gverts I r co) l) := by
    rw [e8]
    by_cases ht : t = .hexahedron
    · rw [ht] at hk
      obtain ⟨f1, f2, f3⟩ := h.hexes r hr k hk
      have hci := (List.getElem?_eq_some_iff.mp hc).1
      have hg : globalOf (I.map 3) r c = some ((I.map 3).r0 r + c) := by unfold globalOf; rw [if_pos (by omega)]
      have hn : Named I ev r 3 (gverts I r co) [c] [List.range 8] := by
        refine ⟨rfl, ?_⟩
        intro i e l he hl
        cases i with
        | zero =>
          cases he; cases hl
          exact ⟨_, hg, f3 c co hc⟩
        | succ i => simp at he
      obtain ⟨m3, q3⟩ := named_map h r 3 hr f1 _ _ _ hn
      rw [if_pos ⟨f1, ht⟩, if_pos ht]
      exact ⟨m3, q3⟩
    · rw [if_neg (fun hh => ht hh.2), if_neg ht]
      exact ⟨rfl, by simp⟩
  constructor
  · unfold entities
    rw [m0, m1, hq.1, hx.1, e0]
    simp
  · intro l hl
    rw [e0] at hl
    simp only [List.mem_append] at hl
    rcases hl with ((hl | hl) | hl) | hl
    · exact q0 l hl
    · exact q1 l hl
    · exact hq.2 l hl
    · exact hx.2 l hl

theorem vertexPos_spec {X : Type} {pos : Nat → X} {r : Nat} {m : Geo X} (hG : GeoOk I ev pos r m) (v g : Nat)
    (hg : globalOf (I.map 0) r v = some g) : vertexPos I r m v = pos g := by
  have hlt : v < (I.map 0).size r + ((I.map 0).ghosts r).length := by
    unfold globalOf at hg
    split at hg
    · omega
    · have := (List.getElem?_eq_some_iff.mp hg).1; omega
  unfold vertexPos vertexToX
  rcases (NewVert.fold_set_spec ((List.range I.types.length).flatMap fun k => ((m.c2v k).zip (m.xdof k)).flatMap fun p =>
    p.1.zipIdx.map fun q => (q.1, p.2.getD (m.vdof k q.2) 0)) (List.replicate ((I.map 0).size r + ((I.map 0).ghosts r).length) 0) v
      (by simpa using hlt)).2 with ⟨b, hb, heq⟩ | ⟨hn, _⟩
  · rw [heq]
    obtain ⟨k, hk, hb⟩ := List.mem_flatMap.mp hb
    obtain ⟨p, hp, hb⟩ := List.mem_flatMap.mp hb
    obtain ⟨q, hq, heq⟩ := List.mem_map.mp hb
    obtain ⟨rfl, rfl⟩ := Prod.mk.inj heq
    obtain ⟨c, hc⟩ := List.mem_iff_getElem?.mp hp
    obtain ⟨h1, h2⟩ := List.getElem?_zip_eq_some.mp hc
    exact hG.vertex k (List.mem_range.mp hk) c _ _ h1 h2 q.2 q.1 (List.mem_zipIdx_iff_getElem?.mp hq) _ hg
  · obtain ⟨k, hk, c, vs, i, h1, h2⟩ := hG.used v hlt
    have hc : c < (m.xdof k).length := by rw [← hG.len k hk]; exact (List.getElem?_eq_some_iff.mp h1).1
    refine absurd ?_ (hn ((m.xdof k)[c].getD (m.vdof k i) 0))
    refine List.mem_flatMap.mpr ⟨k, List.mem_range.mpr hk, List.mem_flatMap.mpr ⟨(vs, (m.xdof k)[c]), ?_, ?_⟩⟩
    · exact List.mem_of_getElem? ((List.getElem?_zip_eq_some (z := (vs, (m.xdof k)[c])) (i := c)).mpr ⟨h1, List.getElem?_eq_getElem hc⟩)
    · exact List.mem_map.mpr ⟨(v, i), List.mem_zipIdx_iff_getElem?.mpr h2, rfl⟩

theorem newX_flat {X : Type} (mean : List X → X) (r : Nat) (m : Geo X) (hk : 1 ≤ I.maps.length) :
    newX I mean r m = (List.range I.maps.length).flatMap fun j => (List.range ((I.map j).size r)).map fun w =>
      if j = 0 then vertexPos I r m w else mean ((m.e2v j w).map (vertexPos I r m)) := by
  obtain ⟨n, hn⟩ : ∃ n, I.maps.length = n + 1 := ⟨I.maps.length - 1, by omega⟩
  unfold newX
  rw [hn, List.range_succ_eq_map, List.flatMap_cons, List.flatMap_map]
  simp

theorem newX_get {X : Type} (h : InputOk A I P ev) (mean : List X → X) (hmean : ∀ x, mean [x] = x) (pos : Nat → X) (geo : Nat → Geo X)
    (hG : ∀ r < P, GeoOk I ev pos r (geo r)) (s : Finset Nat) (hs : IsPoint I P ev s) :
    ∃ gs : List Nat, gs.Nodup ∧ gs.toFinset = s ∧
      ((List.range P).flatMap fun r => newX I mean r (geo r))[nameOf I P ev s]? = some (mean (gs.map pos)) := by
  obtain ⟨j, hj, g, hg, rfl⟩ := hs
  rw [nameOf_ev h j g hj hg]
  obtain ⟨q, i, hq, hi, rfl, h1, h2⟩ := split_num h j g hj hg
  have hk := h.kinds
  have hlen : ∀ r, (newX I mean r (geo r)).length = nlocal I r := by
    intro r
    rw [newX_flat mean r _ (by omega), Offsets.length_flatMap_range]
    unfold nlocal entityOffset
    refine Offsets.excl_congr fun j _ => by simp
  have hst : start I q = Offsets.excl (fun r => (newX I mean r (geo r)).length) q := by
    unfold start; exact Offsets.excl_congr fun r _ => (hlen r).symm
  have heo : entityOffset I q j = Offsets.excl (fun j => ((List.range ((I.map j).size q)).map fun w =>
      if j = 0 then vertexPos I q (geo q) w else mean (((geo q).e2v j w).map (vertexPos I q (geo q)))).length) j := by
    unfold entityOffset; refine Offsets.excl_congr fun j _ => by simp
  have hval : ((List.range P).flatMap fun r => newX I mean r (geo r))[num I j ((I.map j).r0 q + i)]? =
      some (if j = 0 then vertexPos I q (geo q) i else mean (((geo q).e2v j i).map (vertexPos I q (geo q)))) := by
    rw [h1, hst, Offsets.getElem?_flatMap_range (fun r => newX I mean r (geo r)) hq (by rw [hlen]; exact h2), newX_flat mean q _ (by omega), heo,
      Offsets.getElem?_flatMap_range _ hj (by simpa using hi), List.getElem?_map, List.getElem?_range hi]
    rfl
  rw [hval]
  obtain ⟨gs, g1, g2, g3⟩ := (hG q hq).ents j hj i hi
  refine ⟨gs, g2, g3, ?_⟩
  have hgo : globalOf (I.map j) q i = some ((I.map j).r0 q + i) := by unfold globalOf; rw [if_pos hi]
  split
  · next h0 =>
    subst h0
    rw [h.single _ hg] at g3
    have : gs = [(I.map 0).r0 q + i] := by
      have hp : gs.Perm [(I.map 0).r0 q + i] := by
        rw [List.perm_ext_iff_of_nodup g2 (by simp)]
        intro a
        rw [← List.mem_toFinset, g3]; simp
      exact List.perm_singleton.mp hp
    rw [this, vertexPos_spec (hG q hq) i _ hgo]
    simp [hmean]
  · have hmp : ((geo q).e2v j i).map (vertexPos I q (geo q)) = gs.map pos := by
      have hl := congrArg List.length g1
      simp only [List.length_map] at hl
      apply List.ext_getElem
      · simpa using hl
      · intro n n1 n2
        rw [List.getElem_map, List.getElem_map]
        have hn1 : n < ((geo q).e2v j i).length := by simpa using n1
        have hn2 : n < gs.length := by simpa using n2
        have := congrArg (fun l => l[n]?) g1
        simp only [List.getElem?_map, List.getElem?_eq_getElem hn1, List.getElem?_eq_getElem hn2, Option.map_some, Option.some.injEq] at this
        exact vertexPos_spec (hG q hq) _ _ this
    rw [hmp]

end Verif.Uniform
