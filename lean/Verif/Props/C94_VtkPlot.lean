import Verif.Model.VtkPlot
import Verif.Spec.VtkPlot
import Verif.Props.C93_EntityGeom
import Verif.Props.C64_VtkOrder
import Verif.Lemmas.StdAlg
/-!
# C94: data for plotting
-/
namespace Verif.Props
open Verif.VtkPlot Verif.Spec Verif.Spec.VtkPlot
open Verif.Submesh (Geo)
open Verif.Connectivity (CellType)
open Verif.Spec.EntityGeom (NodesIn)

/-- `argsort` of a permutation is its inverse. -/
theorem argsort_inv (p : List Nat) (n : Nat) (hp : p.Perm (List.range n)) :
    (argsort p).length = n ∧ ∀ j, j < n → ∃ k, (argsort p)[j]? = some k ∧ p[k]? = some j := by
  have hl : p.length = n := by rw [hp.length_eq, List.length_range]
  have hperm : (argsort p).Perm (List.range n) := by
    have := Std.sort_perm (fun i j => decide (p.getD i 0 ≤ p.getD j 0)) (List.range p.length)
    rw [hl] at this
    unfold argsort
    rw [hl]
    exact this
  have hs : (argsort p).Pairwise fun i j => p.getD i 0 ≤ p.getD j 0 := by
    have := Std.sort_sorted (fun i j => decide (p.getD i 0 ≤ p.getD j 0)) (by
      intro a b c h1 h2
      simp only [decide_eq_true_eq] at *
      omega) (by
      intro a b
      simp only [Bool.or_eq_true, decide_eq_true_eq]
      omega) (List.range p.length)
    exact this.imp fun h => by simpa using h
  have hmap : (argsort p).map (fun k => p.getD k 0) = List.range n := by
    refine List.Perm.eq_of_pairwise (le := (· ≤ ·)) (fun a b _ _ h1 h2 => Nat.le_antisymm h1 h2) (List.pairwise_map.mpr hs) ?_ ?_
    · exact List.pairwise_le_range
    · refine (hperm.map _).trans ?_
      have : (List.range n).map (fun k => p.getD k 0) = p := by
        apply List.ext_getElem
        · simp [hl]
        · intro i h1 h2
          simp [List.getD, List.getElem?_eq_getElem h2]
      rw [this]
      exact hp
  have hlen : (argsort p).length = n := by rw [hperm.length_eq, List.length_range]
  refine ⟨hlen, fun j hj => ?_⟩
  have hj' : j < (argsort p).length := by omega
  refine ⟨(argsort p)[j], List.getElem?_eq_getElem hj', ?_⟩
  have hk : (argsort p)[j] < p.length := by
    have := hperm.mem_iff.mp (List.getElem_mem hj')
    rw [List.mem_range] at this
    omega
  have := congrArg (fun l => l[j]?) hmap
  simp only [List.getElem?_map, List.getElem?_eq_getElem hj', Option.map_some, List.getElem?_range hj, Option.some.injEq] at this
  rw [List.getElem?_eq_getElem hk]
  rw [List.getD, List.getElem?_eq_getElem hk, Option.getD_some] at this
  rw [this]

/-- The order used gives rows whose nodes are at the right places. -/
theorem order_ok (t : CellType) (N : Nat) (P V : List Pt) (h : VtkOrder t N P V) (hN : N ≤ 65536) :
    ∃ q, order t N = .ok q ∧ ∀ l : List Nat, l.length = N → ∃ row, pick q l = some row ∧ SamePlaces P V l row := by
  obtain ⟨hP, hV, p, hp, hperm, hplace⟩ := C64_perm t N P V h hN
  obtain ⟨hlen, hinv⟩ := argsort_inv p N hperm
  refine ⟨argsort p, by unfold order; rw [hp], ?_⟩
  intro l hl
  have hget : ∀ k ∈ argsort p, ∃ v, l[k]? = some v := by
    intro k hk
    obtain ⟨j, hj⟩ := List.mem_iff_getElem?.mp hk
    have hjn : j < N := by
      have := (List.getElem?_eq_some_iff.mp hj).1
      omega
    obtain ⟨k', h1, h2⟩ := hinv j hjn
    rw [h1] at hj
    obtain rfl := Option.some.inj hj
    have : k' < l.length := by
      have := (List.getElem?_eq_some_iff.mp h2).1
      have := hperm.length_eq
      rw [List.length_range] at this
      omega
    exact ⟨_, List.getElem?_eq_getElem this⟩
  obtain ⟨row, hrow⟩ := mapM_option_ok (fun k => l[k]?) (argsort p) hget
  have hf := (opt_mapM_forall _ _ _).mp hrow
  refine ⟨row, hrow, by rw [← hf.length_eq, hlen, hV], ?_⟩
  intro j v pt hv hpt
  have hjn : j < N := by
    have := (List.getElem?_eq_some_iff.mp hpt).1
    omega
  obtain ⟨k, hk1, hk2⟩ := hinv j hjn
  have hlv : l[k]? = some v := by
    have h1 := (List.getElem?_eq_some_iff.mp hk1)
    have h2 := (List.getElem?_eq_some_iff.mp hv)
    have := (List.forall₂_iff_get.mp hf).2 j h1.1 h2.1
    simp only [List.get_eq_getElem, h1.2, h2.2] at this
    exact this
  exact ⟨k, by rw [hplace k j hk2]; exact hpt, hlv⟩

/-- The flat array. -/
theorem flat_ok (t : CellType) (N : Nat) (P V : List Pt) (h : VtkOrder t N P V) (hN : N ≤ 65536) :
    ∃ q, order t N = .ok q ∧ ∀ rows : List (List Nat), (∀ r ∈ rows, r.length = N) →
      ∃ out top, flat N q rows = .ok top ∧ List.Forall₂ (SamePlaces P V) rows out ∧ Cells out top := by
  obtain ⟨q, hq, hrow⟩ := order_ok t N P V h hN
  have hV : V.length = N := (C64_perm t N P V h hN).2.1
  refine ⟨q, hq, fun rows hl => ?_⟩
  obtain ⟨out, hout⟩ := mapM_option_ok (pick q) rows fun r hr => by
    obtain ⟨row, h1, _⟩ := hrow r (hl r hr)
    exact ⟨row, h1⟩
  have hf := (opt_mapM_forall _ _ _).mp hout
  have hsp : List.Forall₂ (SamePlaces P V) rows out := by
    refine (forall_mem_left hf).imp ?_
    rintro r o ⟨hr, ho⟩
    obtain ⟨row, h1, h2⟩ := hrow r (hl r hr)
    rw [h1] at ho
    obtain rfl := Option.some.inj ho
    exact h2
  refine ⟨out, out.flatMap (fun r => N :: r), ?_, hsp, ?_⟩
  · unfold flat
    rw [if_pos (by simpa using hl), hout]
  · have hlo : ∀ o ∈ out, o.length = N := by
      clear hout hf hl
      induction hsp with
      | nil => intro o ho; cases ho
      | cons h1 _ ih =>
        intro o ho
        rcases List.mem_cons.mp ho with rfl | ho
        · rw [h1.1, hV]
        · exact ih o ho
    clear hout hf hsp
    induction out with
    | nil => exact .nil
    | cons o out ih =>
      have h1 := hlo o List.mem_cons_self
      have h2 := ih fun o ho => hlo o (List.mem_cons_of_mem _ ho)
      have := Cells.cons o out _ h2
      rw [h1] at this
      simpa using this

/-- C94: plotting a mesh.  Every entity becomes one VTK cell, in order, whose nodes are those of the entity, each at its place. -/
theorem C94_mesh (wedge : Bool) (t : CellType) (ht : t ≠ .prism) (N : Nat) (P V : List Pt) (hv : VtkOrder t N P V) (hN : N ≤ 65536)
    (g : Geo) (tdim dim owned : Nat) (entities : Option (List Nat)) (x : List ℚ)
    (hok : EntityGeom.MeshOk g tdim dim x (entities.getD (List.range owned)))
    (hc : ∀ le, (g.closure dim le).length = N) (hw : ¬ (wedge = true ∧ dim = 2)) :
    ∃ top types rows, ofMesh wedge t g tdim dim N owned entities = .ok (top, types) ∧ Cells rows top ∧
      List.Forall₂ (fun e row => ∃ l, NodesIn g tdim dim e l ∧ SamePlaces P V l row) (entities.getD (List.range owned)) rows ∧
      types.length = (entities.getD (List.range owned)).length := by
  have hch : chosen owned entities = entities.getD (List.range owned) := by cases entities <;> rfl
  obtain ⟨es, hes⟩ : ∃ es, es = entities.getD (List.range owned) := ⟨_, rfl⟩
  rw [← hes] at hch hok ⊢
  obtain ⟨rows, hrows⟩ := mapM_option_ok (Submesh.entityNodes (Verif.EntityGeom.plain g) tdim dim) es fun e hee => by
    obtain ⟨l, ps, h1, _⟩ := entityNodes_some g tdim dim x es hok e hee
    exact ⟨l, h1⟩
  have hnodes : Verif.EntityGeom.nodes wedge g tdim dim es = .ok rows := by
    unfold Verif.EntityGeom.nodes Submesh.entitiesToGeometry
    rw [if_neg hw, hrows]
  have hf := (opt_mapM_forall _ _ _).mp hrows
  have hin : List.Forall₂ (fun e l => NodesIn g tdim dim e l) es rows := hf.imp fun e l h => entityNodes_in g tdim dim e l h
  have hlen : ∀ r ∈ rows, r.length = N := by
    clear hnodes hrows hf hok hch hes
    induction hin with
    | nil => intro r hr; cases hr
    | cons h1 _ ih =>
      intro r hr
      rcases List.mem_cons.mp hr with rfl | hr
      · obtain ⟨c, le, _, hl⟩ := h1
        rw [← hl.length_eq, hc]
      · exact ih r hr
  obtain ⟨q, hq, hflat⟩ := flat_ok t N P V hv hN
  obtain ⟨out, top, h1, h2, h3⟩ := hflat rows hlen
  refine ⟨top, List.replicate es.length (lagrangeType t), out, ?_, h3, ?_, by simp⟩
  · unfold ofMesh
    rw [if_neg ht, hch, hnodes]
    simp only [hq, h1, bind, Except.bind]
  · clear hnodes hrows hf hok hlen h1 h3 hes hch
    induction hin generalizing out with
    | nil => cases h2; exact .nil
    | cons k1 _ ih =>
      cases h2 with
      | cons h21 h22 => exact .cons ⟨_, k1, h21⟩ (ih _ h22)

/-- C94: plotting a space.  Every cell becomes one VTK cell whose nodes are the dofs of the cell, each at its place. -/
theorem C94_space (t : CellType) (d N : Nat) (P V : List Pt) (hv : VtkOrder t N P V) (hN : N ≤ 65536) (hd : d ≠ 0)
    (hk : d = 1 → t ≠ .prism ∧ t ≠ .pyramid ∧ t ≠ .point)
    (owned : Nat) (dofmap : List (List Nat)) (entities : Option (List Nat))
    (hrow : ∀ e ∈ entities.getD (List.range owned), ∃ l, dofmap[e]? = some l ∧ l.length = N) :
    ∃ top types rows, ofSpace true t d N owned dofmap entities = .ok (top, types) ∧ Cells rows top ∧
      List.Forall₂ (fun e row => ∃ l, dofmap[e]? = some l ∧ SamePlaces P V l row) (entities.getD (List.range owned)) rows ∧
      types.length = (entities.getD (List.range owned)).length := by
  have hch : chosen owned entities = entities.getD (List.range owned) := by cases entities <;> rfl
  obtain ⟨es, hes⟩ : ∃ es, es = entities.getD (List.range owned) := ⟨_, rfl⟩
  rw [← hes] at hch hrow ⊢
  obtain ⟨rows, hrows⟩ := mapM_option_ok (fun e => dofmap[e]?) es fun e hee => by
    obtain ⟨l, h1, _⟩ := hrow e hee
    exact ⟨l, h1⟩
  have hf := (opt_mapM_forall _ _ _).mp hrows
  have hlen : ∀ r ∈ rows, r.length = N := by
    clear hrows hch hes
    induction hf with
    | nil => intro r hr; cases hr
    | cons h1 _ ih =>
      intro r hr
      rcases List.mem_cons.mp hr with rfl | hr
      · obtain ⟨l, h2, h3⟩ := hrow _ List.mem_cons_self
        rw [h1] at h2
        obtain rfl := Option.some.inj h2
        exact h3
      · exact ih (fun e he => hrow e (List.mem_cons_of_mem _ he)) r hr
  obtain ⟨q, hq, hflat⟩ := flat_ok t N P V hv hN
  obtain ⟨out, top, h1, h2, h3⟩ := hflat rows hlen
  obtain ⟨k, hk⟩ : ∃ k, spaceType t d = .ok k := by
    unfold spaceType
    by_cases h1 : d = 1
    · obtain ⟨k1, k2, k3⟩ := hk h1
      rw [if_pos h1]
      cases t <;> first | exact ⟨_, rfl⟩ | contradiction
    · rw [if_neg h1]
      exact ⟨_, rfl⟩
  refine ⟨top, List.replicate es.length k, out, ?_, h3, ?_, by simp⟩
  · unfold ofSpace
    rw [if_neg (by decide), if_neg hd, hch]
    simp only [hq, hk, hrows, h1, bind, Except.bind]
  · clear hrows hlen h1 h3 hes hch hrow
    induction hf generalizing out with
    | nil => cases h2; exact .nil
    | cons k1 _ ih =>
      cases h2 with
      | cons h21 h22 => exact .cons ⟨_, k1, h21⟩ (ih _ h22)

/-- Shapes whose number of nodes is that of a Lagrange cell of some degree. -/
theorem lagrange_cell (t : CellType) (N : Nat) (P V : List Pt) (hv : VtkOrder t N P V) (hp : t = .pyramid → N = 5) (hq : t = .prism → N ≠ 15)
    (hh : t = .hexahedron → N ≠ 20) : VtkCell (lagrangeType t) t N := by
  cases hv with
  | point => exact .vertex
  | interval n h => exact .lagrangeCurve n h
  | triangle n h => exact .lagrangeTriangle n h
  | tetrahedron n h => exact .lagrangeTetra n h
  | quadrilateral n h => exact .lagrangeQuad n h
  | hexahedron n h => exact .lagrangeHexahedron n h
  | hexahedron20 => exact absurd rfl (hh rfl)
  | prism _ h =>
    rcases h with rfl | rfl | rfl
    · exact .lagrangeWedge 1 (by omega)
    · exact absurd rfl (hq rfl)
    · exact .lagrangeWedge 2 (by omega)
  | pyramid _ h =>
    obtain rfl := hp rfl
    exact .pyramid

/-- C94: the types returned are types of VTK for this shape and number of nodes. -/
theorem C94_types (t : CellType) (N : Nat) (P V : List Pt) (hv : VtkOrder t N P V) (hp : t = .pyramid → N = 5) (hq : t = .prism → N ≠ 15)
    (hh : t = .hexahedron → N ≠ 20) :
    (∀ wedge g tdim dim owned entities top types, ofMesh wedge t g tdim dim N owned entities = .ok (top, types) → ∀ k ∈ types, VtkCell k t N) ∧
    ∀ lagrange d owned dofmap entities top types, ((d = 1) → N = match t with
        | .point => 1 | .interval => 2 | .triangle => 3 | .tetrahedron => 4 | .quadrilateral => 4 | .hexahedron => 8 | .prism => 6 | .pyramid => 5) →
      ofSpace lagrange t d N owned dofmap entities = .ok (top, types) → ∀ k ∈ types, VtkCell k t N := by
  have hl := lagrange_cell t N P V hv hp hq hh
  refine ⟨?_, ?_⟩
  · intro wedge g tdim dim owned entities top types h k hk
    unfold ofMesh at h
    by_cases ht : t = .prism
    · rw [if_pos ht] at h; cases h
    · rw [if_neg ht] at h
      cases hn : Verif.EntityGeom.nodes wedge g tdim dim (chosen owned entities) with
      | error e => rw [hn] at h; cases h
      | ok rows =>
        rw [hn] at h
        cases ho : order t N with
        | error e => simp only [ho, bind, Except.bind] at h; cases h
        | ok q =>
          cases hf : flat N q rows with
          | error e => simp only [ho, hf, bind, Except.bind] at h; cases h
          | ok top' =>
            simp only [ho, hf, bind, Except.bind] at h
            cases h
            rw [(List.mem_replicate.mp hk).2]
            exact hl
  · intro lagrange d owned dofmap entities top types hd h k hk
    unfold ofSpace at h
    cases lagrange with
    | false => rw [if_pos rfl] at h; cases h
    | true =>
      rw [if_neg (by decide)] at h
      by_cases hd0 : d = 0
      · rw [if_pos hd0] at h; cases h
      · rw [if_neg hd0] at h
        cases ho : order t N with
        | error e => simp only [ho, bind, Except.bind] at h; cases h
        | ok q =>
          cases hs : spaceType t d with
          | error e => simp only [ho, hs, bind, Except.bind] at h; cases h
          | ok k' =>
            have hk' : VtkCell k' t N := by
              unfold spaceType at hs
              by_cases h1 : d = 1
              · rw [if_pos h1] at hs
                have := hd h1
                cases t <;> simp only [firstOrder] at hs <;> first | cases hs | skip
                · subst this; exact .line
                · subst this; exact .triangle
                · subst this; exact .quad
                · subst this; exact .tetra
                · subst this; exact .hexahedron
              · rw [if_neg h1] at hs
                cases hs
                exact hl
            cases hm : (chosen owned entities).mapM fun e => dofmap[e]? with
            | none => simp only [ho, hs, hm, bind, Except.bind] at h; cases h
            | some rows =>
              cases hf : flat N q rows with
              | error e => simp only [ho, hs, hm, hf, bind, Except.bind] at h; cases h
              | ok top' =>
                simp only [ho, hs, hm, hf, bind, Except.bind] at h
                cases h
                rw [(List.mem_replicate.mp hk).2]
                exact hk'

/-- C94: what is refused. -/
theorem C94_refused (wedge : Bool) (t : CellType) (g : Geo) (tdim dim n owned d : Nat) (dofmap : List (List Nat)) (entities : Option (List Nat)) :
    ofMesh wedge .prism g tdim dim n owned entities = .error .prism ∧
    (t ≠ .prism → ofMesh true t g tdim 2 n owned entities = .error .geometry) ∧
    ofSpace false t d n owned dofmap entities = .error .family ∧ ofSpace true t 0 n owned dofmap entities = .error .constants := by
  refine ⟨rfl, ?_, rfl, rfl⟩
  intro ht
  unfold ofMesh
  rw [if_neg ht]
  rfl

/-! ## Refutations and examples -/

/-- The code: pyramids of degree two get the type of pyramids of degree one, which have five nodes. -/
theorem C94_refuted_pyramid : ∃ g top types, ofMesh true .pyramid g 3 3 14 1 none = .ok (top, types) ∧ 14 ∈ types ∧ top.length = 15 ∧
    ¬ VtkCell 14 .pyramid 14 := by
  refine ⟨⟨fun _ => List.range 14, fun _ _ => List.range 14, fun _ => [], fun _ => [], fun _ _ l => l⟩, _, _, rfl, ?_, ?_, ?_⟩
  · decide +kernel
  · decide +kernel
  · intro h; cases h

/-- The code: Lagrange spaces of degree one on prisms and pyramids are refused with a `KeyError`, those of degree two are not. -/
theorem C94_refuted_first : ∀ t, t = .prism ∨ t = .pyramid → ∃ n n2 rows rows2 out,
    ofSpace true t 1 n 1 rows none = .error .key ∧ ofSpace true t 2 n2 1 rows2 none = .ok out := by
  rintro t (rfl | rfl)
  · exact ⟨6, 18, [List.range 6], [List.range 18], ([18, 0, 1, 2, 3, 4, 5, 6, 9, 7, 12, 14, 13, 8, 10, 11, 15, 17, 16], [73]), by decide +kernel, by decide +kernel⟩
  · exact ⟨5, 14, [List.range 5], [List.range 14], ([14, 0, 1, 3, 2, 4, 5, 8, 10, 6, 7, 9, 12, 11, 13], [14]), by decide +kernel, by decide +kernel⟩

/-- Two quadrilaterals of degree one. -/
example : ofSpace true .quadrilateral 1 4 2 [[10, 11, 12, 13], [11, 14, 13, 15]] none =
    .ok ([4, 10, 11, 13, 12, 4, 11, 14, 15, 13], [9, 9]) := by decide +kernel

/-- A triangle of degree two. -/
example : ofSpace true .triangle 2 6 2 [[10, 11, 12, 13, 14, 15], [20, 21, 22, 23, 24, 25]] (some [1]) = .ok ([6, 20, 21, 22, 25, 23, 24], [69]) := by
  decide +kernel

/-- Edges of the triangle of `C93ex`. -/
example : ofMesh false .interval C93ex.tri 2 1 2 3 (some [2, 0]) = .ok ([2, 0, 1, 2, 1, 2], [68, 68]) := by decide +kernel

example : argsort [2, 0, 1] = [1, 2, 0] := by decide +kernel

end Verif.Props
