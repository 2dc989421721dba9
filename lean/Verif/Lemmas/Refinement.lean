import Verif.Lemmas.RefineCell
import Verif.Lemmas.LongEdge
import Verif.Lemmas.NewVertices
import Verif.Lemmas.SubMap
import Verif.Props.C46_Vector
import Verif.Props.C52_Subdivision
import Verif.Props.C53_Marks
/-! The refinement of a distributed mesh. -/
namespace Verif.Refine
open Verif.World Verif.Spec Verif.Spec.SimplexMesh Verif.Spec.Subdiv Verif.Spec.Conform Verif.Spec.Marks

variable {K : Type} [LinearOrder K] [Zero K] {d : Nat} {we wv : World} {ends : Nat → Finset Nat} {L : Finset Nat → K} {m : Nat → RankMesh K}

theorem gl_some (wv : World) (r v : Nat) (h : v < wv.size r + (wv.ghosts r).length) : globalOf wv r v = some (gl wv r v) := by
  obtain ⟨g, hg⟩ := Props.globalOf_some wv r v h
  unfold gl; rw [hg]; rfl

theorem gidx_eq (wv : World) (r v : Nat) : gidx wv r v = gl wv r v := by
  unfold gidx gl; rw [SubMap.localToGlobal_map]

theorem getD_mem' {α : Type} (l : List α) (i : Nat) (z : α) (h : i < l.length) : l.getD i z ∈ l := by
  rw [List.getD_eq_getElem?_getD, List.getElem?_eq_getElem h]; exact List.getElem_mem h

theorem getD_inj_of_nodup (l : List Nat) (hn : l.Nodup) (i j : Nat) (hi : i < l.length) (hj : j < l.length) (h : l.getD i 0 = l.getD j 0) : i = j := by
  rw [List.getD_eq_getElem?_getD, List.getD_eq_getElem?_getD, List.getElem?_eq_getElem hi, List.getElem?_eq_getElem hj] at h
  exact (List.Nodup.getElem_inj_iff hn).mp h

theorem gv_inj (hv : wv.Valid) (r : Nat) (hr : r < wv.P) (vs : List Nat) (hn : vs.Nodup)
    (hl : ∀ v ∈ vs, v < wv.size r + (wv.ghosts r).length) (i j : Nat) (hi : i < vs.length) (hj : j < vs.length)
    (h : gv wv r vs i = gv wv r vs j) : i = j := by
  unfold gv at h
  refine getD_inj_of_nodup vs hn i j hi hj ?_
  have h1 := gl_some wv r _ (hl _ (getD_mem' vs i 0 hi))
  have h2 := gl_some wv r _ (hl _ (getD_mem' vs j 0 hj))
  rw [h] at h1
  exact SubMap.globalOf_inj wv hv r hr _ _ _ h1 h2

theorem image_gv (r : Nat) (vs : List Nat) (n : Nat) (h : vs.length = n) :
    vs.toFinset.image (gl wv r) = (List.range n).toFinset.image (gv wv r vs) := by
  ext x
  simp only [Finset.mem_image, List.mem_toFinset, List.mem_range, gv]
  constructor
  · rintro ⟨v, hv, rfl⟩
    obtain ⟨i, hi, rfl⟩ := List.getElem_of_mem hv
    exact ⟨i, by omega, by rw [List.getD_eq_getElem?_getD, List.getElem?_eq_getElem hi]; rfl⟩
  · rintro ⟨i, hi, rfl⟩
    exact ⟨_, getD_mem' vs i 0 (by omega), rfl⟩

/-- Vertices `a`, `b` of the reference cell are joined by an edge. -/
theorem pair_edge (hd : d = 2 ∨ d = 3) (a b : Nat) (ha : a < d + 1) (hb : b < d + 1) (h : a ≠ b) :
    ∃ j < 3 * d - 3, (ptEnds d (d + 1 + j)).toFinset = {a, b} := by
  have h2 : ∀ a < 3, ∀ b < 3, a ≠ b → ∃ j < 3, (ptEnds 2 (3 + j)).toFinset = {a, b} := by decide
  have h3 : ∀ a < 4, ∀ b < 4, a ≠ b → ∃ j < 6, (ptEnds 3 (4 + j)).toFinset = {a, b} := by decide
  rcases hd with rfl | rfl
  · exact h2 a ha b hb h
  · exact h3 a ha b hb h

/-- Rows of one cell. -/
structure IsCell (m : Nat → RankMesh K) (r c : Nat) (vs es fs : List Nat) : Prop where
  v : (m r).c2v[c]? = some vs
  e : (m r).c2e[c]? = some es
  f : (m r).c2f[c]? = some fs

theorem cell_inj (h : MeshOk d we wv ends L m) (r : Nat) (hr : r < we.P) (vs : List Nat) (hvs : vs ∈ (m r).c2v) (i j : Nat) (hi : i < d + 1)
    (hj : j < d + 1) (he : gv wv r vs i = gv wv r vs j) : i = j := by
  obtain ⟨h1, h2, h3⟩ := h.verts r hr vs hvs
  exact gv_inj h.verts_valid r (by rw [h.ranks]; exact hr) vs h2 h3 i j (by omega) (by omega) he

theorem face_inj (h : MeshOk d we wv ends L m) (r : Nat) (hr : r < we.P) (f : List Nat × List Nat) (hf : f ∈ (m r).faces) (i j : Nat) (hi : i < 3)
    (hj : j < 3) (he : gv wv r f.2 i = gv wv r f.2 j) : i = j := by
  obtain ⟨_, h1, h2, h3, _⟩ := h.face r hr f hf
  exact gv_inj h.verts_valid r (by rw [h.ranks]; exact hr) f.2 h2 h3 i j (by omega) (by omega) he

theorem edge_total (h : MeshOk d we wv ends L m) (r : Nat) (hr : r < we.P) (e g : Nat) (hg : globalOf we r e = some g) : g < we.r0 we.P :=
  Props.globalOf_lt_total we h.edges_valid r hr e g hg

/-- An edge that joins two vertices of a cell is one of its edges. -/
theorem edge_of_cell (h : MeshOk d we wv ends L m) (r : Nat) (hr : r < we.P) (c : Nat) (vs es fs : List Nat) (hc : IsCell m r c vs es fs)
    (e g : Nat) (hg : globalOf we r e = some g) (hsub : ends g ⊆ (List.range (d + 1)).toFinset.image (gv wv r vs)) :
    e ∈ es ∧ es.idxOf e < 3 * d - 3 ∧ ends g = (ptEnds d (d + 1 + es.idxOf e)).toFinset.image (gv wv r vs) := by
  obtain ⟨hel, hed⟩ := h.edges r hr c vs es hc.v hc.e
  obtain ⟨x, y, hxy, hends⟩ := Finset.card_eq_two.mp (h.ends_two g (edge_total h r hr e g hg))
  rw [hends] at hsub
  obtain ⟨a, ha, hax⟩ := Finset.mem_image.mp (hsub (by simp : x ∈ ({x, y} : Finset Nat)))
  obtain ⟨b, hb, hby⟩ := Finset.mem_image.mp (hsub (by simp : y ∈ ({x, y} : Finset Nat)))
  have ha := List.mem_range.mp (List.mem_toFinset.mp ha)
  have hb := List.mem_range.mp (List.mem_toFinset.mp hb)
  have hab : a ≠ b := fun hab => hxy (by rw [← hax, ← hby, hab])
  obtain ⟨j, hj, hpair⟩ := pair_edge h.dim a b ha hb hab
  obtain ⟨g', hg', hends'⟩ := hed j hj
  have hgg : g' = g := by
    refine h.ends_inj g' (edge_total h r hr _ g' hg') g (edge_total h r hr e g hg) ?_
    rw [hends', hpair, hends, ← hax, ← hby]; simp
  subst hgg
  have hee : es.getD j 0 = e := SubMap.globalOf_inj we h.edges_valid r hr _ _ _ hg' hg
  have hmem : e ∈ es := by rw [← hee]; exact getD_mem' es j 0 (by omega)
  have hidx : es.idxOf e < es.length := List.idxOf_lt_length_of_mem hmem
  refine ⟨hmem, by omega, ?_⟩
  obtain ⟨g2, hg2, hends2⟩ := hed (es.idxOf e) (by omega)
  have : es.getD (es.idxOf e) 0 = e := by
    rw [List.getD_eq_getElem?_getD, List.getElem?_idxOf hmem]; rfl
  rw [this, hg] at hg2
  cases hg2
  exact hends2

theorem opp_sub (h : MeshOk d we wv ends L m) (r : Nat) (hr : r < we.P) (f : List Nat × List Nat) (hf : f ∈ (m r).faces) (i : Nat) :
    ({gv wv r f.2 ((i + 1) % 3), gv wv r f.2 ((i + 2) % 3)} : Finset Nat) ⊆ f.2.toFinset.image (gl wv r) := by
  obtain ⟨_, h1, h2, h3, _⟩ := h.face r hr f hf
  intro x hx
  simp only [Finset.mem_insert, Finset.mem_singleton] at hx
  rcases hx with rfl | rfl
  · exact Finset.mem_image_of_mem _ (List.mem_toFinset.mpr (getD_mem' f.2 _ 0 (by omega)))
  · exact Finset.mem_image_of_mem _ (List.mem_toFinset.mpr (getD_mem' f.2 _ 0 (by omega)))

theorem faceVerts_sub (hd : d = 2 ∨ d = 3) (k : Nat) : faceVerts d k ⊆ (List.range (d + 1)).toFinset := by
  unfold faceVerts
  rcases hd with rfl | rfl
  · rw [if_pos rfl]
  · rw [if_neg (by omega)]; exact Finset.erase_subset _ _

/-- The longest edge of a face in 2D and 3D. -/
theorem face_long (h : MeshOk d we wv ends L m) (r : Nat) (hr : r < we.P) (f : List Nat × List Nat) (hf : f ∈ (m r).faces) :
    ∃ i < 3, faceLong d (m r).elen (gidx wv r) f.1 f.2 = f.1.getD i 0 ∧
      ∃ g, globalOf we r (f.1.getD i 0) = some g ∧ ends g = {gv wv r f.2 ((i + 1) % 3), gv wv r f.2 ((i + 2) % 3)} := by
  obtain ⟨i, hi, h1, _⟩ := long_index d (m r).elen (gidx wv r) f.1 f.2 (h.nonneg r)
  obtain ⟨_, _, _, _, h5⟩ := h.face r hr f hf
  exact ⟨i, hi, h1, h5 i hi⟩

/-- A two-element subset of a face is one of its edges. -/
theorem face_pair (h : MeshOk d we wv ends L m) (r : Nat) (hr : r < we.P) (f : List Nat × List Nat) (hf : f ∈ (m r).faces) (s : Finset Nat)
    (hs : s ⊆ f.2.toFinset.image (gl wv r)) (h2 : s.card = 2) :
    ∃ j < 3, s = {gv wv r f.2 ((j + 1) % 3), gv wv r f.2 ((j + 2) % 3)} := by
  obtain ⟨_, hl, _, _, _⟩ := h.face r hr f hf
  rw [image_gv r f.2 3 hl] at hs
  obtain ⟨x, y, hxy, rfl⟩ := Finset.card_eq_two.mp h2
  obtain ⟨a, ha, hax⟩ := Finset.mem_image.mp (hs (by simp : x ∈ ({x, y} : Finset Nat)))
  obtain ⟨b, hb, hby⟩ := Finset.mem_image.mp (hs (by simp : y ∈ ({x, y} : Finset Nat)))
  subst hax hby
  have ha := List.mem_range.mp (List.mem_toFinset.mp ha)
  have hb := List.mem_range.mp (List.mem_toFinset.mp hb)
  have hab : a ≠ b := fun hab => hxy (by rw [hab])
  have key : ∀ a < 3, ∀ b < 3, a ≠ b → ∃ j < 3, (a = (j + 1) % 3 ∧ b = (j + 2) % 3) ∨ (a = (j + 2) % 3 ∧ b = (j + 1) % 3) := by decide
  obtain ⟨j, hj, ⟨rfl, rfl⟩ | ⟨rfl, rfl⟩⟩ := key a ha b hb hab
  · exact ⟨j, hj, rfl⟩
  · exact ⟨j, hj, Finset.pair_comm _ _⟩

/-! ## The rule -/

open Classical in
/-- Marks and longest edges by vertex sets. -/
noncomputable def ruleOf (we : World) (ends : Nat → Finset Nat) (M : Nat → Prop) (lng : Finset Nat → Finset Nat) : Rule Nat :=
  ⟨fun s => decide (∃ g < we.r0 we.P, M g ∧ ends g = s), lng⟩

theorem mark_ends (h : MeshOk d we wv ends L m) (M : Nat → Prop) (lng : Finset Nat → Finset Nat) (g : Nat) (hg : g < we.r0 we.P) :
    (ruleOf we ends M lng).mark (ends g) = true ↔ M g := by
  unfold ruleOf
  simp only [decide_eq_true_eq]
  constructor
  · rintro ⟨g', h1, h2, h3⟩
    rw [← h.ends_inj g' h1 g hg h3]; exact h2
  · intro hM
    exact ⟨g, hg, hM, rfl⟩

/-- `lng` gives the longest edges that the code finds for the faces of the owned cells. -/
def LongSpec (d : Nat) (we wv : World) (ends : Nat → Finset Nat) (m : Nat → RankMesh K) (lng : Finset Nat → Finset Nat) : Prop :=
  ∀ r < we.P, ∀ (c : Nat) (vs es fs : List Nat), IsCell m r c vs es fs → ∀ k < numFaces d, ∀ f, (m r).faces[fs.getD k 0]? = some f →
    ∃ g, globalOf we r (faceLong d (m r).elen (gidx wv r) f.1 f.2) = some g ∧ lng ((faceVerts d k).image (gv wv r vs)) = ends g

theorem vs_mem {r c : Nat} {vs es fs : List Nat} (hc : IsCell m r c vs es fs) : vs ∈ (m r).c2v := List.mem_of_getElem? hc.v

/-- Marks are closed. -/
theorem closed_of (h : MeshOk d we wv ends L m) (edges : Nat → Option (List Nat)) (lng : Finset Nat → Finset Nat)
    (hl : LongSpec d we wv ends m lng) (r : Nat) (hr : r < we.P) (c : Nat) (vs es fs : List Nat) (hc : IsCell m r c vs es fs) (k : Nat) (hk : k < numFaces d) :
    Closed (ruleOf we ends (Must we (ruleFaces d wv m) edges) lng) ((faceVerts d k).image (gv wv r vs)) := by
  obtain ⟨_, hcf⟩ := h.cell_face r hr c vs fs hc.v hc.f
  obtain ⟨f, hf, hset⟩ := hcf k hk
  have hfm : f ∈ (m r).faces := List.mem_of_getElem? hf
  obtain ⟨g, hg, hlg⟩ := hl r hr c vs es fs hc k hk f hf
  intro s hs h2 hm
  show (ruleOf we ends (Must we (ruleFaces d wv m) edges) lng).mark (lng ((faceVerts d k).image (gv wv r vs))) = true
  rw [hlg, mark_ends h _ _ g (edge_total h r hr _ g hg)]
  rw [← hset] at hs
  obtain ⟨j, hj, rfl⟩ := face_pair h r hr f hfm s hs h2
  obtain ⟨hfl, _, _, _, h5⟩ := h.face r hr f hfm
  obtain ⟨g', hg', he'⟩ := h5 j hj
  rw [← he', mark_ends h _ _ g' (edge_total h r hr _ g' hg')] at hm
  refine Must.long r (f.1, faceLong d (m r).elen (gidx wv r) f.1 f.2) (f.1.getD j 0) g' g hr ?_ (getD_mem' f.1 j 0 (by omega)) hg' hm hg
  exact List.mem_map.mpr ⟨f, hfm, rfl⟩

/-! ### Longest edges in 3D -/

/-- The largest edge of a face. -/
def MaxEdge (L : Finset Nat → K) (F e : Finset Nat) : Prop := e ⊆ F ∧ e.card = 2 ∧ ∀ e' ⊆ F, e'.card = 2 → e' ≠ e → edgeKey L e' < edgeKey L e

open Classical in
/-- A choice of it. -/
noncomputable def maxEdge (L : Finset Nat → K) (F : Finset Nat) : Finset Nat := if h : ∃ e, MaxEdge L F e then h.choose else ∅

omit [Zero K] in
theorem maxEdge_eq (L : Finset Nat → K) (F e : Finset Nat) (h : MaxEdge L F e) : maxEdge L F = e := by
  have hex : ∃ e, MaxEdge L F e := ⟨e, h⟩
  have hs : maxEdge L F = hex.choose := by unfold maxEdge; rw [dif_pos hex]
  have hc := hex.choose_spec
  rw [hs]
  by_contra hne
  exact lt_irrefl _ ((h.2.2 _ hc.1 hc.2.1 hne).trans (hc.2.2 _ h.1 h.2.1 (Ne.symm hne)))

theorem max_of_face (h : MeshOk 3 we wv ends L m) (r : Nat) (hr : r < we.P) (f : List Nat × List Nat) (hf : f ∈ (m r).faces) :
    ∃ g, globalOf we r (faceLong 3 (m r).elen (gidx wv r) f.1 f.2) = some g ∧ MaxEdge L (f.2.toFinset.image (gl wv r)) (ends g) := by
  obtain ⟨hfl, hvl, hn, hlt, h5⟩ := h.face r hr f hf
  have hg0 : ∀ i, gidx wv r (f.2.getD i 0) = gv wv r f.2 i := fun i => gidx_eq wv r _
  obtain ⟨i, hi, hlong, hlt⟩ := long_largest (m r).elen (gidx wv r) f.1 f.2 (h.nonneg r) L
    (fun i hi j hj he => by rw [hg0, hg0] at he; exact face_inj h r hr f hf i j hi hj he)
    (fun i hi => by
      obtain ⟨g, hg, he⟩ := h5 i hi
      rw [h.length r hr _ g hg, he]
      unfold oppEdge
      simp only [hg0])
  obtain ⟨g, hg, he⟩ := h5 i hi
  refine ⟨g, by rw [hlong]; exact hg, ?_, h.ends_two g (edge_total h r hr _ g hg), ?_⟩
  · rw [he]; exact opp_sub h r hr f hf i
  · intro e' hs h2 hne
    obtain ⟨j, hj, rfl⟩ := face_pair h r hr f hf e' hs h2
    have hji : j ≠ i := by rintro rfl; exact hne he.symm
    have := hlt j hj hji
    unfold oppEdge at this
    simp only [hg0] at this
    rw [he]; exact this

theorem long3 (h : MeshOk 3 we wv ends L m) : LongSpec 3 we wv ends m (maxEdge L) := by
  intro r hr c vs es fs hc k hk f hf
  have hfm : f ∈ (m r).faces := List.mem_of_getElem? hf
  obtain ⟨g, hg, hmax⟩ := max_of_face h r hr f hfm
  obtain ⟨_, hcf⟩ := h.cell_face r hr c vs fs hc.v hc.f
  obtain ⟨f', hf', hset⟩ := hcf k hk
  rw [hf] at hf'; cases hf'
  exact ⟨g, hg, by rw [← hset]; exact maxEdge_eq L _ _ hmax⟩

theorem longest3 (h : MeshOk 3 we wv ends L m) (M : Nat → Prop) (r : Nat) (hr : r < we.P) (c : Nat) (vs es fs : List Nat) (hc : IsCell m r c vs es fs)
    (k : Nat) (hk : k < 4) : Longest (ruleOf we ends M (maxEdge L)) (edgeKey L) (tetFacet (gv wv r vs) k) := by
  obtain ⟨_, hcf⟩ := h.cell_face r hr c vs fs hc.v hc.f
  obtain ⟨f, hf, hset⟩ := hcf k hk
  obtain ⟨g, hg, hmax⟩ := max_of_face h r hr f (List.mem_of_getElem? hf)
  have hF : tetFacet (gv wv r vs) k = f.2.toFinset.image (gl wv r) := hset.symm
  have hlong : (ruleOf we ends M (maxEdge L)).long (tetFacet (gv wv r vs) k) = ends g := by
    show maxEdge L _ = _
    rw [hF]; exact maxEdge_eq L _ _ hmax
  unfold Longest
  rw [hlong, hF]
  exact hmax

/-! ### Longest edges in 2D -/

/-- Cells with the same vertices are the same. -/
theorem cell_unique (h : MeshOk d we wv ends L m) (r : Nat) (hr : r < we.P) (r' : Nat) (hr' : r' < we.P) (c c' : Nat) (vs vs' : List Nat)
    (hc : (m r).c2v[c]? = some vs) (hc' : (m r').c2v[c']? = some vs') (he : vs.toFinset.image (gl wv r) = vs'.toFinset.image (gl wv r')) :
    r = r' ∧ c = c' := by
  have hn : ((List.range we.P).flatMap fun r => cellSets wv (m r) r).Nodup := h.distinct
  obtain ⟨h1, h2⟩ := List.nodup_flatMap.mp hn
  have m1 : vs.toFinset.image (gl wv r) ∈ cellSets wv (m r) r := List.mem_map.mpr ⟨vs, List.mem_of_getElem? hc, rfl⟩
  have m2 : vs.toFinset.image (gl wv r) ∈ cellSets wv (m r') r' := by
    rw [he]; exact List.mem_map.mpr ⟨vs', List.mem_of_getElem? hc', rfl⟩
  have hrr : r = r' := by
    have h2' := List.pairwise_iff_getElem.mp h2
    rcases Nat.lt_trichotomy r r' with hlt | heq | hgt
    · have := h2' r r' (by simpa using hr) (by simpa using hr') hlt
      simp only [List.getElem_range, Function.onFun] at this
      exact absurd m2 (this m1)
    · exact heq
    · have := h2' r' r (by simpa using hr') (by simpa using hr) hgt
      simp only [List.getElem_range, Function.onFun] at this
      exact absurd m1 (this m2)
  subst hrr
  refine ⟨rfl, ?_⟩
  have hnd := h1 r (List.mem_range.mpr hr)
  obtain ⟨hcl, hcv⟩ := List.getElem?_eq_some_iff.mp hc
  obtain ⟨hcl', hcv'⟩ := List.getElem?_eq_some_iff.mp hc'
  have hcl2 : c < (cellSets wv (m r) r).length := by unfold cellSets; simpa using hcl
  have hcl2' : c' < (cellSets wv (m r) r).length := by unfold cellSets; simpa using hcl'
  refine (List.Nodup.getElem_inj_iff hnd (hi := hcl2) (hj := hcl2')).mp ?_
  simp only [cellSets, List.getElem_map, hcv, hcv']
  exact he

theorem long2 (h : MeshOk 2 we wv ends L m) : ∃ lng, LongSpec 2 we wv ends m lng := by
  have key : ∀ F : Finset Nat, ∃ s : Finset Nat, ∀ r < we.P, ∀ (c : Nat) (vs es fs : List Nat), IsCell m r c vs es fs → ∀ f,
      (m r).faces[fs.getD 0 0]? = some f → (faceVerts 2 0).image (gv wv r vs) = F →
      ∃ g, globalOf we r (faceLong 2 (m r).elen (gidx wv r) f.1 f.2) = some g ∧ s = ends g := by
    intro F
    by_cases hex : ∃ r < we.P, ∃ (c : Nat) (vs es fs : List Nat), IsCell m r c vs es fs ∧ (faceVerts 2 0).image (gv wv r vs) = F
    · obtain ⟨r, hr, c, vs, es, fs, hc, hF⟩ := hex
      obtain ⟨_, hcf⟩ := h.cell_face r hr c vs fs hc.v hc.f
      obtain ⟨f, hf, _⟩ := hcf 0 (by unfold numFaces; simp)
      obtain ⟨i, hi, h1, g, hg, _⟩ := face_long h r hr f (List.mem_of_getElem? hf)
      refine ⟨ends g, ?_⟩
      intro r' hr' c' vs' es' fs' hc' f' hf' hF'
      have hset : vs.toFinset.image (gl wv r) = vs'.toFinset.image (gl wv r') := by
        rw [image_gv r vs 3 (h.verts r hr vs (vs_mem hc)).1, image_gv r' vs' 3 (h.verts r' hr' vs' (vs_mem hc')).1]
        exact hF.trans hF'.symm
      obtain ⟨rfl, rfl⟩ := cell_unique h r hr r' hr' c c' vs vs' hc.v hc'.v hset
      have hfs : fs = fs' := by have := hc.f.symm.trans hc'.f; simpa using this
      subst hfs
      rw [hf] at hf'; cases hf'
      exact ⟨g, by rw [h1]; exact hg, rfl⟩
    · exact ⟨∅, fun r hr c vs es fs hc f _ hF => absurd ⟨r, hr, c, vs, es, fs, hc, hF⟩ hex⟩
  choose lng hlng using key
  refine ⟨lng, ?_⟩
  intro r hr c vs es fs hc k hk f hf
  have hk0 : k = 0 := by unfold numFaces at hk; simp at hk; omega
  subst hk0
  exact hlng _ r hr c vs es fs hc f hf rfl

/-- In 2D and 3D the longest edge of face `k` of a cell in the numbering of the cell. -/
theorem cell_long (h : MeshOk d we wv ends L m) (lng : Finset Nat → Finset Nat) (hl : LongSpec d we wv ends m lng) (r : Nat) (hr : r < we.P)
    (c : Nat) (vs es fs : List Nat) (hc : IsCell m r c vs es fs) (k : Nat) (hk : k < numFaces d) :
    ∃ j < 3 * d - 3, ((longEdges d wv r (m r))[fs.getD k 0]?).map (cellLocal es) = some j ∧
      lng ((faceVerts d k).image (gv wv r vs)) = (ptEnds d (d + 1 + j)).toFinset.image (gv wv r vs) ∧
      lng ((faceVerts d k).image (gv wv r vs)) ⊆ (faceVerts d k).image (gv wv r vs) ∧
      (lng ((faceVerts d k).image (gv wv r vs))).card = 2 := by
  obtain ⟨_, hcf⟩ := h.cell_face r hr c vs fs hc.v hc.f
  obtain ⟨f, hf, hset⟩ := hcf k hk
  have hfm : f ∈ (m r).faces := List.mem_of_getElem? hf
  obtain ⟨i, hi, h1, g, hg, he⟩ := face_long h r hr f hfm
  obtain ⟨g', hg', hlg⟩ := hl r hr c vs es fs hc k hk f hf
  rw [h1, hg] at hg'; cases hg'
  have hsub : ends g ⊆ (faceVerts d k).image (gv wv r vs) := by
    rw [he, ← hset]; exact opp_sub h r hr f hfm i
  obtain ⟨h2, h3, h4⟩ := edge_of_cell h r hr c vs es fs hc _ g hg (hsub.trans (Finset.image_subset_image (faceVerts_sub h.dim k)))
  refine ⟨es.idxOf (f.1.getD i 0), h3, ?_, by rw [hlg, h4], by rw [hlg]; exact hsub, by rw [hlg]; exact h.ends_two g (edge_total h r hr _ g hg)⟩
  unfold longEdges
  rw [List.getElem?_map, hf]
  simp only [Option.map_some, h1]
  unfold cellLocal
  rw [if_pos h2]

end Verif.Refine
