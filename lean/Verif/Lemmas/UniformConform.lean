import Verif.Spec.MixedMesh
import Verif.Model.UniformRefine
import Mathlib.Data.Finset.Card
import Mathlib.Data.List.Count
import Mathlib.Data.List.GetD
/-! Sides of the new cells of uniform refinement. -/
namespace Verif.Uniform
open Verif.Spec.RefCell Verif.Spec.Mixed
open Verif.Connectivity (CellType)

/-- Sides of the new cells `tab` of the reference cell; points are sets of vertices. -/
def sidesOf (t : CellType) (tab : List (List Nat)) : List (Finset (Finset Nat)) :=
  tab.flatMap fun l => (facets t).map fun f => (f.map fun i => ((pts t).getD (l.getD i 0) []).toFinset).toFinset

def span (s : Finset (Finset Nat)) : Finset Nat := s.biUnion id

/-- Parts of a facet with vertices `F` and edges `E`. -/
def pieces (F : Finset Nat) (E : Finset (Finset Nat)) : Finset (Finset (Finset Nat)) :=
  (F.image fun a => insert {a} (E.filter fun e => a ∈ e) ∪ if F.card = 4 then {F} else ∅) ∪ if F.card = 3 then {E} else ∅

def localEdges (t : CellType) : Finset (Finset Nat) := ((edges t).map List.toFinset).toFinset

abbrev LocalOk (t : CellType) (tab : List (List Nat)) : Prop :=
  (∀ s ∈ sidesOf t tab, (span s = Finset.range (nverts t) ∧ (sidesOf t tab).count s = 2) ∨
    ∃ f ∈ facets t, span s = f.toFinset ∧ s ∈ pieces f.toFinset ((localEdges t).filter (· ⊆ f.toFinset))) ∧
  (∀ f ∈ facets t, ∀ s ∈ pieces f.toFinset ((localEdges t).filter (· ⊆ f.toFinset)), (sidesOf t tab).count s = 1)


theorem triangle_local : LocalOk .triangle ((table .triangle).getD []) := by decide +kernel
theorem quadrilateral_local : LocalOk .quadrilateral ((table .quadrilateral).getD []) := by decide +kernel
theorem tetrahedron_local : LocalOk .tetrahedron ((table .tetrahedron).getD []) := by decide +kernel
theorem prism_local : LocalOk .prism ((table .prism).getD []) := by decide +kernel
theorem hexahedron_local : LocalOk .hexahedron ((table .hexahedron).getD []) := by decide +kernel

/-- Cell types that are refined into cells of the same type. -/
def plain : List CellType := [.triangle, .quadrilateral, .tetrahedron, .prism, .hexahedron]

/-- New cells of a plain cell. -/
def kids (t : CellType) : List (List Nat) := (table t).getD []

theorem local_ok (t : CellType) (h : t ∈ plain) : LocalOk t (kids t) := by
  simp only [plain, List.mem_cons, List.not_mem_nil, or_false] at h
  rcases h with rfl | rfl | rfl | rfl | rfl
  · exact triangle_local
  · exact quadrilateral_local
  · exact tetrahedron_local
  · exact prism_local
  · exact hexahedron_local

theorem bounds : ∀ t ∈ plain, (∀ l ∈ pts t, ∀ i ∈ l, i < nverts t) ∧ (∀ l ∈ facets t, ∀ i ∈ l, i < nverts t) := by decide +kernel

theorem pts_bound (t : CellType) (h : t ∈ plain) (i : Nat) : ((pts t).getD i []).toFinset ⊆ Finset.range (nverts t) := by
  intro x hx
  rw [List.mem_toFinset] at hx
  rw [List.getD_eq_getElem?_getD] at hx
  cases hp : (pts t)[i]? with
  | none => rw [hp] at hx; simp at hx
  | some l =>
    rw [hp] at hx
    exact Finset.mem_range.mpr ((bounds t h).1 l (List.mem_of_getElem? hp) x hx)

theorem side_bound (t : CellType) (h : t ∈ plain) (s : Finset (Finset Nat)) (hs : s ∈ sidesOf t (kids t)) (p : Finset Nat) (hp : p ∈ s) :
    p ⊆ Finset.range (nverts t) := by
  unfold sidesOf at hs
  obtain ⟨l, _, hs⟩ := List.mem_flatMap.mp hs
  obtain ⟨f, _, rfl⟩ := List.mem_map.mp hs
  rw [List.mem_toFinset] at hp
  obtain ⟨i, _, rfl⟩ := List.mem_map.mp hp
  exact pts_bound t h _

theorem facet_bound (t : CellType) (h : t ∈ plain) (f : List Nat) (hf : f ∈ facets t) : f.toFinset ⊆ Finset.range (nverts t) := by
  intro x hx
  exact Finset.mem_range.mpr ((bounds t h).2 f hf x (List.mem_toFinset.mp hx))

theorem edge_bound (t : CellType) (h : t ∈ plain) (e : Finset Nat) (he : e ∈ localEdges t) : e ⊆ Finset.range (nverts t) := by
  unfold localEdges edges at he
  rw [List.mem_toFinset] at he
  obtain ⟨l, hl, rfl⟩ := List.mem_map.mp he
  intro x hx
  exact Finset.mem_range.mpr ((bounds t h).1 l (List.mem_filter.mp hl).1 x (List.mem_toFinset.mp hx))

section transport
variable {n : Nat} {f : Nat → Nat} (hf : ∀ i < n, ∀ j < n, f i = f j → i = j)
include hf

theorem mem_img {e : Finset Nat} (he : e ⊆ Finset.range n) {a : Nat} (ha : a < n) : f a ∈ e.image f ↔ a ∈ e := by
  rw [Finset.mem_image]
  constructor
  · rintro ⟨b, hb, hab⟩
    rw [← hf b (Finset.mem_range.mp (he hb)) a ha hab]; exact hb
  · exact fun h => ⟨a, h, rfl⟩

theorem img_subset {e e' : Finset Nat} (he : e ⊆ Finset.range n) (he' : e' ⊆ Finset.range n) : e.image f ⊆ e'.image f ↔ e ⊆ e' := by
  constructor
  · intro h a ha
    exact (mem_img hf he' (Finset.mem_range.mp (he ha))).mp (h (Finset.mem_image_of_mem f ha))
  · exact Finset.image_subset_image

theorem img_inj {e e' : Finset Nat} (he : e ⊆ Finset.range n) (he' : e' ⊆ Finset.range n) (h : e.image f = e'.image f) : e = e' :=
  Finset.Subset.antisymm ((img_subset hf he he').mp h.le) ((img_subset hf he' he).mp h.ge)

theorem img2_inj {s s' : Finset (Finset Nat)} (hs : ∀ p ∈ s, p ⊆ Finset.range n) (hs' : ∀ p ∈ s', p ⊆ Finset.range n)
    (h : s.image (Finset.image f) = s'.image (Finset.image f)) : s = s' := by
  ext p
  constructor
  · intro hp
    have := h ▸ Finset.mem_image_of_mem (Finset.image f) hp
    obtain ⟨q, hq, e⟩ := Finset.mem_image.mp this
    rw [← img_inj hf (hs' q hq) (hs p hp) e]; exact hq
  · intro hp
    have := h.symm ▸ Finset.mem_image_of_mem (Finset.image f) hp
    obtain ⟨q, hq, e⟩ := Finset.mem_image.mp this
    rw [← img_inj hf (hs q hq) (hs' p hp) e]; exact hq

theorem pieces_image {F : Finset Nat} {E : Finset (Finset Nat)} (hF : F ⊆ Finset.range n) (hE : ∀ e ∈ E, e ⊆ Finset.range n) :
    pieces (F.image f) (E.image (Finset.image f)) = (pieces F E).image (Finset.image (Finset.image f)) := by
  have hc : (F.image f).card = F.card := Finset.card_image_of_injOn fun a ha b hb h =>
    hf a (Finset.mem_range.mp (hF ha)) b (Finset.mem_range.mp (hF hb)) h
  unfold pieces
  rw [Finset.image_union, hc, Finset.image_image, Finset.image_image]
  congr 1
  · refine Finset.image_congr fun a ha => ?_
    simp only [Function.comp]
    rw [Finset.image_union, Finset.image_insert, Finset.image_singleton]
    congr 1
    · congr 1
      rw [Finset.filter_image]
      congr 1
      refine Finset.filter_congr fun e he => ?_
      exact mem_img hf (hE e he) (Finset.mem_range.mp (hF ha))
    · split <;> simp
  · split <;> simp

end transport

theorem span_image (f : Nat → Nat) (s : Finset (Finset Nat)) : span (s.image (Finset.image f)) = (span s).image f := by
  ext x
  simp only [span, Finset.mem_biUnion, Finset.mem_image, id]
  constructor
  · rintro ⟨_, ⟨p, hp, rfl⟩, hx⟩
    obtain ⟨a, ha, rfl⟩ := Finset.mem_image.mp hx
    exact ⟨a, ⟨p, hp, ha⟩, rfl⟩
  · rintro ⟨a, ⟨p, hp, ha⟩, rfl⟩
    exact ⟨_, ⟨p, hp, rfl⟩, Finset.mem_image_of_mem f ha⟩

theorem count_map_inj {α β : Type} [DecidableEq α] [DecidableEq β] (g : α → β) (l : List α) (s : α) (h : ∀ x ∈ l, g x = g s → x = s) :
    (l.map g).count (g s) = l.count s := by
  rw [List.count, List.count, List.countP_map]
  refine List.countP_congr fun x hx => ?_
  simp only [Function.comp, beq_iff_eq]
  exact ⟨h x hx, fun e => by rw [e]⟩

/-- Sides of the new cells of a cell. -/
def gsides (C : Cell) : List (Finset (Finset Nat)) := (sidesOf C.1 (kids C.1)).map fun s => s.image (Finset.image fun i => C.2.getD i 0)

theorem getD_inj {V : List Nat} (hV : V.Nodup) : ∀ i < V.length, ∀ j < V.length, V.getD i 0 = V.getD j 0 → i = j := by
  intro i hi j hj h
  rw [List.getD_eq_getElem _ _ hi, List.getD_eq_getElem _ _ hj] at h
  exact (List.Nodup.getElem_inj_iff hV).mp h

theorem range_image (V : List Nat) : (Finset.range V.length).image (fun i => V.getD i 0) = V.toFinset := by
  ext x
  simp only [Finset.mem_image, Finset.mem_range, List.mem_toFinset]
  constructor
  · rintro ⟨i, hi, rfl⟩
    rw [List.getD_eq_getElem _ _ hi]; exact List.getElem_mem hi
  · intro hx
    obtain ⟨i, hi, rfl⟩ := List.mem_iff_getElem.mp hx
    exact ⟨i, hi, List.getD_eq_getElem _ _ hi⟩

theorem edgeSets_image (C : Cell) : edgeSets C = (localEdges C.1).image (Finset.image fun i => C.2.getD i 0) := by
  unfold edgeSets localEdges part
  ext x
  simp [List.mem_toFinset, List.mem_map]

/-- A side of a new cell of one cell is inside of the cell, or part of a facet. -/
theorem gsides_spec (C : Cell) (ht : C.1 ∈ plain) (hl : C.2.length = nverts C.1) (hn : C.2.Nodup) (s : Finset (Finset Nat)) (hs : s ∈ gsides C) :
    (span s = vertSet C ∧ (gsides C).count s = 2) ∨
      ∃ F ∈ facetSets C, span s = F ∧ s ∈ pieces F ((edgeSets C).filter (· ⊆ F)) := by
  have hf := getD_inj hn
  rw [hl] at hf
  obtain ⟨s0, hs0, rfl⟩ := List.mem_map.mp hs
  have hb := side_bound C.1 ht s0 hs0
  rcases (local_ok C.1 ht).1 s0 hs0 with ⟨h1, h2⟩ | ⟨f, hff, h1, h2⟩
  · left
    refine ⟨?_, ?_⟩
    · rw [span_image, h1, ← hl, range_image]; rfl
    · unfold gsides
      rw [← h2]
      exact count_map_inj (fun s => s.image (Finset.image fun i => C.2.getD i 0)) _ s0 fun x hx h =>
        img2_inj hf (side_bound C.1 ht x hx) hb h
  · right
    refine ⟨part C.2 f, List.mem_map.mpr ⟨f, hff, rfl⟩, ?_, ?_⟩
    · rw [span_image, h1]; rfl
    · have hfb := facet_bound C.1 ht f hff
      have : (edgeSets C).filter (· ⊆ part C.2 f) = ((localEdges C.1).filter (· ⊆ f.toFinset)).image (Finset.image fun i => C.2.getD i 0) := by
        rw [edgeSets_image, Finset.filter_image]
        congr 1
        refine Finset.filter_congr fun e he => ?_
        exact img_subset hf (edge_bound C.1 ht e he) hfb
      rw [this]
      unfold part
      rw [pieces_image hf hfb fun e he => edge_bound C.1 ht e (Finset.mem_filter.mp he).1]
      exact Finset.mem_image_of_mem _ h2

theorem pieces_bound {n : Nat} {F : Finset Nat} {E : Finset (Finset Nat)} (hF : F ⊆ Finset.range n) (hE : ∀ e ∈ E, e ⊆ Finset.range n)
    (s : Finset (Finset Nat)) (hs : s ∈ pieces F E) (p : Finset Nat) (hp : p ∈ s) : p ⊆ Finset.range n := by
  unfold pieces at hs
  rcases Finset.mem_union.mp hs with h | h
  · obtain ⟨a, ha, rfl⟩ := Finset.mem_image.mp h
    rcases Finset.mem_union.mp hp with h | h
    · rcases Finset.mem_insert.mp h with rfl | h
      · exact Finset.singleton_subset_iff.mpr (hF ha)
      · exact hE p (Finset.mem_filter.mp h).1
    · split at h
      · rw [Finset.mem_singleton.mp h]; exact hF
      · simp at h
  · split at h
    · rw [Finset.mem_singleton.mp h] at hp; exact hE p hp
    · simp at h

/-- Each part of a facet is a side of exactly one new cell. -/
theorem gsides_piece (C : Cell) (ht : C.1 ∈ plain) (hl : C.2.length = nverts C.1) (hn : C.2.Nodup) (F : Finset Nat) (hF : F ∈ facetSets C)
    (s : Finset (Finset Nat)) (hs : s ∈ pieces F ((edgeSets C).filter (· ⊆ F))) : (gsides C).count s = 1 := by
  have hf := getD_inj hn
  rw [hl] at hf
  obtain ⟨f, hff, rfl⟩ := List.mem_map.mp hF
  have hfb := facet_bound C.1 ht f hff
  have : (edgeSets C).filter (· ⊆ part C.2 f) = ((localEdges C.1).filter (· ⊆ f.toFinset)).image (Finset.image fun i => C.2.getD i 0) := by
    rw [edgeSets_image, Finset.filter_image]
    congr 1
    refine Finset.filter_congr fun e he => ?_
    exact img_subset hf (edge_bound C.1 ht e he) hfb
  rw [this] at hs
  unfold part at hs
  rw [pieces_image hf hfb fun e he => edge_bound C.1 ht e (Finset.mem_filter.mp he).1] at hs
  obtain ⟨s0, hs0, rfl⟩ := Finset.mem_image.mp hs
  have hb := pieces_bound hfb (fun e he => edge_bound C.1 ht e (Finset.mem_filter.mp he).1) s0 hs0
  rw [← (local_ok C.1 ht).2 f hff s0 hs0]
  exact count_map_inj (fun s => s.image (Finset.image fun i => C.2.getD i 0)) _ s0 fun x hx h =>
    img2_inj hf (side_bound C.1 ht x hx) hb h

theorem sum_split {α : Type} (l : List α) (f : α → Nat) (i : Nat) (hi : i < l.length) (h : ∀ j (hj : j < l.length), j ≠ i → f l[j] = 0) :
    (l.map f).sum = f l[i] := by
  induction l generalizing i with
  | nil => simp at hi
  | cons a l ih =>
    cases i with
    | zero =>
      have : (l.map f).sum = 0 := by
        rw [List.sum_eq_zero]
        intro x hx
        obtain ⟨y, hy, rfl⟩ := List.mem_map.mp hx
        obtain ⟨j, hj, rfl⟩ := List.mem_iff_getElem.mp hy
        exact h (j + 1) (by simpa using hj) (by omega)
      simp [this]
    | succ i =>
      have h0 : f a = 0 := h 0 (by simp) (by omega)
      rw [List.map_cons, List.sum_cons, h0, Nat.zero_add]
      exact ih i (by simpa using hi) fun j hj hne => h (j + 1) (by simpa using hj) (by omega)

theorem sum_countP {α : Type} (l : List α) (f : α → Nat) (p : α → Bool) (h : ∀ a ∈ l, f a = if p a then 1 else 0) : (l.map f).sum = l.countP p := by
  induction l with
  | nil => rfl
  | cons a l ih =>
    rw [List.map_cons, List.sum_cons, List.countP_cons, ih fun b hb => h b (List.mem_cons_of_mem _ hb), h a (List.mem_cons_self ..), Nat.add_comm]

/-- The new cells of a mesh fit together. -/
theorem conform (Cs : List Cell) (ht : ∀ C ∈ Cs, C.1 ∈ plain) (hM : MeshCells Cs) (s : Finset (Finset Nat)) (hs : s ∈ Cs.flatMap gsides) :
    (∃ C ∈ Cs, ∃ F ∈ facetSets C, span s = F ∧ (Cs.flatMap gsides).count s = Cs.countP fun C' => decide (F ∈ facetSets C')) ∨
    ((∃ C ∈ Cs, span s = vertSet C) ∧ (Cs.flatMap gsides).count s = 2) := by
  have hap : ∀ i (hi : i < Cs.length) j (hj : j < Cs.length), vertSet Cs[i] ⊆ vertSet Cs[j] → i = j := by
    intro i hi j hj h
    by_contra hne
    rcases Nat.lt_or_gt_of_ne hne with hlt | hlt
    · exact (List.pairwise_iff_getElem.mp hM.apart i j hi hj hlt).1 h
    · exact (List.pairwise_iff_getElem.mp hM.apart j i hj hi hlt).2 h
  obtain ⟨C, hC, hsC⟩ := List.mem_flatMap.mp hs
  obtain ⟨i, hi, rfl⟩ := List.mem_iff_getElem.mp hC
  have hspan : ∀ C ∈ Cs, ∀ F ∈ facetSets C, F ⊆ vertSet C := by
    intro C hC F hF
    obtain ⟨f, hf, rfl⟩ := List.mem_map.mp hF
    obtain ⟨hl, _⟩ := hM.verts C hC
    unfold part vertSet
    rw [← range_image C.2, hl]
    exact Finset.image_subset_image (facet_bound C.1 (ht C hC) f hf)
  have hcases : ∀ C ∈ Cs, ∀ s ∈ gsides C, _ := fun C hC s hs => gsides_spec C (ht C hC) (hM.verts C hC).1 (hM.verts C hC).2 s hs
  rcases hcases _ hC s hsC with ⟨h1, h2⟩ | ⟨F, hF, h1, h2⟩
  · right
    refine ⟨⟨_, hC, h1⟩, ?_⟩
    rw [List.count_flatMap, ← h2]
    refine sum_split Cs (List.count s ∘ gsides) i hi fun j hj hne => ?_
    refine List.count_eq_zero.mpr fun hmem => hne ?_
    have hCj := List.getElem_mem hj
    refine (hap i hi j hj ?_).symm
    rw [← h1]
    rcases hcases _ hCj s hmem with ⟨g1, _⟩ | ⟨F, hF, g1, _⟩
    · rw [g1]
    · rw [g1]; exact hspan _ hCj F hF
  · left
    refine ⟨_, hC, F, hF, h1, ?_⟩
    rw [List.count_flatMap]
    refine sum_countP Cs (List.count s ∘ gsides) _ fun C' hC' => ?_
    simp only [Function.comp, decide_eq_true_eq]
    split
    · next hF' =>
      refine gsides_piece C' (ht C' hC') (hM.verts C' hC').1 (hM.verts C' hC').2 F hF' s ?_
      rw [← hM.agree _ hC C' hC' F hF hF']; exact h2
    · next hF' =>
      refine List.count_eq_zero.mpr fun hmem => hF' ?_
      rcases hcases C' hC' s hmem with ⟨g1, _⟩ | ⟨F', hF2, g1, _⟩
      · obtain ⟨j, hj, rfl⟩ := List.mem_iff_getElem.mp hC'
        have : vertSet Cs[j] ⊆ vertSet Cs[i] := by
          rw [← g1, h1]; exact hspan _ hC F hF
        obtain rfl := hap j hj i hi this
        exact hF
      · rw [← h1, g1]; exact hF2

end Verif.Uniform
