import Verif.Model.RefineCells
import Verif.Lemmas.RefineTet
/-! Cells cut one by one fit together. -/
namespace Verif.Refine
open Verif.Spec.Conform Verif.Spec.Subdiv

section Global
variable {V C : Type} [DecidableEq V]

/-- Local facts about the parts of each cell. -/
structure LocalOK (d : Nat) (cells : List C) (vs : C → Finset V) (kids : C → List (Finset (Finset V)))
    (Part : Finset V → Finset (Finset V) → Prop) : Prop where
  card : ∀ c ∈ cells, (vs c).card = d + 1
  one : ∀ c ∈ cells, ∀ F ⊆ vs c, F.card = d → ∀ S, Part F S → (kids c).countP (fun K => decide (S ⊆ K)) = 1
  carr : ∀ c ∈ cells, ∀ F ⊆ vs c, F.card = d → ∀ S, Part F S → carrier S = F
  inside : ∀ c ∈ cells, ∀ K ∈ kids c, carrier K ⊆ vs c
  facet : ∀ c ∈ cells, ∀ K ∈ kids c, ∀ p ∈ K, (∃ F ⊆ vs c, F.card = d ∧ Part F (K.erase p)) ∨
    (carrier (K.erase p) = vs c ∧ (kids c).countP (fun K' => decide (K.erase p ⊆ K')) = 2)

theorem carrier_mono {S T : Finset (Finset V)} (h : S ⊆ T) : carrier S ⊆ carrier T := Finset.biUnion_subset_biUnion_of_subset_left _ h

theorem countP_zero_of {α : Type} (l : List α) (p : α → Bool) (h : ∀ a ∈ l, p a = false) : l.countP p = 0 := by
  rw [List.countP_eq_zero]
  intro a ha; simp [h a ha]

theorem conform_global (d : Nat) (cells : List C) (vs : C → Finset V) (kids : C → List (Finset (Finset V)))
    (Part : Finset V → Finset (Finset V) → Prop) (h : LocalOK d cells vs kids Part) (hd : cells.Pairwise fun c c' => vs c ≠ vs c')
    (c : C) (hc : c ∈ cells) (K : Finset (Finset V)) (hK : K ∈ kids c) (p : Finset V) (hp : p ∈ K) :
    (∃ F ⊆ vs c, F.card = d ∧ Part F (K.erase p) ∧
      (cells.flatMap kids).countP (fun K' => decide (K.erase p ⊆ K')) = cells.countP fun c' => decide (F ⊆ vs c')) ∨
    (carrier (K.erase p) = vs c ∧ (cells.flatMap kids).countP (fun K' => decide (K.erase p ⊆ K')) = 2) := by
  generalize hS : K.erase p = S
  rcases h.facet c hc K hK p hp with ⟨F, hF, hFd, hPart⟩ | ⟨hcar, h2⟩
  · left
    rw [hS] at hPart
    refine ⟨F, hF, hFd, hPart, ?_⟩
    rw [List.countP_flatMap]
    have hcar := h.carr c hc F hF hFd S hPart
    have hsub : ∀ c' ∈ cells, c' ∈ cells := fun _ h => h
    revert hsub
    generalize hL : cells = L at *
    intro hsub
    clear hL
    have key : ∀ L' : List C, (∀ c' ∈ L', c' ∈ L) →
        (L'.map (List.countP (fun K' => decide (S ⊆ K')) ∘ kids)).sum = L'.countP fun c' => decide (F ⊆ vs c') := by
      intro L' hsub'
      induction L' with
      | nil => rfl
      | cons a L' ih =>
        rw [List.map_cons, List.sum_cons, ih fun c' hc' => hsub' c' (List.mem_cons_of_mem _ hc'), List.countP_cons]
        have ha := hsub' a (by simp)
        by_cases hFa : F ⊆ vs a
        · rw [if_pos (decide_eq_true hFa), Function.comp, h.one a ha F hFa hFd S hPart, Nat.add_comm]
        · rw [if_neg (by simpa using hFa), Function.comp, countP_zero_of]
          · omega
          · intro K' hK'
            apply decide_eq_false
            intro hSK
            apply hFa
            rw [← hcar]
            exact (carrier_mono hSK).trans (h.inside a ha K' hK')
    exact key L hsub
  · right
    rw [hS] at hcar h2
    refine ⟨hcar, ?_⟩
    obtain ⟨l1, l2, rfl⟩ := List.append_of_mem hc
    rw [List.flatMap_append, List.flatMap_cons, List.countP_append, List.countP_append, h2]
    have hzero : ∀ l : List C, (∀ c' ∈ l, c' ∈ l1 ++ c :: l2 ∧ vs c' ≠ vs c) →
        (l.flatMap kids).countP (fun K' => decide (S ⊆ K')) = 0 := by
      intro l hl
      refine countP_zero_of _ _ fun K' hK' => ?_
      obtain ⟨c', hc', hK'⟩ := List.mem_flatMap.mp hK'
      obtain ⟨hm, hne⟩ := hl c' hc'
      apply decide_eq_false
      intro hSK
      apply hne
      have hsub : vs c ⊆ vs c' := by
        rw [← hcar]
        exact (carrier_mono hSK).trans (h.inside c' hm K' hK')
      exact (Finset.eq_of_subset_of_card_le hsub (by rw [h.card c' hm, h.card c hc])).symm
    obtain ⟨hp1, hp2, hp3⟩ := List.pairwise_append.mp hd
    rw [hzero l1 fun c' hc' => ⟨by simp [hc'], hp3 c' hc' c (by simp)⟩,
      hzero l2 fun c' hc' => ⟨by simp [hc'], fun he => (List.pairwise_cons.mp hp2).1 c' hc' he.symm⟩]

end Global

section Tet
variable {V : Type} [DecidableEq V]

theorem ends_lt (i : Nat) : ∀ j ∈ tetEnds i, j < 4 := by
  by_cases h : i < 10
  · interval_cases i <;> decide
  · have : tetEnds i = [] := by
      unfold tetEnds
      rw [List.getD_eq_getElem?_getD, List.getElem?_eq_none (by simpa using h)]; rfl
    rw [this]; simp

theorem image_inj4 {v : Nat → V} (hv : Inj4 v) (s t : Finset Nat) (hs : ∀ i ∈ s, i < 4) (ht : ∀ i ∈ t, i < 4)
    (h : s.image v = t.image v) : s = t := by
  have key : ∀ (s t : Finset Nat), (∀ i ∈ s, i < 4) → (∀ i ∈ t, i < 4) → s.image v = t.image v → s ⊆ t := by
    intro s t hs ht h i hi
    have : v i ∈ t.image v := by rw [← h]; exact Finset.mem_image_of_mem _ hi
    obtain ⟨j, hj, hji⟩ := Finset.mem_image.mp this
    rw [← hv j (ht j hj) i (hs i hi) hji]; exact hj
  exact Finset.Subset.antisymm (key s t hs ht h) (key t s ht hs h.symm)

theorem tetEnds_inj : ∀ i < 10, ∀ j < 10, (tetEnds i).toFinset = (tetEnds j).toFinset → i = j := by decide

theorem tetPt_inj {v : Nat → V} (hv : Inj4 v) (i j : Nat) (hi : i < 10) (hj : j < 10) (h : tetPt v i = tetPt v j) : i = j :=
  tetEnds_inj i hi j hj (image_inj4 hv _ _ (by simpa using ends_lt i) (by simpa using ends_lt j) h)

theorem sub_iff (s t : List Nat) : sub s t = true ↔ s ⊆ t := by
  unfold sub
  rw [List.all_eq_true]
  simp only [List.contains_iff_mem]
  rfl

theorem image_sub_iff {v : Nat → V} (hv : Inj4 v) (s t : List Nat) (hs : ∀ i ∈ s, i < 10) (ht : ∀ i ∈ t, i < 10) :
    s.toFinset.image (tetPt v) ⊆ t.toFinset.image (tetPt v) ↔ sub s t = true := by
  rw [sub_iff]
  constructor
  · intro h i hi
    have := h (Finset.mem_image_of_mem _ (List.mem_toFinset.mpr hi))
    obtain ⟨j, hj, hji⟩ := Finset.mem_image.mp this
    rw [← tetPt_inj hv j i (ht j (List.mem_toFinset.mp hj)) (hs i hi) hji]
    exact List.mem_toFinset.mp hj
  · intro h
    apply Finset.image_subset_image
    intro i hi
    exact List.mem_toFinset.mpr (h (List.mem_toFinset.mp hi))

/-- What `good` says. -/
structure GoodTet (m : List Bool) (le : List Nat) : Prop where
  len : (getTetrahedra m le).length ≤ 8
  cells : ∀ t ∈ getTetrahedra m le, t.length = 4 ∧ t.Nodup ∧ ∀ i ∈ t, i < 4 ∨ (i < 10 ∧ m.getD (i - 4) false = true)
  one : ∀ f < 4, ∀ s ∈ pattIdx m f (le.getD f 0), (getTetrahedra m le).countP (sub s) = 1
  facet : ∀ t ∈ getTetrahedra m le, ∀ p ∈ t,
    (∃ f < 4, ∃ s ∈ pattIdx m f (le.getD f 0), t.erase p ⊆ s ∧ s ⊆ t.erase p) ∨
    ((∀ w < 4, ∃ i ∈ t.erase p, w ∈ tetEnds i) ∧ (getTetrahedra m le).countP (sub (t.erase p)) = 2)

theorem goodTet (m : List Bool) (le : List Nat) (h : good m le = true) : GoodTet m le := by
  unfold good at h
  simp only [Bool.and_eq_true] at h
  obtain ⟨⟨⟨⟨_, h2⟩, h3⟩, h4⟩, h5⟩ := h
  refine ⟨of_decide_eq_true h2, ?_, ?_, ?_⟩
  · intro t ht
    have := List.all_eq_true.mp h3 t ht
    unfold okCell at this
    simp only [Bool.and_eq_true, beq_iff_eq, decide_eq_true_eq, List.all_eq_true, Bool.or_eq_true] at this
    exact ⟨this.1.1, this.1.2, this.2⟩
  · intro f hf s hs
    have := List.all_eq_true.mp (List.all_eq_true.mp h4 f (List.mem_range.mpr hf)) s hs
    simpa using this
  · intro t ht p hp
    have := List.all_eq_true.mp (List.all_eq_true.mp h5 t ht) p hp
    simp only [Bool.or_eq_true, Bool.and_eq_true, List.any_eq_true, List.mem_range, beq_iff_eq] at this
    rcases this with ⟨f, hf, s, hs, h6, h7⟩ | ⟨h6, h7⟩
    · exact Or.inl ⟨f, hf, s, hs, (sub_iff _ _).mp h6, (sub_iff _ _).mp h7⟩
    · right
      refine ⟨?_, h7⟩
      intro w hw
      unfold carrierAll at h6
      have := List.all_eq_true.mp h6 w (List.mem_range.mpr hw)
      obtain ⟨i, hi, hc⟩ := List.any_eq_true.mp this
      exact ⟨i, hi, List.contains_iff_mem.mp hc⟩

theorem facetEdges_facts : ∀ f < 4, ∀ e ∈ facetEdges f, e < 6 ∧ (tetEdge e).1 < 4 ∧ (tetEdge e).2 < 4 ∧ 6 - f - (tetEdge e).1 - (tetEdge e).2 < 4 ∧
    (tetEdge e).1 ≠ 6 - f - (tetEdge e).1 - (tetEdge e).2 ∧ (tetEdge e).2 ≠ 6 - f - (tetEdge e).1 - (tetEdge e).2 ∧
    (tetEdge e).1 ≠ (tetEdge e).2 ∧
    (List.range 4).toFinset.erase f = {(tetEdge e).1, (tetEdge e).2, 6 - f - (tetEdge e).1 - (tetEdge e).2} ∧
    tetEnds (4 + e) = [(tetEdge e).1, (tetEdge e).2] := by decide

theorem eIdx_facts : ∀ i < 4, ∀ j < 4, i ≠ j → eIdx i j < 6 ∧ (tetEnds (4 + eIdx i j)).toFinset = {i, j} := by decide

theorem vertex_ends : ∀ i < 4, tetEnds i = [i] := by decide

theorem pair_facet (f : Nat) (hf : f < 4) (i : Nat) (hi : i < 4) (j : Nat) (hj : j < 4) (h1 : i ≠ j) (h2 : i ≠ f) (h3 : j ≠ f) :
    eIdx i j ∈ facetEdges f := by
  interval_cases f <;> interval_cases i <;> interval_cases j <;> first | omega | decide

theorem tetPt_vertex (v : Nat → V) (i : Nat) (hi : i < 4) : tetPt v i = {v i} := by
  unfold tetPt; rw [vertex_ends i hi]; simp

theorem tetPt_edge (v : Nat → V) (i j : Nat) (hi : i < 4) (hj : j < 4) (hij : i ≠ j) : tetPt v (4 + eIdx i j) = {v i, v j} := by
  unfold tetPt; rw [(eIdx_facts i hi j hj hij).2]; simp

/-- The edges of facet `f` as sets. -/
theorem facet_pairs {v : Nat → V} (hv : Inj4 v) (f : Nat) (hf : f < 4) (s : Finset V) (hs : s ⊆ tetFacet v f) (hc : s.card = 2) :
    ∃ e ∈ facetEdges f, tetEdgeSet v e = s := by
  obtain ⟨x, y, hxy, rfl⟩ := Finset.card_eq_two.mp hc
  have hx := hs (by simp : x ∈ ({x, y} : Finset V))
  have hy := hs (by simp : y ∈ ({x, y} : Finset V))
  unfold tetFacet at hx hy
  obtain ⟨i, hi, rfl⟩ := Finset.mem_image.mp hx
  obtain ⟨j, hj, rfl⟩ := Finset.mem_image.mp hy
  simp only [Finset.mem_erase, List.mem_toFinset, List.mem_range] at hi hj
  have hij : i ≠ j := fun h => hxy (by rw [h])
  exact ⟨eIdx i j, pair_facet f hf i hi.2 j hj.2 hij hi.1 hj.1, tetPt_edge v i j hi.2 hj.2 hij⟩

theorem edge_in_facet {v : Nat → V} (hv : Inj4 v) (f : Nat) (hf : f < 4) (e : Nat) (he : e ∈ facetEdges f) :
    tetEdgeSet v e ⊆ tetFacet v f ∧ (tetEdgeSet v e).card = 2 := by
  obtain ⟨h1, h2, h3, h4, h5, h6, h7, h8, h9⟩ := facetEdges_facts f hf e he
  unfold tetEdgeSet tetFacet tetPt
  rw [h8, h9]
  constructor
  · apply Finset.image_subset_image
    intro i hi
    simp at hi
    rcases hi with rfl | rfl <;> simp
  · simp only [List.toFinset_cons, List.toFinset_nil, Finset.image_insert, insert_empty_eq, Finset.image_singleton]
    rw [Finset.card_pair]
    intro h
    exact h7 (hv _ h2 _ h3 h)

theorem edgeSet_inj {v : Nat → V} (hv : Inj4 v) (e e' : Nat) (he : e < 6) (he' : e' < 6) (h : tetEdgeSet v e = tetEdgeSet v e') : e = e' := by
  have := tetPt_inj hv (4 + e) (4 + e') (by omega) (by omega) h
  omega

theorem tetLong_get {K : Type} [LinearOrder K] (R : Rule V) (key : Finset V → K) {v : Nat → V} (hv : Inj4 v) (f : Nat) (hf : f < 4)
    (hl : Longest R key (tetFacet v f)) :
    (tetLong R v).getD f 0 ∈ facetEdges f ∧ tetEdgeSet v ((tetLong R v).getD f 0) = R.long (tetFacet v f) := by
  obtain ⟨e, he, hes⟩ := facet_pairs hv f hf _ hl.1 hl.2.1
  have he6 := (facetEdges_facts f hf e he).1
  have hget : (tetLong R v).getD f 0 = ((List.range 6).find? fun e => decide (tetEdgeSet v e = R.long (tetFacet v f))).getD 0 := by
    unfold tetLong
    rw [List.getD_eq_getElem?_getD, List.getElem?_map, List.getElem?_range hf]; rfl
  have hfind : ((List.range 6).find? fun e => decide (tetEdgeSet v e = R.long (tetFacet v f))) = some e := by
    cases h : (List.range 6).find? fun e => decide (tetEdgeSet v e = R.long (tetFacet v f)) with
    | none => exact absurd (decide_eq_true hes) (by simpa using List.find?_eq_none.mp h e (List.mem_range.mpr he6))
    | some e' =>
      have h1 := List.find?_some h
      rw [decide_eq_true_eq] at h1
      have h2 := List.mem_range.mp (List.mem_of_find?_eq_some h)
      rw [edgeSet_inj hv e' e h2 he6 (h1.trans hes.symm)]
  rw [hget, hfind]
  exact ⟨he, hes⟩

theorem tetMarks_get (R : Rule V) (v : Nat → V) (e : Nat) (he : e < 6) : (tetMarks R v).getD e false = R.mark (tetEdgeSet v e) := by
  unfold tetMarks
  rw [List.getD_eq_getElem?_getD, List.getElem?_map, List.getElem?_range he]; rfl

theorem noCycle_of_key {K : Type} [LinearOrder K] (le : List Nat) (key : Nat → K)
    (hk : ∀ f < 4, ∀ e ∈ facetEdges f, e ≠ le.getD f 0 → key e < key (le.getD f 0)) : noCycle le = true := by
  have beats : ∀ f < 4, ∀ b, b ≠ le.getD f 0 → b ∈ facetEdges f → key b < key (le.getD f 0) := fun f hf b hb hbf => hk f hf b hbf hb
  unfold noCycle
  rw [List.all_eq_true]
  intro f hf
  rw [List.all_eq_true]
  intro g hg
  rw [List.all_eq_true]
  intro h hh
  have hf := List.mem_range.mp hf
  have hg := List.mem_range.mp hg
  have hh := List.mem_range.mp hh
  simp only [Bool.and_eq_true, Bool.not_eq_true', ← Bool.not_eq_true, bne_iff_ne, List.contains_iff_mem, List.all_eq_true]
  constructor
  · rintro ⟨⟨⟨⟨⟨h1, h2⟩, h3⟩, h4⟩, h5⟩, h6⟩
    have a1 := beats f hf _ h1.symm h4
    have a2 := beats g hg _ h2.symm h5
    have a3 := beats h hh _ h3.symm h6
    exact lt_irrefl _ (a1.trans (a3.trans a2))
  · intro k hk
    have hk := List.mem_range.mp hk
    rintro ⟨⟨⟨⟨⟨⟨⟨h1, h2⟩, h3⟩, h4⟩, h5⟩, h6⟩, h7⟩, h8⟩
    have a1 := beats f hf _ h1.symm h5
    have a2 := beats g hg _ h2.symm h6
    have a3 := beats h hh _ h3.symm h7
    have a4 := beats k hk _ h4.symm h8
    exact lt_irrefl _ (a1.trans (a4.trans (a3.trans a2)))

theorem tet_noCycle {K : Type} [LinearOrder K] (R : Rule V) (key : Finset V → K) {v : Nat → V} (hv : Inj4 v)
    (hl : ∀ f < 4, Longest R key (tetFacet v f)) : noCycle (tetLong R v) = true := by
  have beats : ∀ f < 4, ∀ b, b ≠ (tetLong R v).getD f 0 → b ∈ facetEdges f →
      key (tetEdgeSet v b) < key (tetEdgeSet v ((tetLong R v).getD f 0)) := by
    intro f hf b hb hbf
    obtain ⟨h1, h2⟩ := tetLong_get R key hv f hf (hl f hf)
    rw [h2]
    obtain ⟨h3, h4⟩ := edge_in_facet hv f hf b hbf
    refine (hl f hf).2.2 _ h3 h4 ?_
    intro he
    exact hb (edgeSet_inj hv _ _ (facetEdges_facts f hf b hbf).1 (facetEdges_facts f hf _ h1).1 (he.trans h2.symm))
  exact noCycle_of_key _ (fun e => key (tetEdgeSet v e)) fun f hf b hbf hb => beats f hf b hb hbf

theorem tet_closedL {K : Type} [LinearOrder K] (R : Rule V) (key : Finset V → K) {v : Nat → V} (hv : Inj4 v)
    (hl : ∀ f < 4, Longest R key (tetFacet v f)) (hc : ∀ f < 4, Closed R (tetFacet v f)) : closedL (tetMarks R v) (tetLong R v) = true := by
  unfold closedL
  rw [List.all_eq_true]
  intro f hf
  have hf := List.mem_range.mp hf
  obtain ⟨h1, h2⟩ := tetLong_get R key hv f hf (hl f hf)
  rw [tetMarks_get R v _ (facetEdges_facts f hf _ h1).1, h2]
  cases hany : (facetEdges f).any fun e => (tetMarks R v).getD e false with
  | false => rfl
  | true =>
    obtain ⟨e, he, hm⟩ := List.any_eq_true.mp hany
    rw [tetMarks_get R v _ (facetEdges_facts f hf _ he).1] at hm
    obtain ⟨h3, h4⟩ := edge_in_facet hv f hf e he
    rw [hc f hf _ h3 h4 hm]; rfl

theorem tet_good {K : Type} [LinearOrder K] (R : Rule V) (key : Finset V → K) {v : Nat → V} (hv : Inj4 v)
    (hl : ∀ f < 4, Longest R key (tetFacet v f)) (hc : ∀ f < 4, Closed R (tetFacet v f)) : good (tetMarks R v) (tetLong R v) = true := by
  refine good_of _ _ (by simp [tetMarks]) (by simp [tetLong]) (fun f hf => (tetLong_get R key hv f hf (hl f hf)).1)
    (tet_noCycle R key hv hl) (tet_closedL R key hv hl hc)

/-- Parts of a facet by local numbers. -/
theorem facePart_iff {K : Type} [LinearOrder K] (R : Rule V) (key : Finset V → K) {v : Nat → V} (hv : Inj4 v)
    (f : Nat) (hf : f < 4) (hl : Longest R key (tetFacet v f)) (S : Finset (Finset V)) :
    FacePart R (tetFacet v f) S ↔ ∃ s ∈ pattIdx (tetMarks R v) f ((tetLong R v).getD f 0), S = s.toFinset.image (tetPt v) := by
  obtain ⟨he, hes⟩ := tetLong_get R key hv f hf hl
  generalize (tetLong R v).getD f 0 = e at he hes
  obtain ⟨h1, ha, hb, hc, hac, hbc, hab, h8, h9⟩ := facetEdges_facts f hf e he
  unfold FacePart pattIdx
  rw [← hes]
  simp only [tetMarks_get R v e h1]
  have hset : tetEdgeSet v e = {v (tetEdge e).1, v (tetEdge e).2} := by
    unfold tetEdgeSet tetPt; rw [h9]; simp
  have hfac : tetFacet v f = {v (tetEdge e).1, v (tetEdge e).2, v (6 - f - (tetEdge e).1 - (tetEdge e).2)} := by
    unfold tetFacet; rw [h8]; simp
  generalize hC : 6 - f - (tetEdge e).1 - (tetEdge e).2 = c at *
  generalize hA : (tetEdge e).1 = a at *
  generalize hB : (tetEdge e).2 = b at *
  have hva : v a ≠ v c := fun h => hac (hv a ha c hc h)
  have hvb : v b ≠ v c := fun h => hbc (hv b hb c hc h)
  have hdiff : tetFacet v f \ tetEdgeSet v e = {v c} := by
    rw [hfac, hset]
    ext x
    simp only [Finset.mem_sdiff, Finset.mem_insert, Finset.mem_singleton]
    constructor
    · rintro ⟨h | h | h, hn⟩
      · exact absurd (Or.inl h) hn
      · exact absurd (Or.inr h) hn
      · exact h
    · rintro rfl
      exact ⟨Or.inr (Or.inr rfl), fun h => h.elim (fun h => hva h.symm) (fun h => hvb h.symm)⟩
  have hhalf : ∀ x < 4, x ≠ c → ((∃ s ∈ pattHalf (tetMarks R v) e c x, S = s.toFinset.image (tetPt v)) ↔
      ((R.mark {v x, v c} = false ∧ S = {tetEdgeSet v e, {v c}, {v x}}) ∨
       (R.mark {v x, v c} = true ∧ (S = {tetEdgeSet v e, {v c}, {v x, v c}} ∨ S = {tetEdgeSet v e, {v x, v c}, {v x}})))) := by
    intro x hx hxc
    unfold pattHalf
    have hedge : tetEdgeSet v (eIdx x c) = {v x, v c} := tetPt_edge v x c hx hc hxc
    rw [tetMarks_get R v _ (eIdx_facts x hx c hc hxc).1, hedge]
    cases hm : R.mark {v x, v c} with
    | false =>
      simp [tetPt_vertex v c hc, tetPt_vertex v x hx, tetEdgeSet]
    | true =>
      simp [tetPt_vertex v c hc, tetPt_vertex v x hx, tetPt_edge v x c hx hc hxc, tetEdgeSet]
  cases hm : R.mark (tetEdgeSet v e) with
  | false =>
    simp only [Bool.false_eq_true, false_and, or_false, if_false, true_and, List.mem_singleton, exists_eq_left]
    have : ([a, b, c].toFinset.image (tetPt v)) = (tetFacet v f).image fun v => ({v} : Finset V) := by
      rw [hfac]
      simp [tetPt_vertex v a ha, tetPt_vertex v b hb, tetPt_vertex v c hc]
    rw [this]
  | true =>
    simp only [Bool.true_eq_false, false_and, false_or, if_true, true_and, List.mem_append, hdiff, Finset.mem_singleton]
    have hsplit : (∃ s, (s ∈ pattHalf (tetMarks R v) e c a ∨ s ∈ pattHalf (tetMarks R v) e c b) ∧ S = s.toFinset.image (tetPt v)) ↔
        (∃ s ∈ pattHalf (tetMarks R v) e c a, S = s.toFinset.image (tetPt v)) ∨
        (∃ s ∈ pattHalf (tetMarks R v) e c b, S = s.toFinset.image (tetPt v)) := by
      constructor
      · rintro ⟨s, h | h, h'⟩
        · exact Or.inl ⟨s, h, h'⟩
        · exact Or.inr ⟨s, h, h'⟩
      · rintro (⟨s, h, h'⟩ | ⟨s, h, h'⟩)
        · exact ⟨s, Or.inl h, h'⟩
        · exact ⟨s, Or.inr h, h'⟩
    rw [hsplit, hhalf a ha hac, hhalf b hb hbc]
    constructor
    · rintro ⟨x, hx, c', rfl, h⟩
      rw [hset] at hx
      simp only [Finset.mem_insert, Finset.mem_singleton] at hx
      rcases hx with rfl | rfl
      · exact Or.inl h
      · exact Or.inr h
    · rintro (h | h)
      · exact ⟨v a, by rw [hset]; simp, v c, rfl, h⟩
      · exact ⟨v b, by rw [hset]; simp, v c, rfl, h⟩

theorem subset_facet {v : Nat → V} (hv : Inj4 v) (F : Finset V) (hF : F ⊆ tetVerts v) (hc : F.card = 3) : ∃ f < 4, F = tetFacet v f := by
  obtain ⟨s, hs, rfl⟩ := Finset.subset_image_iff.mp hF
  have hs4 : ∀ i ∈ s, i < 4 := fun i hi => List.mem_range.mp (List.mem_toFinset.mp (hs hi))
  have hcard : s.card = 3 := by
    rw [Finset.card_image_of_injOn] at hc
    · exact hc
    · intro i hi j hj h
      exact hv i (hs4 i hi) j (hs4 j hj) h
  have h1 : ((List.range 4).toFinset \ s).card = 1 := by
    rw [Finset.card_sdiff_of_subset hs, hcard]; rfl
  obtain ⟨f, hf⟩ := Finset.card_eq_one.mp h1
  have hfm : f ∈ (List.range 4).toFinset \ s := by rw [hf]; simp
  rw [Finset.mem_sdiff, List.mem_toFinset, List.mem_range] at hfm
  refine ⟨f, hfm.1, ?_⟩
  unfold tetFacet
  congr 1
  ext i
  rw [Finset.mem_erase, List.mem_toFinset]
  constructor
  · intro hi
    exact ⟨fun h => hfm.2 (h ▸ hi), List.mem_toFinset.mp (hs hi)⟩
  · rintro ⟨h1, h2⟩
    by_contra hn
    have : i ∈ (List.range 4).toFinset \ s := Finset.mem_sdiff.mpr ⟨List.mem_toFinset.mpr h2, hn⟩
    rw [hf, Finset.mem_singleton] at this
    exact h1 this

theorem carrier_image (v : Nat → V) (s : List Nat) (x : V) :
    x ∈ carrier (s.toFinset.image (tetPt v)) ↔ ∃ i ∈ s, ∃ j ∈ tetEnds i, v j = x := by
  unfold carrier
  simp only [Finset.mem_biUnion, Finset.mem_image, List.mem_toFinset, id]
  constructor
  · rintro ⟨_, ⟨i, hi, rfl⟩, hx⟩
    unfold tetPt at hx
    obtain ⟨j, hj, rfl⟩ := Finset.mem_image.mp hx
    exact ⟨i, hi, j, List.mem_toFinset.mp hj, rfl⟩
  · rintro ⟨i, hi, j, hj, rfl⟩
    exact ⟨_, ⟨i, hi, rfl⟩, Finset.mem_image_of_mem _ (List.mem_toFinset.mpr hj)⟩

theorem patt_lt (m : List Bool) (f : Nat) (hf : f < 4) (e : Nat) (he : e ∈ facetEdges f) : ∀ s ∈ pattIdx m f e, ∀ i ∈ s, i < 10 := by
  obtain ⟨h1, ha, hb, hc, hac, hbc, hab, h8, h9⟩ := facetEdges_facts f hf e he
  have hhalf : ∀ x < 4, x ≠ 6 - f - (tetEdge e).1 - (tetEdge e).2 → ∀ s ∈ pattHalf m e (6 - f - (tetEdge e).1 - (tetEdge e).2) x, ∀ i ∈ s, i < 10 := by
    intro x hx hxc s hs i hi
    have := (eIdx_facts x hx _ hc hxc).1
    unfold pattHalf at hs
    split at hs
    · simp only [List.mem_cons, List.not_mem_nil, or_false] at hs
      rcases hs with rfl | rfl <;> simp only [List.mem_cons, List.not_mem_nil, or_false] at hi <;> omega
    · simp only [List.mem_singleton] at hs
      subst hs
      simp only [List.mem_cons, List.not_mem_nil, or_false] at hi
      omega
  intro s hs i hi
  unfold pattIdx at hs
  simp only at hs
  split at hs
  · rcases List.mem_append.mp hs with hs | hs
    · exact hhalf _ ha hac s hs i hi
    · exact hhalf _ hb hbc s hs i hi
  · simp only [List.mem_singleton] at hs
    subst hs
    simp only [List.mem_cons, List.not_mem_nil, or_false] at hi
    omega

theorem facePart_carrier (R : Rule V) (F : Finset V) (hl : R.long F ⊆ F) (h2 : (R.long F).card = 2) (hF : F.card = 3) (S : Finset (Finset V))
    (h : FacePart R F S) : carrier S = F := by
  rcases h with ⟨_, rfl⟩ | ⟨_, x, hx, c, hc, h⟩
  · ext y
    simp [carrier]
  · have hcard : (F \ R.long F).card = 1 := by rw [Finset.card_sdiff_of_subset hl, hF, h2]
    obtain ⟨c', hc'⟩ := Finset.card_eq_one.mp hcard
    rw [hc', Finset.mem_singleton] at hc
    subst hc
    have hmem : ∀ y, y ∈ F ↔ y ∈ R.long F ∨ y = c := by
      intro y
      constructor
      · intro h
        by_cases hy : y ∈ R.long F
        · exact Or.inl hy
        · right
          rw [← Finset.mem_singleton, ← hc']
          exact Finset.mem_sdiff.mpr ⟨h, hy⟩
      · rintro (h | rfl)
        · exact hl h
        · have : y ∈ F \ R.long F := by rw [hc']; simp
          exact (Finset.mem_sdiff.mp this).1
    ext y
    rw [hmem]
    rcases h with ⟨_, rfl⟩ | ⟨_, rfl | rfl⟩ <;> simp only [carrier, Finset.mem_biUnion, Finset.mem_insert, Finset.mem_singleton, id,
      exists_eq_or_imp, exists_eq_left] <;> constructor
    · rintro (h | h | rfl)
      · exact Or.inl h
      · exact Or.inr h
      · exact Or.inl hx
    · rintro (h | h)
      · exact Or.inl h
      · exact Or.inr (Or.inl h)
    · rintro (h | h | rfl | h)
      · exact Or.inl h
      · exact Or.inr h
      · exact Or.inl hx
      · exact Or.inr h
    · rintro (h | h)
      · exact Or.inl h
      · exact Or.inr (Or.inl h)
    · rintro (h | (rfl | h) | rfl)
      · exact Or.inl h
      · exact Or.inl hx
      · exact Or.inr h
      · exact Or.inl hx
    · rintro (h | h)
      · exact Or.inl h
      · exact Or.inr (Or.inl (Or.inr h))

theorem erase_image {v : Nat → V} (hv : Inj4 v) (t : List Nat) (hn : t.Nodup) (ht : ∀ i ∈ t, i < 10) (i : Nat) (hi : i ∈ t) :
    (t.toFinset.image (tetPt v)).erase (tetPt v i) = (t.erase i).toFinset.image (tetPt v) := by
  ext P
  simp only [Finset.mem_erase, Finset.mem_image, List.mem_toFinset]
  constructor
  · rintro ⟨hne, j, hj, rfl⟩
    exact ⟨j, (List.Nodup.mem_erase_iff hn).mpr ⟨fun h => hne (by rw [h]), hj⟩, rfl⟩
  · rintro ⟨j, hj, rfl⟩
    obtain ⟨h1, h2⟩ := (List.Nodup.mem_erase_iff hn).mp hj
    exact ⟨fun h => h1 (tetPt_inj hv j i (ht j h2) (ht i hi) h), j, h2, rfl⟩

theorem tet_local {K : Type} [LinearOrder K] (R : Rule V) (key : Finset V → K) (cells : List (Nat → V)) (hv : ∀ v ∈ cells, Inj4 v)
    (hl : ∀ v ∈ cells, ∀ f < 4, Longest R key (tetFacet v f)) (hc : ∀ v ∈ cells, ∀ f < 4, Closed R (tetFacet v f)) :
    LocalOK 3 cells tetVerts (tetKids R) (FacePart R) := by
  have hgood := fun v hm => goodTet _ _ (tet_good R key (hv v hm) (hl v hm) (hc v hm))
  have hlt : ∀ v (hm : v ∈ cells), ∀ t ∈ getTetrahedra (tetMarks R v) (tetLong R v), ∀ i ∈ t, i < 10 := by
    intro v hm t ht i hi
    rcases ((hgood v hm).cells t ht).2.2 i hi with h | h
    · omega
    · exact h.1
  have hcount : ∀ v (hm : v ∈ cells), ∀ s : List Nat, (∀ i ∈ s, i < 10) →
      (tetKids R v).countP (fun K => decide (s.toFinset.image (tetPt v) ⊆ K)) =
        (getTetrahedra (tetMarks R v) (tetLong R v)).countP (sub s) := by
    intro v hm s hs
    unfold tetKids
    rw [List.countP_map]
    refine List.countP_congr fun t ht => ?_
    simp only [Function.comp, decide_eq_true_eq]
    exact image_sub_iff (hv v hm) s t hs (hlt v hm t ht)
  refine ⟨?_, ?_, ?_, ?_, ?_⟩
  · intro v hm
    unfold tetVerts
    rw [Finset.card_image_of_injOn]
    · rfl
    · intro i hi j hj h
      simp only [Finset.mem_coe, List.mem_toFinset, List.mem_range] at hi hj
      exact hv v hm i hi j hj h
  · intro v hm F hF hFc S hS
    obtain ⟨f, hf, rfl⟩ := subset_facet (hv v hm) F hF hFc
    obtain ⟨s, hs, rfl⟩ := (facePart_iff R key (hv v hm) f hf (hl v hm f hf) S).mp hS
    rw [hcount v hm s (patt_lt _ f hf _ (tetLong_get R key (hv v hm) f hf (hl v hm f hf)).1 s hs)]
    exact (hgood v hm).one f hf s hs
  · intro v hm F hF hFc S hS
    obtain ⟨f, hf, rfl⟩ := subset_facet (hv v hm) F hF hFc
    exact facePart_carrier R _ (hl v hm f hf).1 (hl v hm f hf).2.1 hFc S hS
  · intro v hm K hK
    unfold tetKids at hK
    obtain ⟨t, ht, rfl⟩ := List.mem_map.mp hK
    intro x hx
    obtain ⟨i, hi, j, hj, rfl⟩ := (carrier_image v t x).mp hx
    unfold tetVerts
    exact Finset.mem_image_of_mem _ (List.mem_toFinset.mpr (List.mem_range.mpr (ends_lt i j hj)))
  · intro v hm K hK p hp
    unfold tetKids at hK
    obtain ⟨t, ht, rfl⟩ := List.mem_map.mp hK
    obtain ⟨i, hi, rfl⟩ := Finset.mem_image.mp hp
    have hi := List.mem_toFinset.mp hi
    obtain ⟨_, hn, _⟩ := (hgood v hm).cells t ht
    have her : ∀ j ∈ t.erase i, j < 10 := fun j hj => hlt v hm t ht j (List.mem_of_mem_erase hj)
    rw [erase_image (hv v hm) t hn (hlt v hm t ht) i hi]
    rcases (hgood v hm).facet t ht i hi with ⟨f, hf, s, hs, h1, h2⟩ | ⟨h1, h2⟩
    · left
      refine ⟨tetFacet v f, ?_, ?_, ?_⟩
      · unfold tetFacet tetVerts
        exact Finset.image_subset_image (Finset.erase_subset _ _)
      · unfold tetFacet
        rw [Finset.card_image_of_injOn]
        · rw [Finset.card_erase_of_mem (List.mem_toFinset.mpr (List.mem_range.mpr hf))]; rfl
        · intro i hi j hj h
          simp only [Finset.mem_coe, Finset.mem_erase, List.mem_toFinset, List.mem_range] at hi hj
          exact hv v hm i hi.2 j hj.2 h
      · refine (facePart_iff R key (hv v hm) f hf (hl v hm f hf) _).mpr ⟨s, hs, ?_⟩
        congr 1
        ext j
        simp only [List.mem_toFinset]
        exact ⟨fun h => h1 h, fun h => h2 h⟩
    · right
      refine ⟨?_, ?_⟩
      · ext x
        rw [carrier_image]
        unfold tetVerts
        simp only [Finset.mem_image, List.mem_toFinset, List.mem_range]
        constructor
        · rintro ⟨i, _, j, hj, rfl⟩
          exact ⟨j, ends_lt i j hj, rfl⟩
        · rintro ⟨w, hw, rfl⟩
          obtain ⟨i, hi, hwi⟩ := h1 w hw
          exact ⟨i, hi, w, hwi, rfl⟩
      · rw [hcount v hm _ her]; exact h2

end Tet

end Verif.Refine
