import Verif.Model.SubmeshTags
import Verif.Spec.SubmeshTags
import Verif.Props.C62_Submesh
/-!
# C63: transfer of tags to a sub-mesh
-/
namespace Verif.Props
open Verif.Spec Verif.Submesh Verif.SubmeshTags

/-- Tags on a mesh, and a sub-mesh: `c2v` and `subC2v` are the vertices of the cells of the sub-mesh, in the mesh and in the
sub-mesh. -/
structure SubTagsOk {V : Type} (I : SubmeshTags.Input V) (nc np ns : Nat) (e2c e2v subE2v subC2e c2v subC2v : Nat → List Nat)
    (tbl : List (List Nat)) (numTagged : Nat) : Prop where
  dim : I.tagDim ≤ I.subDim
  subCells : I.subCells = some nc
  parentEnts : I.parentEnts = some np
  hasE2c : I.tagDim ≠ I.subDim → I.e2c = some e2c
  hasE2v : I.e2v = some e2v
  hasSubE2v : I.subE2v = some subE2v
  hasSubC2e : I.subC2e = some subC2e
  hasSubEnts : I.subEnts = some ns
  /-- tags: entities of the mesh, each once -/
  tagged : ∀ t ∈ I.tags, t.1 < numTagged
  once : (I.tags.map Prod.fst).Nodup
  /-- maps of the sub-mesh -/
  cellLen : I.cellMap.length = nc
  cellNodup : I.cellMap.Nodup
  cellRange : ∀ c ∈ I.cellMap, c < np
  vertNodup : I.vertMap.Nodup
  vertRange : ∀ i, i < ns → ∀ v ∈ subE2v i, v < I.vertMap.length
  /-- vertices of a cell of the sub-mesh -/
  cellVerts : ∀ k c, I.cellMap[k]? = some c → (subC2v k).map (fun v => I.vertMap[v]?) = (c2v c).map some
  /-- entities have different vertices, equally many, and are known by them -/
  nodup : ∀ e, e < numTagged → (e2v e).Nodup
  subNodup : ∀ i, i < ns → (subE2v i).Nodup
  sizes : ∀ e i, e < numTagged → i < ns → (subE2v i).length = (e2v e).length
  inj : ∀ e e', e < numTagged → e' < numTagged → (e2v e).Perm (e2v e') → e = e'
  subInj : ∀ i i', i < ns → i' < ns → (subE2v i).Perm (subE2v i') → i = i'
  /-- connectivity of the mesh: the cells of an entity are those that have it as a face -/
  faces : I.tagDim ≠ I.subDim → ∀ e c, e < numTagged → c < np → (c ∈ e2c e ↔ IsFaceOf tbl (c2v c) (e2v e))
  /-- connectivity of the sub-mesh: all entities belong to cells and are faces of them -/
  subRange : ∀ k, k < nc → ∀ i ∈ subC2e k, i < ns
  subFaces : I.tagDim ≠ I.subDim → ∀ i, i < ns → ∃ k, k < nc ∧ i ∈ subC2e k ∧ IsFaceOf tbl (subC2v k) (subE2v i)
  /-- if cells are tagged, they are the entities -/
  cells : I.tagDim = I.subDim → ns = nc ∧ numTagged = np ∧ e2v = c2v ∧ subE2v = subC2v

section
variable {V : Type} [DecidableEq V] {I : SubmeshTags.Input V} {nc np ns n : Nat}
  {e2c e2v subE2v subC2e c2v subC2v : Nat → List Nat} {tbl : List (List Nat)}

theorem isMatch_iff (h : SubTagsOk I nc np ns e2c e2v subE2v subC2e c2v subC2v tbl n) (e i : Nat) (he : e < n) (hi : i < ns) :
    isMatch I.vertMap (e2v e) (subE2v i) = true ↔ SameVertices I.vertMap (e2v e) (subE2v i) := by
  unfold isMatch SameVertices
  rw [List.all_eq_true]
  constructor
  · intro ha
    have hsub : ((subE2v i).map fun v => I.vertMap[v]?) ⊆ (e2v e).map some := by
      intro x hx
      obtain ⟨v, hv, rfl⟩ := List.mem_map.mp hx
      have := ha v hv
      cases hp : I.vertMap[v]? with
      | none => rw [hp] at this; simp at this
      | some p => rw [hp] at this; simp at this; simpa using this
    have hnd : ((subE2v i).map fun v => I.vertMap[v]?).Nodup := by
      refine List.Nodup.map_on ?_ (h.subNodup i hi)
      intro a ha' b _ hab
      exact (List.getElem?_inj (h.vertRange i hi a ha') h.vertNodup).mp hab
    exact (hnd.subperm hsub).perm_of_length_le (by simp [h.sizes e i he hi])
  · intro hp v hv
    have : I.vertMap[v]? ∈ (e2v e).map some := hp.mem_iff.mp (List.mem_map.mpr ⟨v, hv, rfl⟩)
    obtain ⟨p, hp', he'⟩ := List.mem_map.mp this
    rw [← he']
    simpa using hp'

/-- A sub-mesh entity is one entity of the mesh, and conversely. -/
theorem same_unique (h : SubTagsOk I nc np ns e2c e2v subE2v subC2e c2v subC2v tbl n) (e e' i i' : Nat) (he : e < n) (he' : e' < n)
    (hi : i < ns) (hi' : i' < ns) (h1 : SameVertices I.vertMap (e2v e) (subE2v i)) (h2 : SameVertices I.vertMap (e2v e') (subE2v i')) :
    e = e' ↔ i = i' := by
  unfold SameVertices at h1 h2
  constructor
  · rintro rfl
    refine h.subInj i i' hi hi' ?_
    have hp := h1.trans h2.symm
    refine (List.perm_ext_iff_of_nodup (h.subNodup i hi) (h.subNodup i' hi')).mpr ?_
    have key : ∀ a b, a < ns → b < ns → ((subE2v a).map fun v => I.vertMap[v]?).Perm ((subE2v b).map fun v => I.vertMap[v]?) →
        ∀ v ∈ subE2v a, v ∈ subE2v b := by
      intro a b ha hb hp v hv
      have := hp.mem_iff.mp (List.mem_map.mpr ⟨v, hv, rfl⟩)
      obtain ⟨v', hv', heq⟩ := List.mem_map.mp this
      have := (List.getElem?_inj (h.vertRange b hb v' hv') h.vertNodup).mp heq
      exact this ▸ hv'
    exact fun v => ⟨key i i' hi hi' hp v, key i' i hi' hi hp.symm v⟩
  · rintro rfl
    refine h.inj e e' he he' ?_
    exact (List.map_perm_map_iff (Option.some_injective _)).mp (h1.symm.trans h2)

theorem table_get (h : SubTagsOk I nc np ns e2c e2v subE2v subC2e c2v subC2v tbl n) (c k : Nat) :
    ((inverse np (I.cellMap.take nc))[c]?).join = some k ↔ I.cellMap[k]? = some c := by
  rw [List.take_of_length_le (by rw [h.cellLen])]
  constructor
  · intro hk
    by_cases hc : c ∈ I.cellMap
    · obtain ⟨k', hk'⟩ := List.mem_iff_getElem?.mp hc
      rw [inverse_get np _ h.cellNodup h.cellRange k' c hk'] at hk
      have : k' = k := by simpa using hk
      exact this ▸ hk'
    · exfalso
      unfold inverse at hk
      rw [ArrayFold.set_untouched _ _ c] at hk
      · rw [List.getElem?_replicate] at hk
        split at hk <;> simp at hk
      · intro b hb
        rw [List.mem_zipIdx_iff_getElem?] at hb
        exact hc (List.mem_of_getElem? hb)
  · intro hk
    rw [inverse_get np _ h.cellNodup h.cellRange k c hk]; rfl

/-- The search finds exactly the entity of the sub-mesh with the same vertices. -/
theorem findSub_iff (h : SubTagsOk I nc np ns e2c e2v subE2v subC2e c2v subC2v tbl n) (e i : Nat) (he : e < n) :
    findSub (decide (I.tagDim = I.subDim)) (inverse np (I.cellMap.take nc)) I.vertMap (I.e2c.getD fun _ => []) e2v subE2v subC2e e = some i ↔
      i < ns ∧ SameVertices I.vertMap (e2v e) (subE2v i) := by
  unfold findSub
  by_cases hd : I.tagDim = I.subDim
  · simp only [hd, decide_true, if_true]
    rw [table_get h]
    obtain ⟨h1, h2, h3, h4⟩ := h.cells hd
    constructor
    · intro hk
      have hik : i < ns := by rw [h1, ← h.cellLen]; exact (List.getElem?_eq_some_iff.mp hk).1
      refine ⟨hik, ?_⟩
      unfold SameVertices
      rw [h4, h3, h.cellVerts i e hk]
    · rintro ⟨hi, hs⟩
      have hlt : i < I.cellMap.length := by rw [h.cellLen, ← h1]; exact hi
      have hk := List.getElem?_eq_getElem hlt
      rw [hk]
      congr 1
      have hr := h.cellRange _ (List.getElem_mem hlt)
      refine (same_unique h _ e i i (h2 ▸ hr) he hi hi ?_ hs).mpr rfl
      unfold SameVertices
      rw [h4, h3, h.cellVerts i _ hk]
  · simp only [hd, decide_false, Bool.false_eq_true, if_false, h.hasE2c hd, Option.getD_some]
    have sound : ∀ i, (((e2c e).filterMap fun c => ((inverse np (I.cellMap.take nc))[c]?).join).findSome? fun k =>
        (subC2e k).find? fun s => isMatch I.vertMap (e2v e) (subE2v s)) = some i →
        i < ns ∧ SameVertices I.vertMap (e2v e) (subE2v i) := by
      intro i hi
      obtain ⟨k, hk, hf⟩ := List.exists_of_findSome?_eq_some hi
      obtain ⟨c, _, hc⟩ := List.mem_filterMap.mp hk
      rw [table_get h] at hc
      have hkc : k < nc := by rw [← h.cellLen]; exact (List.getElem?_eq_some_iff.mp hc).1
      have hin := h.subRange k hkc i (List.mem_of_find?_eq_some hf)
      have hb : isMatch I.vertMap (e2v e) (subE2v i) = true := by have := List.find?_some hf; exact this
      exact ⟨hin, (isMatch_iff h e i he hin).mp hb⟩
    refine ⟨sound i, ?_⟩
    rintro ⟨hi, hs⟩
    obtain ⟨k, hk, hik, f, hf, hp⟩ := h.subFaces hd i hi
    have hlt : k < I.cellMap.length := by rw [h.cellLen]; exact hk
    have hkc := List.getElem?_eq_getElem hlt
    have hcv := h.cellVerts k _ hkc
    have hface : IsFaceOf tbl (c2v I.cellMap[k]) (e2v e) := by
      refine ⟨f, hf, ?_⟩
      have h1 := (hp.map fun x : Option Nat => x.bind fun v => I.vertMap[v]?)
      rw [List.map_map, List.map_map] at h1
      refine hs.symm.trans (h1.trans ?_)
      refine List.Perm.of_eq (List.map_congr_left ?_)
      intro j _
      have h2 := congrArg (fun z => z[j]?) hcv
      simp only [List.getElem?_map] at h2
      simp only [Function.comp]
      cases hj : (subC2v k)[j]? with
      | none =>
        rw [hj] at h2
        cases hj' : (c2v I.cellMap[k])[j]? with
        | none => rfl
        | some _ => rw [hj'] at h2; simp at h2
      | some v =>
        rw [hj] at h2
        cases hj' : (c2v I.cellMap[k])[j]? with
        | none => rw [hj'] at h2; simp at h2
        | some _ => rw [hj'] at h2; simpa using h2
    have hmem : I.cellMap[k] ∈ e2c e :=
      (h.faces hd e _ he (h.cellRange _ (List.getElem_mem hlt))).mpr hface
    have hfind : ((subC2e k).find? fun s => isMatch I.vertMap (e2v e) (subE2v s)) ≠ none := by
      intro hn
      have := List.find?_eq_none.mp hn i hik
      exact this ((isMatch_iff h e i he hi).mpr hs)
    have hsome : (((e2c e).filterMap fun c => ((inverse np (I.cellMap.take nc))[c]?).join).findSome? fun k =>
        (subC2e k).find? fun s => isMatch I.vertMap (e2v e) (subE2v s)) ≠ none := by
      intro hn
      have := List.findSome?_eq_none_iff.mp hn k (List.mem_filterMap.mpr ⟨_, hmem, (table_get h _ _).mpr hkc⟩)
      exact hfind this
    obtain ⟨i', hi'⟩ := Option.ne_none_iff_exists'.mp hsome
    rw [hi']
    obtain ⟨a1, a2⟩ := sound i' hi'
    rw [(same_unique h e e i' i he he a1 hi a2 hs).mp rfl]

/-- Values written by a loop whose targets are different. -/
theorem fold_values {α W : Type} (f : α → Option Nat) (g : α → W) (l : List α) (hinj : l.Pairwise fun a b => ∀ i, f a = some i → f b ≠ some i)
    (a : List W) (i : Nat) (w : W) :
    (l.foldl (fun a t => match f t with | some s => a.set s (g t) | none => a) a)[i]? = some w ↔
      i < a.length ∧ ((∃ t ∈ l, f t = some i ∧ g t = w) ∨ ((∀ t ∈ l, f t ≠ some i) ∧ a[i]? = some w)) := by
  induction l generalizing a with
  | nil =>
    simp only [List.foldl_nil, List.not_mem_nil, false_and, exists_false, false_implies, implies_true, true_and, false_or]
    exact ⟨fun h => ⟨(List.getElem?_eq_some_iff.mp h).1, h⟩, fun h => h.2⟩
  | cons t l ih =>
    rw [List.pairwise_cons] at hinj
    rw [List.foldl_cons, ih hinj.2]
    cases ht : f t with
    | none =>
      simp only [List.exists_mem_cons_iff, List.forall_mem_cons, ht]
      simp
    | some s =>
      simp only [List.length_set, List.exists_mem_cons_iff, List.forall_mem_cons, ht]
      by_cases hs : s = i
      · subst hs
        have hno : ∀ t' ∈ l, f t' ≠ some s := fun t' ht' => hinj.1 t' ht' s ht
        constructor
        · rintro ⟨hl, h1 | ⟨_, h2⟩⟩
          · obtain ⟨t', ht', h3, _⟩ := h1; exact absurd h3 (hno t' ht')
          · rw [List.getElem?_set_self hl] at h2
            exact ⟨hl, Or.inl (Or.inl ⟨rfl, Option.some.inj h2⟩)⟩
        · rintro ⟨hl, (⟨_, h2⟩ | ⟨t', ht', h3, _⟩) | ⟨⟨h3, _⟩, _⟩⟩
          · refine ⟨hl, Or.inr ⟨hno, ?_⟩⟩
            rw [List.getElem?_set_self hl, h2]
          · exact absurd h3 (hno t' ht')
          · exact absurd rfl h3
      · rw [List.getElem?_set_ne hs]
        simp [hs]

theorem mem_zipIdx_swap {W : Type} (A : List W) (i : Nat) (w : W) : (∃ a ∈ A.zipIdx, (a.2, a.1) = (i, w)) ↔ A[i]? = some w := by
  constructor
  · rintro ⟨a, ha, he⟩
    rw [List.mem_zipIdx_iff_getElem?] at ha
    cases he
    exact ha
  · intro ha
    exact ⟨(w, i), List.mem_zipIdx_iff_getElem?.mpr ha, rfl⟩

/-- **C63 (transfer, part).**  The tags of the sub-mesh are sorted, and an entity of the sub-mesh is tagged with a value
different from the largest value of the type exactly if the entity of the mesh with the same vertices is tagged with it.
The full claim, for all values, fails (`C63_refuted_max`). -/
theorem C63_transfer_partial (h : SubTagsOk I nc np ns e2c e2v subE2v subC2e c2v subC2v tbl n) :
    ∃ L, transfer I = .ok L ∧ (L.map Prod.fst).Pairwise (· < ·) ∧
      ∀ i v, (i, v) ∈ L ↔ v ≠ I.maxVal ∧ i < ns ∧ ∃ e, (e, v) ∈ I.tags ∧ SameVertices I.vertMap (e2v e) (subE2v i) := by
  have hd : ¬ I.tagDim > I.subDim := by have := h.dim; omega
  have hn : ¬ (I.tagDim ≠ I.subDim ∧ I.e2c.isNone = true) := by
    rintro ⟨h1, h2⟩
    rw [h.hasE2c h1] at h2; simp at h2
  unfold transfer
  rw [if_neg hd, h.subCells, h.parentEnts]
  simp only [if_neg hn, h.hasSubE2v, h.hasSubC2e, h.hasSubEnts, h.hasE2v]
  refine ⟨_, rfl, ?_, ?_⟩
  · refine List.Pairwise.sublist (List.Sublist.map _ List.filter_sublist) ?_
    rw [List.map_map]
    have : (Prod.fst ∘ fun p : V × Nat => (p.2, p.1)) = Prod.snd := rfl
    rw [this, List.zipIdx_map_snd]
    exact List.pairwise_lt_range' ..
  · intro i v
    have hinj : I.tags.Pairwise fun a b => ∀ i,
        findSub (decide (I.tagDim = I.subDim)) (inverse np (I.cellMap.take nc)) I.vertMap (I.e2c.getD fun _ => []) e2v subE2v subC2e a.1 = some i →
        findSub (decide (I.tagDim = I.subDim)) (inverse np (I.cellMap.take nc)) I.vertMap (I.e2c.getD fun _ => []) e2v subE2v subC2e b.1 ≠ some i := by
      have h1 := List.pairwise_map.mp h.once
      refine h1.imp_of_mem ?_
      intro a b ha hb hne i e1 e2
      obtain ⟨a1, a2⟩ := (findSub_iff h a.1 i (h.tagged a ha)).mp e1
      obtain ⟨_, b2⟩ := (findSub_iff h b.1 i (h.tagged b hb)).mp e2
      exact hne ((same_unique h a.1 b.1 i i (h.tagged a ha) (h.tagged b hb) a1 a1 a2 b2).mpr rfl)
    rw [List.mem_filter, List.mem_map]
    have hfv := fold_values (fun t : Nat × V => findSub (decide (I.tagDim = I.subDim)) (inverse np (I.cellMap.take nc)) I.vertMap
        (I.e2c.getD fun _ => []) e2v subE2v subC2e t.1) Prod.snd I.tags hinj (List.replicate ns I.maxVal) i v
    refine (and_congr ((mem_zipIdx_swap _ i v).trans hfv) Iff.rfl).trans ?_
    simp only [List.length_replicate, decide_eq_true_eq]
    constructor
    · rintro ⟨⟨hi, ⟨t, ht, h1, h2⟩ | ⟨_, h3⟩⟩, hv⟩
      · refine ⟨hv, hi, t.1, ?_, ((findSub_iff h t.1 i (h.tagged t ht)).mp h1).2⟩
        rw [← h2]; exact ht
      · rw [List.getElem?_replicate, if_pos hi] at h3
        exact absurd (Option.some.inj h3).symm hv
    · rintro ⟨hv, hi, e, he, hs⟩
      exact ⟨⟨hi, Or.inl ⟨(e, v), he, (findSub_iff h e i (h.tagged _ he)).mpr ⟨hi, hs⟩, rfl⟩⟩, hv⟩

/-- **C63 (dimension).**  Tags of entities of higher dimension than the sub-mesh are refused. -/
theorem C63_refused (I : SubmeshTags.Input V) (h : I.tagDim > I.subDim) : transfer I = .error .dim := by
  unfold transfer
  rw [if_pos h]

end

/-! ### A case

Two triangles `[0, 1, 2]` and `[1, 2, 3]` of which the second is the sub-mesh, with vertices 2, 3, 1 renumbered 0, 1, 2.  Tags are
on the five edges of the mesh: 0 = (1, 2), 1 = (0, 2), 2 = (0, 1), 3 = (2, 3), 4 = (1, 3). -/

/-- Edges of the reference triangle. -/
def stTable : List (List Nat) := [[1, 2], [0, 2], [0, 1]]

def stC2v (c : Nat) : List Nat := [[0, 1, 2], [1, 2, 3]].getD c []
def stSubC2v (c : Nat) : List Nat := [[2, 0, 1]].getD c []
def stE2v (e : Nat) : List Nat := [[1, 2], [0, 2], [0, 1], [2, 3], [1, 3]].getD e []
def stSubE2v (e : Nat) : List Nat := [[0, 1], [2, 1], [2, 0]].getD e []
def stE2c (e : Nat) : List Nat := [[0, 1], [0], [0], [1], [1]].getD e []

/-- The arguments with given tags; 9 stands for the largest value. -/
def stInput (tags : List (Nat × Nat)) : SubmeshTags.Input Nat where
  tagDim := 1
  subDim := 2
  tags := tags
  subCells := some 1
  parentEnts := some 2
  e2c := some stE2c
  e2v := some stE2v
  subE2v := some stSubE2v
  subC2e := some fun _ => [0, 1, 2]
  subEnts := some 3
  cellMap := [1]
  vertMap := [2, 3, 1]
  maxVal := 9

instance stDec (tbl : List (List Nat)) (cv ev : List Nat) : Decidable (IsFaceOf tbl cv ev) :=
  inferInstanceAs (Decidable (∃ f ∈ tbl, _))

theorem st_ok (tags : List (Nat × Nat)) (h1 : ∀ t ∈ tags, t.1 < 5) (h2 : (tags.map Prod.fst).Nodup) :
    SubTagsOk (stInput tags) 1 2 3 stE2c stE2v stSubE2v (fun _ => [0, 1, 2]) stC2v stSubC2v stTable 5 where
  dim := by change 1 ≤ 2; decide
  subCells := rfl
  parentEnts := rfl
  hasE2c := fun _ => rfl
  hasE2v := rfl
  hasSubE2v := rfl
  hasSubC2e := rfl
  hasSubEnts := rfl
  tagged := h1
  once := h2
  cellLen := rfl
  cellNodup := by change [1].Nodup; decide
  cellRange := by change ∀ c ∈ [1], c < 2; decide
  vertNodup := by change [2, 3, 1].Nodup; decide
  vertRange := by change ∀ i, i < 3 → ∀ v ∈ stSubE2v i, v < 3; decide
  cellVerts := by
    intro k c hk
    have hk' : [1][k]? = some c := hk
    have hlt := (List.getElem?_eq_some_iff.mp hk').1
    have h0 : k = 0 := by simpa using hlt
    subst h0
    cases hk'
    rfl
  nodup := by decide
  subNodup := by decide
  sizes := fun e i he hi => (by decide : ∀ e, e < 5 → ∀ i, i < 3 → (stSubE2v i).length = (stE2v e).length) e he i hi
  inj := fun e e' he he' => (by decide : ∀ e, e < 5 → ∀ e', e' < 5 → (stE2v e).Perm (stE2v e') → e = e') e he e' he'
  subInj := fun e e' he he' => (by decide : ∀ e, e < 3 → ∀ e', e' < 3 → (stSubE2v e).Perm (stSubE2v e') → e = e') e he e' he'
  faces := fun _ e c he hc =>
    (by decide : ∀ e, e < 5 → ∀ c, c < 2 → (c ∈ stE2c e ↔ IsFaceOf stTable (stC2v c) (stE2v e))) e he c hc
  subRange := by decide
  subFaces := by
    intro _ i hi
    refine ⟨0, by decide, by simp; omega, ?_⟩
    interval_cases i <;> decide
  cells := by intro h; exact absurd h (by decide : (1 : Nat) ≠ 2)

/-- Edges 0 and 4 are those of numbers 2 and 1 of the sub-mesh; edge 2 is not part of it. -/
example : SubTagsOk (stInput [(0, 5), (2, 6), (4, 7)]) 1 2 3 stE2c stE2v stSubE2v (fun _ => [0, 1, 2]) stC2v stSubC2v stTable 5 :=
  st_ok _ (by decide) (by decide)

example : (match transfer (stInput [(0, 5), (2, 6), (4, 7)]) with | .ok l => l | .error _ => []) = [(1, 7), (2, 5)] := by decide +kernel

/-- **C63 (the largest value).**  A tag with the largest value of the type is lost. -/
theorem C63_refuted_max : ∃ (I : SubmeshTags.Input Nat) (nc np ns : Nat) (e2c e2v subE2v subC2e c2v subC2v : Nat → List Nat)
    (tbl : List (List Nat)) (n : Nat), SubTagsOk I nc np ns e2c e2v subE2v subC2e c2v subC2v tbl n ∧
    ∃ L e i v, transfer I = .ok L ∧ (e, v) ∈ I.tags ∧ i < ns ∧ SameVertices I.vertMap (e2v e) (subE2v i) ∧ (i, v) ∉ L := by
  have hok := st_ok [(0, 9)] (by decide) (by decide)
  obtain ⟨L, h1, _, h3⟩ := C63_transfer_partial hok
  refine ⟨_, _, _, _, _, _, _, _, _, _, _, _, hok, L, 0, 2, 9, h1, ?_, by decide, ?_, ?_⟩
  · change (0, 9) ∈ [(0, 9)]; decide
  · change List.Perm _ _; decide
  · intro hm
    exact ((h3 2 9).mp hm).1 rfl

end Verif.Props
