import Verif.Spec.Submesh
import Verif.Props.C29_SubMap
import Verif.Props.C48_LocateDofs
import Verif.Lemmas.WorldCheck
/-!
# C62: meshes of a subset of the entities
-/
namespace Verif.Props
open Verif.Std Verif.World Verif.Spec Verif.Submesh Verif.SubMap

variable {X : Type}

/-- A mesh on all processes and lists of local entities. -/
structure SubmeshInput (m : Mesh X) (dim : Nat) (ind : Nat → List Nat) : Prop where
  vP : m.verts.P = m.ents.P
  nP : m.nodes.P = m.ents.P
  ents : m.ents.Valid
  verts : m.verts.Valid
  nodes : m.nodes.Valid
  listed : ∀ r, r < m.ents.P → ∀ e ∈ ind r, e < numLocal m.ents r
  e2v : ∀ r, r < m.ents.P → ∀ e, e < numLocal m.ents r → ∀ v ∈ m.e2v r e, v < numLocal m.verts r
  x : ∀ r, r < m.ents.P → (m.x r).length = numLocal m.nodes r ∧ (m.igi r).length = numLocal m.nodes r
  /-- geometry nodes exist -/
  xdofs : ∀ r, r < m.ents.P → ∀ c, ∀ i ∈ (m.geo r).xdofs c, i < numLocal m.nodes r
  /-- cells have all dofs of the coordinate element -/
  closure : ∀ r, r < m.ents.P → ∀ c d le, ∀ j ∈ (m.geo r).closure d le, j < ((m.geo r).xdofs c).length
  permute : ∀ r, r < m.ents.P → ∀ c le l, ((m.geo r).permute c le l).Perm l
  /-- every entity belongs to a cell -/
  cell : dim ≠ m.tdim → ∀ r, r < m.ents.P → ∀ e, e < numLocal m.ents r →
    (m.geo r).e2c e ≠ [] ∧ ∀ c ∈ (m.geo r).e2c e, e ∈ (m.geo r).c2e c
  /-- all cells of an entity have the same nodes on it -/
  conform : dim ≠ m.tdim → ∀ r, r < m.ents.P → ∀ e, e < numLocal m.ents r → ∀ l l',
    NodesOf (m.geo r) m.tdim dim e l → NodesOf (m.geo r) m.tdim dim e l' → l.Perm l'
  supported : ¬ (m.wedge = true ∧ dim = 2)

theorem mapM_get {α β : Type} (f : α → Option β) (l : List α) (r : List β) (h : l.mapM f = some r) :
    r.map some = l.map f := by
  induction l generalizing r with
  | nil => simp at h; subst h; rfl
  | cons a l ih =>
    rw [List.mapM_cons] at h
    cases hf : f a with
    | none => rw [hf] at h; simp at h
    | some b =>
      rw [hf] at h
      cases hm : l.mapM f with
      | none => rw [hm] at h; simp at h
      | some bs =>
        rw [hm] at h
        simp at h
        subst h
        simp [ih bs hm, hf]

theorem mapM_of_get {α β : Type} (f : α → Option β) (l : List α) (r : List β) (h : r.map some = l.map f) :
    l.mapM f = some r := by
  induction l generalizing r with
  | nil => cases r <;> simp_all
  | cons a l ih =>
    cases r with
    | nil => simp at h
    | cons b r =>
      simp only [List.map_cons, List.cons.injEq] at h
      rw [List.mapM_cons, ← h.1, ih r h.2]; rfl

theorem mapM_getElem {α β : Type} (f : α → Option β) (l : List α) (r : List β) (h : l.mapM f = some r) (k : Nat) (a : α)
    (hk : l[k]? = some a) : ∃ b, r[k]? = some b ∧ f a = some b := by
  have h1 := congrArg (fun z => z[k]?) (mapM_get f l r h)
  simp only [List.getElem?_map, hk, Option.map_some] at h1
  cases hr : r[k]? with
  | none => rw [hr] at h1; simp at h1
  | some b => rw [hr] at h1; exact ⟨b, rfl, (Option.some.inj h1).symm⟩

theorem mapM_len {α β : Type} (f : α → Option β) (l : List α) (r : List β) (h : l.mapM f = some r) : r.length = l.length := by
  have := congrArg List.length (mapM_get f l r h); simpa using this

theorem inverse_get (n : Nat) (l : List Nat) (hn : l.Nodup) (hl : ∀ i ∈ l, i < n) (k i : Nat) (hk : l[k]? = some i) :
    (inverse n l)[i]? = some (some k) := by
  unfold inverse
  refine ArrayFold.set_written _ _ i k (by simpa using hl i (List.mem_of_getElem? hk)) ?_ ?_
  · rw [List.mem_zipIdx_iff_getElem?]; exact hk
  · intro b hb
    rw [List.mem_zipIdx_iff_getElem?] at hb
    have hb' : l[b]? = some i := hb
    exact (List.getElem?_inj (List.getElem?_eq_some_iff.mp hb').1 hn).mp (hb'.trans hk.symm)

/-- Rows whose indices are all chosen are renumbered, and the new indices stand for the old ones. -/
theorem renumber_ok (n : Nat) (l : List Nat) (hn : l.Nodup) (hl : ∀ i ∈ l, i < n) (rows : List (List Nat))
    (hr : ∀ row ∈ rows, ∀ i ∈ row, i ∈ l) :
    ∃ new, renumber n l rows = some new ∧ new.length = rows.length ∧
      ∀ (k : Nat) (row : List Nat), rows[k]? = some row → ∃ row' : List Nat, new[k]? = some row' ∧ (row'.map fun i => l[i]?) = row.map some := by
  have hrow : ∀ row ∈ rows, ∃ row', (row.mapM fun v => ((inverse n l)[v]?).join) = some row' := by
    intro row hrow
    refine mapM_option_ok _ _ ?_
    intro i hi
    obtain ⟨k, hk⟩ := List.mem_iff_getElem?.mp (hr row hrow i hi)
    exact ⟨k, by rw [inverse_get n l hn hl k i hk]; rfl⟩
  obtain ⟨new, hnew⟩ := mapM_option_ok _ rows hrow
  refine ⟨new, hnew, mapM_len _ _ _ hnew, ?_⟩
  intro k row hk
  obtain ⟨row', h1, h2⟩ := mapM_getElem _ _ _ hnew k row hk
  refine ⟨row', h1, ?_⟩
  have h3 := mapM_get _ _ _ h2
  apply List.ext_getElem?
  intro j
  have h4 := congrArg (fun z => z[j]?) h3
  simp only [List.getElem?_map] at h4 ⊢
  cases hj : row[j]? with
  | none =>
    rw [hj] at h4
    cases hj' : row'[j]? with
    | none => rfl
    | some _ => rw [hj'] at h4; simp at h4
  | some i =>
    rw [hj] at h4
    obtain ⟨k', hk'⟩ := List.mem_iff_getElem?.mp (hr row (List.mem_of_getElem? hk) i (List.mem_of_getElem? hj))
    rw [Option.map_some, inverse_get n l hn hl k' i hk'] at h4
    cases hj' : row'[j]? with
    | none => rw [hj'] at h4; simp at h4
    | some b =>
      rw [hj'] at h4
      have hb : b = k' := by simpa using h4
      subst hb
      simp [hk']

/-- A sub index map numbers the listed indices consistently. -/
theorem isSubMap_of (s : SubMap.Input) (h : s.Ok) : IsSubMap s.w s.sub s.toParent fun r i => i ∈ s.ind r where
  ranks := rfl
  valid := C29_valid h
  size := by
    intro r _
    rw [sub_ghosts_length]
    unfold Input.toParent
    rw [List.length_append, List.length_map]; rfl
  nodup := fun r hr => ((C29_indices h r hr).nodup_iff).mpr (nodup_of_strict (h.sorted r hr))
  mem := fun r hr i => (C29_indices h r hr).mem_iff
  same := fun r r' k k' i i' hr hr' hk hk' => C29_same_index h r r' k k' i i' hr hr' hk hk'

theorem isSubMap_congr {old new : World} {toOld : Nat → List Nat} {p q : Nat → Nat → Prop} (h : IsSubMap old new toOld p)
    (hpq : ∀ r, r < old.P → ∀ i, p r i ↔ q r i) : IsSubMap old new toOld q :=
  ⟨h.ranks, h.valid, h.size, h.nodup, fun r hr i => (h.mem r hr i).trans (hpq r hr i), h.same⟩

section
variable {m : Mesh X} {dim : Nat} {ind : Nat → List Nat}

theorem entMap_ok (h : SubmeshInput m dim ind) : (entMap m ind).Ok where
  valid := h.ents
  sorted := fun _ _ => unique_sortNat_sorted _
  range := fun r hr i hi => h.listed r hr i ((mem_unique_sortNat _ _).mp hi)

theorem mem_toEnt (h : SubmeshInput m dim ind) (r : Nat) (hr : r < m.ents.P) (e : Nat) :
    e ∈ (entMap m ind).toParent r ↔ e ∈ ind r :=
  ((C29_indices (entMap_ok h) r hr).mem_iff).trans (mem_unique_sortNat _ _)

theorem mem_incident (f : Nat → List Nat) (l : List Nat) (v : Nat) : v ∈ incident f l ↔ ∃ e ∈ l, v ∈ f e := by
  unfold incident
  rw [mem_unique_sortNat, List.mem_flatMap]

theorem mem_vertInd (h : SubmeshInput m dim ind) (r : Nat) (hr : r < m.ents.P) (v : Nat) :
    v ∈ (vertMap m ind).ind r ↔ ∃ e ∈ ind r, v ∈ m.e2v r e := by
  change v ∈ incident _ _ ↔ _
  rw [mem_incident]
  constructor
  · rintro ⟨e, he, hv⟩; exact ⟨e, (mem_toEnt h r hr e).mp he, hv⟩
  · rintro ⟨e, he, hv⟩; exact ⟨e, (mem_toEnt h r hr e).mpr he, hv⟩

theorem vertMap_ok (h : SubmeshInput m dim ind) : (vertMap m ind).Ok where
  valid := h.verts
  sorted := fun _ _ => unique_sortNat_sorted _
  range := by
    intro r hr v hv
    have hr' : r < m.ents.P := h.vP ▸ hr
    obtain ⟨e, he, hv⟩ := (mem_vertInd h r hr' v).mp hv
    exact h.e2v r hr' e (h.listed r hr' e he) v hv

theorem subCells_ok (h : SubmeshInput m dim ind) (r : Nat) (hr : r < m.ents.P) :
    ∃ new, subCells m ind r = some new ∧ new.length = ((entMap m ind).toParent r).length ∧
      ∀ (k e : Nat), ((entMap m ind).toParent r)[k]? = some e →
        ∃ row : List Nat, new[k]? = some row ∧ (row.map fun i => ((vertMap m ind).toParent r)[i]?) = (m.e2v r e).map some := by
  have hr' : r < m.verts.P := h.vP ▸ hr
  have hv := isSubMap_of _ (vertMap_ok h)
  obtain ⟨new, h1, h2, h3⟩ := renumber_ok (numLocal m.verts r) ((vertMap m ind).toParent r) (hv.nodup r hr')
    (fun i hi => (vertMap_ok h).range r hr' i ((hv.mem r hr' i).mp hi)) (((entMap m ind).toParent r).map (m.e2v r))
    (by
      intro row hrow i hi
      obtain ⟨e, he, rfl⟩ := List.mem_map.mp hrow
      exact (hv.mem r hr' i).mpr ((mem_vertInd h r hr i).mpr ⟨e, (mem_toEnt h r hr e).mp he, hi⟩))
  refine ⟨new, h1, by simpa using h2, ?_⟩
  intro k e hk
  exact h3 k (m.e2v r e) (by rw [List.getElem?_map, hk]; rfl)

/-! ### Nodes -/

theorem entityNodes_ok (h : SubmeshInput m dim ind) (r : Nat) (hr : r < m.ents.P) (e : Nat) (he : e < numLocal m.ents r) :
    ∃ l, entityNodes (m.geo r) m.tdim dim e = some l ∧ NodesOf (m.geo r) m.tdim dim e l ∧ ∀ i ∈ l, i < numLocal m.nodes r := by
  have hget : ∀ c (ds : List Nat), (∀ j ∈ ds, j < ((m.geo r).xdofs c).length) →
      ∃ l, (ds.mapM fun d => ((m.geo r).xdofs c)[d]?) = some l ∧ ∀ i ∈ l, i < numLocal m.nodes r := by
    intro c ds hds
    obtain ⟨l, hl⟩ := mapM_option_ok (fun d => ((m.geo r).xdofs c)[d]?) ds
      fun d hd => ⟨_, List.getElem?_eq_getElem (hds d hd)⟩
    refine ⟨l, hl, ?_⟩
    intro i hi
    obtain ⟨d, _, hd⟩ := (mapM_option_some _ _ _ hl i).mp hi
    exact h.xdofs r hr c i (List.mem_of_getElem? hd)
  unfold entityNodes NodesOf
  by_cases hd : dim = m.tdim
  · simp only [if_pos hd]
    obtain ⟨l, h1, h2⟩ := hget e ((m.geo r).closure m.tdim 0) (h.closure r hr e m.tdim 0)
    exact ⟨l, h1, mapM_get _ _ _ h1, h2⟩
  · simp only [if_neg hd]
    obtain ⟨hne, hmem⟩ := h.cell hd r hr e he
    obtain ⟨c, cs, hcs⟩ := List.exists_cons_of_ne_nil hne
    have hc : c ∈ (m.geo r).e2c e := by rw [hcs]; simp
    have hin := hmem c hc
    have hlt := List.idxOf_lt_length_iff.mpr hin
    rw [hcs]
    simp only [List.head?_cons, Option.bind_eq_bind, Option.bind_some]
    rw [if_neg (by omega)]
    obtain ⟨l, h1, h2⟩ := hget c ((m.geo r).permute c (((m.geo r).c2e c).idxOf e) ((m.geo r).closure dim (((m.geo r).c2e c).idxOf e)))
      (fun j hj => h.closure r hr c dim _ j ((h.permute r hr c _ _).mem_iff.mp hj))
    refine ⟨l, h1, ⟨c, by simp, ((m.geo r).c2e c).idxOf e, ?_, ?_⟩, h2⟩
    · rw [List.getElem?_eq_getElem hlt, List.getElem_idxOf]
    · rw [mapM_get _ _ _ h1]
      exact (h.permute r hr c _ _).map _

theorem xIndices_ok (h : SubmeshInput m dim ind) (r : Nat) (hr : r < m.ents.P) :
    ∃ rows, xIndices m dim ind r = .ok rows ∧ rows.length = ((entMap m ind).toParent r).length ∧
      ∀ (k e : Nat), ((entMap m ind).toParent r)[k]? = some e →
        ∃ l, rows[k]? = some l ∧ entityNodes (m.geo r) m.tdim dim e = some l := by
  unfold xIndices entitiesToGeometry
  rw [if_neg h.supported]
  obtain ⟨rows, hrows⟩ := mapM_option_ok (entityNodes (m.geo r) m.tdim dim) ((entMap m ind).toParent r) (by
    intro e he
    obtain ⟨l, h1, _⟩ := entityNodes_ok h r hr e (h.listed r hr e ((mem_toEnt h r hr e).mp he))
    exact ⟨l, h1⟩)
  rw [hrows]
  refine ⟨rows, rfl, mapM_len _ _ _ hrows, ?_⟩
  intro k e hk
  exact mapM_getElem _ _ _ hrows k e hk

/-- The rows of all processes. -/
def nodeRows (m : Mesh X) (dim : Nat) (ind : Nat → List Nat) (r : Nat) : List (List Nat) :=
  if r < m.ents.P then
    match xIndices m dim ind r with
    | .ok rows => rows
    | .error _ => []
  else []

theorem nodeRows_spec (h : SubmeshInput m dim ind) (r : Nat) (hr : r < m.ents.P) :
    xIndices m dim ind r = .ok (nodeRows m dim ind r) ∧
    (nodeRows m dim ind r).length = ((entMap m ind).toParent r).length ∧
      ∀ (k e : Nat), ((entMap m ind).toParent r)[k]? = some e →
        ∃ l, (nodeRows m dim ind r)[k]? = some l ∧ entityNodes (m.geo r) m.tdim dim e = some l ∧
          NodesOf (m.geo r) m.tdim dim e l ∧ ∀ i ∈ l, i < numLocal m.nodes r := by
  obtain ⟨rows, h1, h2, h3⟩ := xIndices_ok h r hr
  have he : nodeRows m dim ind r = rows := by unfold nodeRows; rw [if_pos hr, h1]
  rw [he]
  refine ⟨h1, h2, ?_⟩
  intro k e hk
  obtain ⟨l, h4, h5⟩ := h3 k e hk
  obtain ⟨l', h6, h7⟩ := entityNodes_ok h r hr e (h.listed r hr e ((mem_toEnt h r hr e).mp (List.mem_of_getElem? hk)))
  rw [h5] at h6
  cases h6
  exact ⟨l, h4, h5, h7⟩

theorem mem_nodeRows (h : SubmeshInput m dim ind) (r : Nat) (hr : r < m.ents.P) (l : List Nat) (hl : l ∈ nodeRows m dim ind r) :
    ∃ e ∈ ind r, NodesOf (m.geo r) m.tdim dim e l ∧ ∀ i ∈ l, i < numLocal m.nodes r := by
  obtain ⟨_, h2, h3⟩ := nodeRows_spec h r hr
  obtain ⟨k, hk⟩ := List.mem_iff_getElem?.mp hl
  have hlt : k < ((entMap m ind).toParent r).length := by rw [← h2]; exact (List.getElem?_eq_some_iff.mp hk).1
  obtain ⟨l', e1, _, e2, e3⟩ := h3 k _ (List.getElem?_eq_getElem hlt)
  rw [hk] at e1
  cases e1
  exact ⟨_, (mem_toEnt h r hr _).mp (List.getElem_mem hlt), e2, e3⟩

theorem nodesOf_same (h : SubmeshInput m dim ind) (r : Nat) (hr : r < m.ents.P) (e : Nat) (he : e < numLocal m.ents r) (l l' : List Nat)
    (h1 : NodesOf (m.geo r) m.tdim dim e l) (h2 : NodesOf (m.geo r) m.tdim dim e l') : l.Perm l' := by
  by_cases hd : dim = m.tdim
  · unfold NodesOf at h1 h2
    rw [if_pos hd] at h1 h2
    have : l.map some = l'.map some := h1.trans h2.symm
    rw [List.map_injective_iff.mpr (Option.some_injective _) this]
  · exact h.conform hd r hr e he l l' h1 h2

theorem mem_nodeInd (h : SubmeshInput m dim ind) (r : Nat) (hr : r < m.ents.P) (i : Nat) :
    i ∈ (nodeMap m (nodeRows m dim ind)).ind r ↔ ∃ e ∈ ind r, ∃ l, NodesOf (m.geo r) m.tdim dim e l ∧ i ∈ l := by
  change i ∈ unique (sortNat _) ↔ _
  rw [mem_unique_sortNat, List.mem_flatten]
  constructor
  · rintro ⟨l, hl, hi⟩
    obtain ⟨e, he, h1, _⟩ := mem_nodeRows h r hr l hl
    exact ⟨e, he, l, h1, hi⟩
  · rintro ⟨e, he, l, h1, hi⟩
    obtain ⟨k, hk⟩ := List.mem_iff_getElem?.mp ((mem_toEnt h r hr e).mpr he)
    obtain ⟨l', h2, _, h3, _⟩ := (nodeRows_spec h r hr).2.2 k e hk
    exact ⟨l', List.mem_of_getElem? h2, (nodesOf_same h r hr e (h.listed r hr e he) l l' h1 h3).mem_iff.mp hi⟩

theorem nodeMap_ok (h : SubmeshInput m dim ind) : (nodeMap m (nodeRows m dim ind)).Ok where
  valid := h.nodes
  sorted := fun _ _ => unique_sortNat_sorted _
  range := by
    intro r hr i hi
    have hr' : r < m.ents.P := h.nP ▸ hr
    have hi' : i ∈ unique (sortNat (nodeRows m dim ind r).flatten) := hi
    rw [mem_unique_sortNat, List.mem_flatten] at hi'
    obtain ⟨l, hl, hi'⟩ := hi'
    obtain ⟨_, _, _, h3⟩ := mem_nodeRows h r hr' l hl
    exact h3 i hi'

theorem subGeometry_ok (h : SubmeshInput m dim ind) (r : Nat) (hr : r < m.ents.P) :
    ∃ xd xs ig, subGeometry m (nodeRows m dim ind) r = some (xd, xs, ig) ∧
      xd.length = ((entMap m ind).toParent r).length ∧
      (∀ (k e : Nat), ((entMap m ind).toParent r)[k]? = some e →
        ∃ row l, xd[k]? = some row ∧ entityNodes (m.geo r) m.tdim dim e = some l ∧ NodesOf (m.geo r) m.tdim dim e l ∧
          (row.map fun i => ((nodeMap m (nodeRows m dim ind)).toParent r)[i]?) = l.map some) ∧
      xs.length = ((nodeMap m (nodeRows m dim ind)).toParent r).length ∧
      ig.length = ((nodeMap m (nodeRows m dim ind)).toParent r).length ∧
      ∀ (k i : Nat), ((nodeMap m (nodeRows m dim ind)).toParent r)[k]? = some i → xs[k]? = (m.x r)[i]? ∧ ig[k]? = (m.igi r)[i]? := by
  have hr' : r < m.nodes.P := h.nP ▸ hr
  have hv := isSubMap_of _ (nodeMap_ok h)
  have hlt : ∀ i ∈ (nodeMap m (nodeRows m dim ind)).toParent r, i < numLocal m.nodes r :=
    fun i hi => (nodeMap_ok h).range r hr' i ((hv.mem r hr' i).mp hi)
  obtain ⟨xd, h1, h2, h3⟩ := renumber_ok (numLocal m.nodes r) ((nodeMap m (nodeRows m dim ind)).toParent r) (hv.nodup r hr')
    hlt (nodeRows m dim ind r) (by
      intro row hrow i hi
      refine (hv.mem r hr' i).mpr ?_
      change i ∈ unique (sortNat _)
      rw [mem_unique_sortNat, List.mem_flatten]
      exact ⟨row, hrow, hi⟩)
  obtain ⟨xs, h4⟩ := mapM_option_ok (fun i => (m.x r)[i]?) ((nodeMap m (nodeRows m dim ind)).toParent r)
    fun i hi => ⟨_, List.getElem?_eq_getElem (by rw [(h.x r hr).1]; exact hlt i hi)⟩
  obtain ⟨ig, h5⟩ := mapM_option_ok (fun i => (m.igi r)[i]?) ((nodeMap m (nodeRows m dim ind)).toParent r)
    fun i hi => ⟨_, List.getElem?_eq_getElem (by rw [(h.x r hr).2]; exact hlt i hi)⟩
  obtain ⟨_, s2, s3⟩ := nodeRows_spec h r hr
  refine ⟨xd, xs, ig, ?_, h2.trans s2, ?_, mapM_len _ _ _ h4, mapM_len _ _ _ h5, ?_⟩
  · unfold subGeometry
    simp only [h1, h4, h5, Option.bind_eq_bind, Option.bind_some]
    rfl
  · intro k e hk
    obtain ⟨l, e1, e2, e3, _⟩ := s3 k e hk
    obtain ⟨row, e4, e5⟩ := h3 k l e1
    exact ⟨row, l, e4, e2, e3, e5⟩
  · intro k i hk
    obtain ⟨a, a1, a2⟩ := mapM_getElem _ _ _ h4 k i hk
    obtain ⟨b, b1, b2⟩ := mapM_getElem _ _ _ h5 k i hk
    exact ⟨a1.trans a2.symm, b1.trans b2.symm⟩

/-! ### The whole call -/

theorem mapM_range_except {ε β : Type} (n : Nat) (f : Nat → Except ε β) (g : Nat → β) (h : ∀ r, r < n → f r = .ok (g r)) :
    (List.range n).mapM f = .ok ((List.range n).map g) := by
  have : ∀ l : List Nat, (∀ r ∈ l, f r = .ok (g r)) → l.mapM f = .ok (l.map g) := by
    intro l
    induction l with
    | nil => intro _; rfl
    | cons a l ih =>
      intro hl
      rw [List.mapM_cons, hl a (by simp), ih fun r hr => hl r (by simp [hr])]
      rfl
  exact this _ fun r hr => h r (List.mem_range.mp hr)

theorem getD_map_range {β : Type} (n : Nat) (g : Nat → β) (d : β) (r : Nat) (hr : r < n) :
    ((List.range n).map g).getD r d = g r := by
  rw [List.getD_eq_getElem?_getD, List.getElem?_map, List.getElem?_range hr]; rfl

theorem range_rows (m : Mesh X) (dim : Nat) (ind : Nat → List Nat) :
    (fun r => ((List.range m.ents.P).map (nodeRows m dim ind)).getD r []) = nodeRows m dim ind := by
  funext r
  by_cases hr : r < m.ents.P
  · exact getD_map_range _ _ _ r hr
  · rw [List.getD_eq_getElem?_getD, List.getElem?_eq_none (by simpa using hr)]
    unfold nodeRows
    rw [if_neg hr]; rfl

/-- The call fails because of the owners exactly if some process lists a ghost whose owner does not list it. -/
theorem fails_iff (h : SubmeshInput m dim ind) : (List.range m.ents.P).any (entMap m ind).throws = true ↔
    ∃ g p q, Owns m.ents p g ∧ ¬ Chooses m.ents ind p g ∧ q < m.ents.P ∧ Chooses m.ents ind q g := by
  have hc : ∀ q g, Chooses m.ents (entMap m ind).ind q g ↔ Chooses m.ents ind q g := by
    intro q g
    unfold Chooses
    simp only [entMap, mem_unique_sortNat]
  rw [List.any_eq_true]
  constructor
  · rintro ⟨r, hr, ht⟩
    obtain ⟨g, q, h1, h2, h3, h4⟩ := (C29_throws (entMap_ok h) r (List.mem_range.mp hr)).mp ht
    exact ⟨g, r, q, h1, fun hh => h2 ((hc r g).mpr hh), h3, (hc q g).mp h4⟩
  · rintro ⟨g, p, q, h1, h2, h3, h4⟩
    refine ⟨p, List.mem_range.mpr h1.1, (C29_throws (entMap_ok h) p h1.1).mpr ⟨g, q, h1, fun hh => h2 ((hc p g).mp hh), h3, (hc q g).mpr h4⟩⟩

/-- The result when no owner changes. -/
theorem createSubmesh_eq (h : SubmeshInput m dim ind) (hf : (List.range m.ents.P).any (entMap m ind).throws = false) :
    ∃ (cells : Nat → List (List Nat)) (geo : Nat → List (List Nat) × List X × List Int),
      (∀ r, r < m.ents.P → subCells m ind r = some (cells r)) ∧
      (∀ r, r < m.ents.P → subGeometry m (nodeRows m dim ind) r = some (geo r)) ∧
      createSubmesh m dim ind = .ok
        { ents := (entMap m ind).sub, verts := (vertMap m ind).sub, nodes := (nodeMap m (nodeRows m dim ind)).sub
          toEnt := (entMap m ind).toParent, toVert := (vertMap m ind).toParent
          toNode := (nodeMap m (nodeRows m dim ind)).toParent
          cells := fun r => ((List.range m.ents.P).map cells).getD r []
          xdofs := fun r => (((List.range m.ents.P).map geo).getD r ([], [], [])).1
          x := fun r => (((List.range m.ents.P).map geo).getD r ([], [], [])).2.1
          igi := fun r => (((List.range m.ents.P).map geo).getD r ([], [], [])).2.2 } := by
  refine ⟨fun r => (subCells m ind r).getD [], fun r => (subGeometry m (nodeRows m dim ind) r).getD ([], [], []), ?_, ?_, ?_⟩
  · intro r hr
    obtain ⟨new, h1, _⟩ := subCells_ok h r hr
    simp only [h1, Option.getD_some]
  · intro r hr
    obtain ⟨a, b, c, h1, _⟩ := subGeometry_ok h r hr
    simp only [h1, Option.getD_some]
  · have e1 : (List.range m.ents.P).mapM (subCells m ind) =
        some ((List.range m.ents.P).map fun r => (subCells m ind r).getD []) := by
      refine mapM_some _ _ _ ?_
      intro r hr
      obtain ⟨new, h1, _⟩ := subCells_ok h r (List.mem_range.mp hr)
      rw [h1]; rfl
    have e2 : (List.range m.ents.P).mapM (xIndices m dim ind) = .ok ((List.range m.ents.P).map (nodeRows m dim ind)) :=
      mapM_range_except _ _ _ fun r hr => (nodeRows_spec h r hr).1
    have e3 : (List.range m.ents.P).mapM (subGeometry m (nodeRows m dim ind)) =
        some ((List.range m.ents.P).map fun r => (subGeometry m (nodeRows m dim ind) r).getD ([], [], [])) := by
      refine mapM_some _ _ _ ?_
      intro r hr
      obtain ⟨a, b, c, h1, _⟩ := subGeometry_ok h r (List.mem_range.mp hr)
      rw [h1]; rfl
    unfold createSubmesh
    simp only [hf, e1, e2, bind, Except.bind, Bool.false_eq_true, if_false]
    rw [range_rows m dim ind, e3]
    rfl

/-- **C62 (refusal).**  A call is refused because of the owners exactly if some process lists a ghost that its owner
does not list; otherwise it succeeds. -/
theorem C62_refused (h : SubmeshInput m dim ind) :
    ((∃ g p q, Owns m.ents p g ∧ ¬ Chooses m.ents ind p g ∧ q < m.ents.P ∧ Chooses m.ents ind q g) →
      createSubmesh m dim ind = .error .ownerChange) ∧
    (¬ (∃ g p q, Owns m.ents p g ∧ ¬ Chooses m.ents ind p g ∧ q < m.ents.P ∧ Chooses m.ents ind q g) →
      ∃ s, createSubmesh m dim ind = .ok s) := by
  rw [← fails_iff h]
  constructor
  · intro hf
    unfold createSubmesh
    simp only [hf, if_true]
  · intro hf
    obtain ⟨_, _, _, _, h3⟩ := createSubmesh_eq h (by simpa using hf)
    exact ⟨_, h3⟩

/-- **C62 (facets of prisms and pyramids).**  They are not supported. -/
theorem C62_unsupported (m : Mesh X) (dim : Nat) (ind : Nat → List Nat) (hP : 0 < m.ents.P) (hw : m.wedge = true ∧ dim = 2) :
    ∀ s, createSubmesh m dim ind ≠ .ok s := by
  intro s hs
  unfold createSubmesh at hs
  dsimp only at hs
  split at hs
  · simp at hs
  · simp only [bind, Except.bind] at hs
    split at hs
    · simp at hs
    · have : (List.range m.ents.P).mapM (xIndices m dim ind) = .error .facets := by
        obtain ⟨n, hn⟩ : ∃ n, m.ents.P = n + 1 := ⟨m.ents.P - 1, by omega⟩
        rw [hn, List.range_succ_eq_map, List.mapM_cons]
        have : xIndices m dim ind 0 = .error .facets := by
          unfold xIndices entitiesToGeometry
          rw [if_pos hw]
        rw [this]; rfl
      rw [this] at hs
      simp at hs

/-- **C62 (sub-mesh).**  The new mesh has as cells, on every process, exactly the listed entities, as vertices exactly
their vertices, as geometry nodes exactly their nodes.  All three are numbered consistently over the processes, the
cells keep their owners, every cell has the vertices and nodes of the entity, and every node its coordinates
and original index. -/
theorem C62_submesh (h : SubmeshInput m dim ind) (s : SubData X) (hs : createSubmesh m dim ind = .ok s) :
    IsSubmesh m dim ind s := by
  have hf : (List.range m.ents.P).any (entMap m ind).throws = false := by
    by_contra hc
    rw [Bool.not_eq_false] at hc
    unfold createSubmesh at hs
    simp [hc] at hs
  obtain ⟨cells, geo, h1, h2, h3⟩ := createSubmesh_eq h hf
  rw [hs] at h3
  cases h3
  have hE := entMap_ok h
  have hg : ∀ r (hr : r < m.ents.P), ((List.range m.ents.P).map geo).getD r ([], [], []) = geo r := fun r hr => getD_map_range _ _ _ r hr
  have hc : ∀ r (hr : r < m.ents.P), ((List.range m.ents.P).map cells).getD r [] = cells r := fun r hr => getD_map_range _ _ _ r hr
  have hG : ∀ r, r < m.ents.P → _ := fun r hr => subGeometry_ok h r hr
  refine ⟨?_, ?_, ?_, ?_, ?_, ?_, ?_, ?_, ?_⟩
  · exact isSubMap_congr (isSubMap_of _ hE) fun r hr i => mem_unique_sortNat _ _
  · intro r hr k e hk
    obtain ⟨g, o, p, j, c1, c2, _, _, _, c6⟩ := sub_number hE r hr k e hk
    refine c6.trans ?_
    rw [← globalOf_owned m.ents h.ents r e g hr c1]
    obtain ⟨p', hp', hh⟩ := c2
    have hop : o = p' := by
      rcases hh with ⟨_, rfl⟩ | ⟨hn, h4, h5, _⟩
      · rfl
      · exfalso
        have ht := (C29_throws hE p' hp'.1).mpr ⟨g, o, hp', hn, h4, h5⟩
        have : (List.range m.ents.P).any (entMap m ind).throws = true :=
          List.any_eq_true.mpr ⟨p', List.mem_range.mpr hp'.1, ht⟩
        rw [this] at hf; simp at hf
    subst hop
    constructor
    · rintro rfl; exact hp'
    · intro ho; exact owns_unique m.ents o r g hp' ho
  · have := isSubMap_of _ (vertMap_ok h)
    exact isSubMap_congr this fun r hr i => mem_vertInd h r (by have := h.vP; change r < m.verts.P at hr; omega) i
  · have := isSubMap_of _ (nodeMap_ok h)
    exact isSubMap_congr this fun r hr i => mem_nodeInd h r (by have := h.nP; change r < m.nodes.P at hr; omega) i
  · intro r hr
    obtain ⟨new, a1, a2, _⟩ := subCells_ok h r hr
    obtain ⟨xd, xs, ig, b1, b2, _⟩ := subGeometry_ok h r hr
    rw [h1 r hr] at a1; cases a1
    rw [h2 r hr] at b1
    simp only [hc r hr, hg r hr, Option.some.inj b1]
    exact ⟨a2, b2⟩
  · intro r hr k e hk
    obtain ⟨new, a1, _, a3⟩ := subCells_ok h r hr
    rw [h1 r hr] at a1; cases a1
    simp only [hc r hr]
    exact a3 k e hk
  · intro r hr k e hk
    obtain ⟨xd, xs, ig, b1, _, b3, _⟩ := subGeometry_ok h r hr
    rw [h2 r hr] at b1
    simp only [hg r hr, Option.some.inj b1]
    obtain ⟨row, l, c1, _, c3, c4⟩ := b3 k e hk
    exact ⟨row, l, c1, c3, c4⟩
  · intro r hr
    obtain ⟨xd, xs, ig, b1, _, _, b4, b5, _⟩ := subGeometry_ok h r hr
    rw [h2 r hr] at b1
    simp only [hg r hr, Option.some.inj b1]
    exact ⟨b4, b5⟩
  · intro r hr k i hk
    obtain ⟨xd, xs, ig, b1, _, _, _, _, b6⟩ := subGeometry_ok h r hr
    rw [h2 r hr] at b1
    simp only [hg r hr, Option.some.inj b1]
    exact b6 k i hk

/-- The nodes of a cell are those found by `entities_to_geometry`, in that order. -/
theorem C62_aux_nodes (h : SubmeshInput m dim ind) (s : SubData X) (hs : createSubmesh m dim ind = .ok s) :
    ∀ r, r < m.ents.P → ∀ (k e : Nat), (s.toEnt r)[k]? = some e →
      ∃ row, (s.xdofs r)[k]? = some row ∧
        (row.map fun i => (s.toNode r)[i]?) = ((entityNodes (m.geo r) m.tdim dim e).getD []).map some := by
  have hf : (List.range m.ents.P).any (entMap m ind).throws = false := by
    by_contra hc
    rw [Bool.not_eq_false] at hc
    unfold createSubmesh at hs
    simp [hc] at hs
  obtain ⟨cells, geo, h1, h2, h3⟩ := createSubmesh_eq h hf
  rw [hs] at h3
  cases h3
  intro r hr k e hk
  obtain ⟨xd, xs, ig, b1, _, b3, _⟩ := subGeometry_ok h r hr
  rw [h2 r hr] at b1
  simp only [getD_map_range _ geo _ r hr, Option.some.inj b1]
  obtain ⟨row, l, c1, c2, _, c4⟩ := b3 k e hk
  exact ⟨row, c1, by rw [c2]; exact c4⟩

/-- Rows renumbered on all processes still agree. -/
theorem rows_agree_sub {w u w' u' : World} {toW toU : Nat → List Nat} {pw pu : Nat → Nat → Prop} (hP : u.P = w.P)
    (hW : IsSubMap w w' toW pw) (hU : IsSubMap u u' toU pu) (old : Nat → Nat → List Nat) (new : Nat → List (List Nat))
    (hold : RowsAgree w u old) (hex : ∀ r, r < w.P → ∀ e ∈ toW r, ∃ G, globalOf w r e = some G)
    (hnew : ∀ r, r < w.P → ∀ (k e : Nat), (toW r)[k]? = some e →
      ∃ row, (new r)[k]? = some row ∧ (row.map fun i => (toU r)[i]?) = (old r e).map some) :
    RowsAgree w' u' fun r k => (new r).getD k [] := by
  intro r r' k k' g hr hr' hg hg'
  rw [hW.ranks] at hr hr'
  have hto : ∀ r k, r < w.P → globalOf w' r k = some g → ∃ e, (toW r)[k]? = some e := by
    intro r k hr hg
    have : k < (toW r).length := by
      rw [hW.size r hr]
      unfold globalOf at hg
      split at hg
      · omega
      · have := (List.getElem?_eq_some_iff.mp hg).1; omega
    exact ⟨_, List.getElem?_eq_getElem this⟩
  obtain ⟨e, he⟩ := hto r k hr hg
  obtain ⟨e', he'⟩ := hto r' k' hr' hg'
  have hsame := (hW.same r r' k k' e e' hr hr' he he').mp (hg.trans hg'.symm)
  obtain ⟨row, h1, h2⟩ := hnew r hr k e he
  obtain ⟨row', h1', h2'⟩ := hnew r' hr' k' e' he'
  obtain ⟨G, hG⟩ := hex r hr e (List.mem_of_getElem? he)
  have hrow := hold r r' e e' G hr hr' hG (hsame ▸ hG)
  simp only [List.getD_eq_getElem?_getD, h1, h1', Option.getD_some]
  have hlen : row.length = row'.length := by
    have a := congrArg List.length h2
    have b := congrArg List.length h2'
    have c := congrArg List.length hrow
    simp only [List.length_map] at a b c
    omega
  apply List.ext_getElem?
  intro j
  simp only [List.getElem?_map]
  by_cases hj : j < row.length
  · have hj' : j < row'.length := by omega
    have key : ∀ (t : List Nat) (row old : List Nat) (h : (row.map fun i => t[i]?) = old.map some) (hj : j < row.length),
        ∃ v, old[j]? = some v ∧ t[row[j]]? = some v := by
      intro t row old h hj
      have a := congrArg (fun z => z[j]?) h
      simp only [List.getElem?_map, List.getElem?_eq_getElem hj, Option.map_some] at a
      cases ho : old[j]? with
      | none => rw [ho] at a; simp at a
      | some v => rw [ho] at a; exact ⟨v, rfl, Option.some.inj a⟩
    obtain ⟨v, a1, a2⟩ := key _ _ _ h2 hj
    obtain ⟨v', b1, b2⟩ := key _ _ _ h2' hj'
    rw [List.getElem?_eq_getElem hj, List.getElem?_eq_getElem hj', Option.map_some, Option.map_some]
    congr 1
    refine (hU.same r r' _ _ v v' (hP ▸ hr) (hP ▸ hr') a2 b2).mpr ?_
    have c := congrArg (fun z => z[j]?) hrow
    simp only [List.getElem?_map, a1, b1, Option.map_some, Option.some.injEq] at c
    exact c
  · rw [List.getElem?_eq_none (by omega), List.getElem?_eq_none (by omega)]; rfl

/-- **C62 (agreement).**  If the processes sharing an entity of the old mesh see the same vertices and nodes in the same
order, then this also holds for the cells of the new mesh; and nodes shared by processes have the same
coordinates if this was so. -/
theorem C62_agree (h : SubmeshInput m dim ind) (s : SubData X) (hs : createSubmesh m dim ind = .ok s) :
    (RowsAgree m.ents m.verts m.e2v → RowsAgree s.ents s.verts fun r k => (s.cells r).getD k []) ∧
    (RowsAgree m.ents m.nodes (fun r e => (entityNodes (m.geo r) m.tdim dim e).getD []) →
      RowsAgree s.ents s.nodes fun r k => (s.xdofs r).getD k []) ∧
    ((∀ r r' i i', r < m.ents.P → r' < m.ents.P → i < numLocal m.nodes r → i' < numLocal m.nodes r' →
        globalOf m.nodes r i = globalOf m.nodes r' i' → (m.x r)[i]? = (m.x r')[i']?) →
      ∀ r r' k k' g, r < m.ents.P → r' < m.ents.P → globalOf s.nodes r k = some g → globalOf s.nodes r' k' = some g →
        (s.x r)[k]? = (s.x r')[k']?) := by
  have hS := C62_submesh h s hs
  have hex : ∀ r, r < m.ents.P → ∀ e ∈ s.toEnt r, ∃ G, globalOf m.ents r e = some G := fun r hr e he =>
    globalOf_some m.ents r e (h.listed r hr e ((hS.ents.mem r hr e).mp he))
  refine ⟨fun ha => ?_, fun ha => ?_, fun ha => ?_⟩
  · exact rows_agree_sub h.vP hS.ents hS.verts m.e2v s.cells ha hex hS.cellVerts
  · exact rows_agree_sub h.nP hS.ents hS.nodes _ s.xdofs ha hex (C62_aux_nodes h s hs)
  · intro r r' k k' g hr hr' hg hg'
    have hto : ∀ r k, r < m.ents.P → globalOf s.nodes r k = some g → ∃ e, (s.toNode r)[k]? = some e := by
      intro r k hr hg
      have : k < (s.toNode r).length := by
        rw [hS.nodes.size r (h.nP ▸ hr)]
        unfold globalOf at hg
        split at hg
        · omega
        · have := (List.getElem?_eq_some_iff.mp hg).1; omega
      exact ⟨_, List.getElem?_eq_getElem this⟩
    obtain ⟨i, hi⟩ := hto r k hr hg
    obtain ⟨i', hi'⟩ := hto r' k' hr' hg'
    rw [(hS.coords r hr k i hi).1, (hS.coords r' hr' k' i' hi').1]
    have hrange : ∀ (r k i : Nat), r < m.ents.P → (s.toNode r)[k]? = some i → i < numLocal m.nodes r := by
      intro r k i hr hi
      obtain ⟨x, hx⟩ : ∃ x, (s.x r)[k]? = some x := by
        refine ⟨_, List.getElem?_eq_getElem ?_⟩
        rw [(hS.numNodes r hr).1]; exact (List.getElem?_eq_some_iff.mp hi).1
      rw [(hS.coords r hr k i hi).1] at hx
      rw [← (h.x r hr).1]; exact (List.getElem?_eq_some_iff.mp hx).1
    exact ha r r' i i' hr hr' (hrange r k i hr hi) (hrange r' k' i' hr' hi')
      ((hS.nodes.same r r' k k' i i' (h.nP ▸ hr) (h.nP ▸ hr') hi hi').mp (hg.trans hg'.symm))

end

/-! ### A case

Two triangles on two processes: process 0 has vertices 0, 1, 2, process 1 has vertices 1, 2, 3.  Process 0 owns the three
edges of its triangle, the first of them is a ghost of process 1. -/

/-- Index map of the edges. -/
def smEdges : World where
  P := 2
  size := fun r => [3, 2].getD r 0
  ghosts := fun r => [[], [0]].getD r []
  owners := fun r => [[], [0]].getD r []

/-- Index map of the vertices and of the nodes. -/
def smVerts : World where
  P := 2
  size := fun r => [3, 1].getD r 0
  ghosts := fun r => [[], [1, 2]].getD r []
  owners := fun r => [[], [0, 0]].getD r []

/-- Geometry of the processes. -/
def smGeo (r : Nat) : Geo where
  xdofs := fun _ => [[0, 1, 2], [1, 2, 0]].getD r [0, 0, 0]
  closure := fun d le => if d = 2 then [0, 1, 2] else [[1, 2], [0, 2], [0, 1]].getD le []
  e2c := fun _ => [0]
  c2e := fun _ => [0, 1, 2]
  permute := fun _ _ l => l

/-- The mesh. -/
def smMesh : Mesh Nat where
  tdim := 2
  wedge := false
  ents := smEdges
  verts := smVerts
  nodes := smVerts
  e2v := fun r e => ([[[1, 2], [0, 2], [0, 1]], [[2, 0], [1, 0], [1, 2]]].getD r []).getD e []
  geo := smGeo
  x := fun r => [[100, 101, 102], [103, 101, 102]].getD r []
  igi := fun r => [[50, 51, 52], [53, 51, 52]].getD r []

/-- The shared edge on both processes, another edge of process 1. -/
def smInd (r : Nat) : List Nat := [[0], [2, 1]].getD r []

theorem sm_input : SubmeshInput smMesh 1 smInd where
  vP := rfl
  nP := rfl
  ents := World.valid_of_check _ (by decide)
  verts := World.valid_of_check _ (by decide)
  nodes := World.valid_of_check _ (by decide)
  listed := by decide
  e2v := by decide
  x := by decide
  xdofs := by
    intro r hr c
    have hr' : r < 2 := hr
    interval_cases r
    · change ∀ i ∈ [0, 1, 2], i < 3; decide
    · change ∀ i ∈ [1, 2, 0], i < 3; decide
  closure := by
    intro r hr c d le j hj
    have h3 : ((smMesh.geo r).xdofs c).length = 3 := by
      have hr' : r < 2 := hr
      interval_cases r <;> rfl
    rw [h3]
    have hj' : j ∈ if d = 2 then [0, 1, 2] else ([[1, 2], [0, 2], [0, 1]] : List (List Nat)).getD le [] := hj
    split at hj'
    · simp at hj'; omega
    · match le with
      | 0 => simp at hj'; omega
      | 1 => simp at hj'; omega
      | 2 => simp at hj'; omega
      | _ + 3 => simp at hj'
  permute := fun _ _ _ _ l => List.Perm.refl l
  cell := by
    intro _ r _ e he
    refine ⟨by simp [smMesh, smGeo], ?_⟩
    intro c _
    have he' : e < 3 := by
      have : numLocal smMesh.ents r ≤ 3 := by
        have hr' : r < 2 := by assumption
        interval_cases r <;> decide
      omega
    change e ∈ [0, 1, 2]
    simp; omega
  conform := by
    intro _ r hr e _ l l' h1 h2
    unfold NodesOf at h1 h2
    rw [if_neg (by decide)] at h1 h2
    obtain ⟨c, _, le, h3, h4⟩ := h1
    obtain ⟨c', _, le', h3', h4'⟩ := h2
    have a : ([0, 1, 2] : List Nat)[le]? = some e := h3
    have b : ([0, 1, 2] : List Nat)[le']? = some e := h3'
    have hle := (List.getElem?_inj (List.getElem?_eq_some_iff.mp a).1 (by decide)).mp (a.trans b.symm)
    subst hle
    have hp := h4.trans h4'.symm
    exact (List.map_perm_map_iff (Option.some_injective _)).mp hp
  supported := by decide

example : ∃ s, createSubmesh smMesh 1 smInd = .ok s ∧ s.toEnt 0 = [0] ∧ s.toEnt 1 = [1, 2] ∧ s.ents.ghosts 1 = [0] ∧
    s.cells 1 = [[1, 0], [1, 2]] ∧ s.toVert 1 = [0, 1, 2] ∧ s.verts.ghosts 1 = [0, 1] ∧ s.x 0 = [101, 102] ∧
    s.xdofs 0 = [[0, 1]] ∧ s.x 1 = [103, 101, 102] := by
  refine ⟨_, rfl, ?_⟩
  decide +kernel

/-- Process 1 lists its ghost, the owner does not. -/
example : createSubmesh smMesh 1 (fun r => [[1], [2]].getD r []) = .error .ownerChange := by
  have h : (List.range smMesh.ents.P).any (entMap smMesh fun r => [[1], [2]].getD r []).throws = true := by decide +kernel
  unfold createSubmesh
  simp only [h, if_true]

end Verif.Props
