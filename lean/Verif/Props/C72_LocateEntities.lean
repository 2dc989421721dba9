import Verif.Prelude
import Verif.Spec.LocateEntities
import Verif.Lemmas.StdAlg
import Verif.Lemmas.Integration
import Verif.Lemmas.ArrayFold
import Verif.Props.C48_LocateDofs
import Verif.Props.C62_Submesh
import Verif.Props.C47_System
import Verif.Lemmas.WorldCheck
/-! # C72: entities located by a marker -/
namespace Verif.Props
open Verif.LocateEntities Verif.Spec Verif.Spec.LocateEntities Verif.World Verif.Std

private theorem writes_length (A : List (Nat × Nat)) (t : List Nat) : (A.foldl (fun t p => t.set p.1 p.2) t).length = t.length := by
  induction A generalizing t with
  | nil => rfl
  | cons a A ih => rw [List.foldl_cons, ih]; simp

variable {X : Type} {m : Spec.LocateEntities.Mesh X}

/-- The points of all vertices. -/
private theorem vertexCoords_eq (h : PointsOk m) (r : Nat) (hr : r < m.V.P) :
    ∃ pts, vertexCoords (m.V.size r + (m.V.ghosts r).length) (m.types r) (m.x r) = some pts ∧
      pts.length = m.V.size r + (m.V.ghosts r).length ∧ ∀ v g, globalOf m.V r v = some g → pts[v]? = some (m.point g) := by
  have hcell : ∀ t ∈ m.types r, ∀ c ∈ List.range t.verts.length, ∃ y, cellWrites t c = some y := by
    intro t ht c hc
    rw [List.mem_range] at hc
    unfold cellWrites
    rw [List.getElem?_eq_getElem hc]
    simp only [Option.bind_eq_bind, Option.bind_some]
    refine mapM_option_ok _ _ fun p hp => ?_
    have := List.mem_zipIdx_iff_getElem?.mp hp
    obtain ⟨xs, node, g, h1, h2, _⟩ := h.points r hr t ht c _ p.2 p.1 (List.getElem?_eq_getElem hc) this
    exact ⟨(p.1, node), by rw [h1]; simp [h2]⟩
  have htype : ∀ t ∈ m.types r, ∃ y, (List.range t.verts.length).mapM (cellWrites t) = some y := fun t ht =>
    mapM_option_ok _ _ (hcell t ht)
  obtain ⟨l, hl⟩ := mapM_option_ok _ _ htype
  have hw : writes (m.types r) = some l.flatten.flatten := by unfold writes; rw [hl]; rfl
  have hmem : ∀ v node, (v, node) ∈ l.flatten.flatten ↔ ∃ t ∈ m.types r, ∃ (c : Nat) (row xs : List Nat) (i : Nat), t.verts[c]? = some row ∧ row[i]? = some v ∧
      t.nodes[c]? = some xs ∧ xs[i]? = some node := by
    intro v node
    simp only [List.mem_flatten]
    constructor
    · rintro ⟨l1, ⟨l2, hl2, h1⟩, h2⟩
      obtain ⟨t, ht, hc⟩ := (mapM_option_some _ _ _ hl l2).mp hl2
      obtain ⟨c, hc', hcw⟩ := (mapM_option_some _ _ _ hc l1).mp h1
      have hc' := List.mem_range.mp hc'
      unfold cellWrites at hcw
      rw [List.getElem?_eq_getElem hc'] at hcw
      simp only [Option.bind_eq_bind, Option.bind_some] at hcw
      obtain ⟨p, hp, hv⟩ := (mapM_option_some _ _ _ hcw (v, node)).mp h2
      cases hn : t.nodes[c]? with
      | none => rw [hn] at hv; simp at hv
      | some xs =>
        rw [hn] at hv
        cases hx : xs[p.2]? with
        | none => rw [Option.bind_some, hx] at hv; simp at hv
        | some n =>
          rw [Option.bind_some, hx] at hv
          simp only [Option.bind_some, Option.some.injEq, Prod.mk.injEq] at hv
          have := List.mem_zipIdx_iff_getElem?.mp hp
          exact ⟨t, ht, c, _, xs, p.2, List.getElem?_eq_getElem hc', by rw [this, hv.1], hn, by rw [hx, hv.2]⟩
    · rintro ⟨t, ht, c, row, xs, i, h1, h2, h3, h4⟩
      obtain ⟨y, hy⟩ := htype t ht
      have hc : c < t.verts.length := (List.getElem?_eq_some_iff.mp h1).1
      obtain ⟨z, hz⟩ := hcell t ht c (List.mem_range.mpr hc)
      refine ⟨z, ⟨y, (mapM_option_some _ _ _ hl y).mpr ⟨t, ht, hy⟩, (mapM_option_some _ _ _ hy z).mpr ⟨c, List.mem_range.mpr hc, hz⟩⟩, ?_⟩
      unfold cellWrites at hz
      rw [h1] at hz
      simp only [Option.bind_eq_bind, Option.bind_some] at hz
      refine (mapM_option_some _ _ _ hz (v, node)).mpr ⟨(v, i), List.mem_zipIdx_iff_getElem?.mpr h2, ?_⟩
      rw [h3]
      simp [h4]
  have hget : ∀ v g, globalOf m.V r v = some g → ∃ node,
      (l.flatten.flatten.foldl (fun t p => t.set p.1 p.2) (List.replicate (m.V.size r + (m.V.ghosts r).length) 0))[v]? = some node ∧
        (m.x r)[node]? = some (m.point g) := by
    intro v g hg
    have hlt := SubMap.globalOf_lt m.V r v g hg
    obtain ⟨t, ht, row, hrow, hv⟩ := h.covered r hr v hlt
    obtain ⟨c, hc⟩ := List.getElem?_of_mem hrow
    obtain ⟨i, hi⟩ := List.getElem?_of_mem hv
    obtain ⟨xs, node, g', h1, h2, h3, h4⟩ := h.points r hr t ht c row i v hc hi
    -- the last value written
    have hex : ∃ node, (l.flatten.flatten.foldl (fun t p => t.set p.1 p.2)
        (List.replicate (m.V.size r + (m.V.ghosts r).length) 0))[v]? = some node ∧ (v, node) ∈ l.flatten.flatten := by
      have : ∀ (A : List (Nat × Nat)) (t : List Nat), v < t.length → (∃ b, (v, b) ∈ A) →
          ∃ node, (A.foldl (fun t p => t.set p.1 p.2) t)[v]? = some node ∧ (v, node) ∈ A := by
        intro A
        induction A using List.reverseRecOn with
        | nil => rintro t _ ⟨b, hb⟩; cases hb
        | append_singleton A a ih =>
          rintro t ht ⟨b, hb⟩
          rw [List.foldl_append, List.foldl_cons, List.foldl_nil]
          by_cases ha : a.1 = v
          · refine ⟨a.2, ?_, by rw [← ha]; simp⟩
            rw [List.getElem?_set, if_pos ha, if_pos (by rw [writes_length, ha]; exact ht)]
          · rcases List.mem_append.mp hb with hb | hb
            · obtain ⟨node, h1, h2⟩ := ih t ht ⟨b, hb⟩
              exact ⟨node, by rw [List.getElem?_set, if_neg ha]; exact h1, List.mem_append_left _ h2⟩
            · simp only [List.mem_singleton] at hb
              exact absurd (by rw [← hb]) ha
      exact this _ _ (by simpa using hlt) ⟨node, (hmem v node).mpr ⟨t, ht, c, row, xs, i, hc, hi, h1, h2⟩⟩
    obtain ⟨node', hn1, hn2⟩ := hex
    refine ⟨node', hn1, ?_⟩
    obtain ⟨t, ht, c, row, xs, i, h1, h2, h3, h4⟩ := (hmem v node').mp hn2
    obtain ⟨xs', node'', g'', k1, k2, k3, k4⟩ := h.points r hr t ht c row i v h1 h2
    obtain rfl := Option.some.inj (h3.symm.trans k1)
    obtain rfl := Option.some.inj (h4.symm.trans k2)
    obtain rfl := Option.some.inj (hg.symm.trans k3)
    exact k4
  have hall : ∀ i ∈ l.flatten.flatten.foldl (fun t p => t.set p.1 p.2) (List.replicate (m.V.size r + (m.V.ghosts r).length) 0),
      ∃ y, (m.x r)[i]? = some y := by
    intro i hi
    obtain ⟨v, hv⟩ := List.getElem?_of_mem hi
    have hlt : v < m.V.size r + (m.V.ghosts r).length := by
      have := (List.getElem?_eq_some_iff.mp hv).1
      rwa [writes_length, List.length_replicate] at this
    obtain ⟨g, hg⟩ := globalOf_some m.V r v hlt
    obtain ⟨node, h1, h2⟩ := hget v g hg
    obtain rfl := Option.some.inj (hv.symm.trans h1)
    exact ⟨_, h2⟩
  obtain ⟨pts, hpts⟩ := mapM_option_ok _ _ hall
  refine ⟨pts, ?_, ?_, ?_⟩
  · unfold vertexCoords
    rw [hw]
    exact hpts
  · rw [mapM_len _ _ _ hpts, writes_length, List.length_replicate]
  · intro v g hg
    obtain ⟨node, h1, h2⟩ := hget v g hg
    obtain ⟨b, hb1, hb2⟩ := mapM_getElem _ _ _ hpts v node h1
    rw [hb1, ← hb2, h2]

/-- The loop over the vertices. -/
private theorem allMarked_eq (marked : Nat → Option Bool) (b : Nat → Bool) (vs : List Nat) (h : ∀ v ∈ vs, marked v = some (b v)) :
    allMarked marked vs = some (decide (∀ v ∈ vs, b v = true)) := by
  induction vs with
  | nil => simp [allMarked]
  | cons v vs ih =>
    unfold allMarked
    rw [h v (by simp)]
    cases hb : b v with
    | false => simp [hb]
    | true =>
      simp only
      rw [ih fun v hv => h v (List.mem_cons_of_mem _ hv)]
      simp [hb]

/-- The loop over the entities. -/
private theorem markedEntities_eq (marked : Nat → Option Bool) (b : Nat → Bool) (e2v : List (List Nat)) (es : List Nat)
    (hes : ∀ e ∈ es, ∃ row, e2v[e]? = some row ∧ ∀ v ∈ row, marked v = some (b v)) :
    markedEntities marked e2v es = some (es.filter fun e => decide (∀ v ∈ e2v.getD e [], b v = true)) := by
  have h1 : (es.mapM fun e => (do
      let vs ← e2v[e]?
      let b ← allMarked marked vs
      some (e, b) : Option (Nat × Bool))) = some (es.map fun e => (e, decide (∀ v ∈ e2v.getD e [], b v = true))) := by
    refine mapM_some _ _ _ fun e he => ?_
    obtain ⟨row, hr, hv⟩ := hes e he
    rw [List.getD_eq_getElem?_getD, hr]
    simp only [Option.bind_eq_bind, Option.bind_some]
    rw [allMarked_eq marked b row hv]
    rfl
  unfold markedEntities
  simp only [Option.bind_eq_bind] at h1 ⊢
  rw [h1]
  simp [List.filter_map, List.map_map, Function.comp_def]

/-- Rows exist, and their entries have global numbers. -/
private theorem rows_at {w u : World} {r : Nat} {rows : List (List Nat)} {G : Nat → List Nat} (h : Rows w u r rows G) {i g : Nat}
    (hi : globalOf w r i = some g) : ∃ row, rows[i]? = some row ∧ row.map (globalOf u r) = (G g).map some := by
  have hlt := SubMap.globalOf_lt w r i g hi
  rw [← h.1] at hlt
  exact ⟨_, List.getElem?_eq_getElem hlt, h.2 i g _ hi (List.getElem?_eq_getElem hlt)⟩

private theorem map_mem {α : Type} {row : List Nat} {l : List α} {f : Nat → Option α} (h : row.map f = l.map some) :
    (∀ v ∈ row, ∃ a ∈ l, f v = some a) ∧ ∀ a ∈ l, ∃ v ∈ row, f v = some a := by
  constructor
  · intro v hv
    have : f v ∈ l.map some := by rw [← h]; exact List.mem_map_of_mem hv
    obtain ⟨a, ha, he⟩ := List.mem_map.mp this
    exact ⟨a, ha, he.symm⟩
  · intro a ha
    have : some a ∈ row.map f := by rw [h]; exact List.mem_map_of_mem ha
    exact List.mem_map.mp this

/-- The entities with marked vertices, in terms of global numbers. -/
private theorem marked_iff (h : PointsOk m) (r : Nat) (hr : r < m.V.P) (p : X → Bool) (e g : Nat) (he : globalOf m.D r e = some g) :
    (∀ v ∈ (m.e2v r).getD e [], ((globalOf m.V r v).elim false fun g => p (m.point g)) = true) ↔ Marked m p g := by
  obtain ⟨row, h1, h2⟩ := rows_at (h.e2v r hr) he
  rw [List.getD_eq_getElem?_getD, h1, Option.getD_some]
  obtain ⟨k1, k2⟩ := map_mem h2
  constructor
  · intro hv a ha
    obtain ⟨v, hv', hg⟩ := k2 a ha
    have := hv v hv'
    rw [hg] at this
    exact this
  · intro hm v hv
    obtain ⟨a, ha, hg⟩ := k1 v hv
    rw [hg]
    exact hm a ha

/-- C72: on each process, `locate_entities` gives in increasing order exactly those entities all of whose vertices are at marked points. -/
theorem C72_located (h : PointsOk m) (p : X → Bool) (r : Nat) (hr : r < m.V.P) :
    ∃ l, locateEntities (m.V.size r + (m.V.ghosts r).length) (m.types r) (m.x r) (m.e2v r) (List.map p) = .ok l ∧
      l.Pairwise (· < ·) ∧ ∀ e, e ∈ l ↔ ∃ g, globalOf m.D r e = some g ∧ Marked m p g := by
  obtain ⟨pts, hp1, hp2, hp3⟩ := vertexCoords_eq h r hr
  have hes : ∀ e ∈ List.range (m.e2v r).length, ∃ row, (m.e2v r)[e]? = some row ∧
      ∀ v ∈ row, (pts.map p)[v]? = some ((globalOf m.V r v).elim false fun g => p (m.point g)) := by
    intro e he
    have he := List.mem_range.mp he
    rw [(h.e2v r hr).1] at he
    obtain ⟨g, hg⟩ := globalOf_some m.D r e he
    obtain ⟨row, h1, h2⟩ := rows_at (h.e2v r hr) hg
    refine ⟨row, h1, fun v hv => ?_⟩
    obtain ⟨a, _, ha⟩ := (map_mem h2).1 v hv
    rw [List.getElem?_map, hp3 v a ha, ha]
    rfl
  refine ⟨(List.range (m.e2v r).length).filter fun e => decide (∀ v ∈ (m.e2v r).getD e [],
    ((globalOf m.V r v).elim false fun g => p (m.point g)) = true), ?_, ?_, ?_⟩
  · unfold locateEntities
    rw [hp1]
    show (if (pts.map p).length ≠ pts.length then _ else _) = _
    rw [if_neg (by simp), markedEntities_eq _ _ _ _ hes]
    rfl
  · exact List.pairwise_lt_range.sublist List.filter_sublist
  · intro e
    rw [List.mem_filter, List.mem_range, (h.e2v r hr).1, decide_eq_true_iff]
    constructor
    · rintro ⟨h1, h2⟩
      obtain ⟨g, hg⟩ := globalOf_some m.D r e h1
      exact ⟨g, hg, (marked_iff h r hr p e g hg).mp h2⟩
    · rintro ⟨g, hg, hm⟩
      exact ⟨SubMap.globalOf_lt m.D r e g hg, (marked_iff h r hr p e g hg).mpr hm⟩

/-- The point of a boundary vertex. -/
private theorem vertexNode_eq (h : Ok m) (r : Nat) (hr : r < m.V.P) (t : Cells) (ht : m.types r = [t]) (v a : Nat)
    (hv : globalOf m.V r v = some a) :
    vertexNode ⟨m.f2v r, m.f2e r, m.v2c r, t, m.x r⟩ v = some (m.point a) := by
  obtain ⟨hlen, t', ht', hcs⟩ := h.v2c r hr
  obtain rfl : t = t' := by simpa using ht.symm.trans ht'
  have hlt := SubMap.globalOf_lt m.V r v a hv
  rw [← hlen] at hlt
  obtain ⟨hne, hc⟩ := hcs v _ (List.getElem?_eq_getElem hlt)
  obtain ⟨c, cs, hcc⟩ := List.exists_cons_of_ne_nil hne
  obtain ⟨row, hrow, hmem⟩ := hc c (by rw [hcc]; simp)
  have hi : row[row.idxOf v]? = some v := by
    rw [List.getElem?_eq_getElem (List.idxOf_lt_length_of_mem hmem), List.getElem_idxOf]
  obtain ⟨xs, node, g, h1, h2, h3, h4⟩ := h.points r hr t (by rw [ht]; simp) c row _ v hrow hi
  obtain rfl := Option.some.inj (hv.symm.trans h3)
  unfold vertexNode
  simp only [Option.bind_eq_bind]
  rw [List.getElem?_eq_getElem hlt, hcc]
  simp only [Option.bind_some, List.head?_cons]
  rw [hrow, h1]
  simp only [Option.bind_some]
  rw [h2]
  simp only [Option.bind_some]
  rw [if_pos hmem, h4]

/-- C72: on each process, `locate_entities_boundary` gives in increasing order exactly those entities of its exterior facets all of whose vertices
are at marked points. -/
theorem C72_boundary (h : Ok m) (p : X → Bool) (r : Nat) (hr : r < m.V.P) (t : Cells) (ht : m.types r = [t]) :
    ∃ l, locateBoundary false 1 ⟨m.f2v r, m.f2e r, m.v2c r, t, m.x r⟩ (m.fac.E.size r) (m.fac.e2c r) (m.fac.inter r) (m.e2v r) (List.map p) = .ok l ∧
      l.Pairwise (· < ·) ∧ ∀ e, e ∈ l ↔ ∃ f g, Owns m.fac.E r f ∧ Exterior m f ∧ g ∈ m.facetEnts f ∧ globalOf m.D r e = some g ∧ Marked m p g := by
  have hP := h.facets.ranks
  have hext := Integration.exteriorFacets_eq h.facets r (by rw [h.franks]; exact hr)
  generalize hfs : (List.range (m.fac.E.size r)).filter (fun e => decide ((Integration.cellsAt m.fac (m.fac.E.r0 r + e)).length = 1)) = fs at hext
  have hmem : ∀ f, f ∈ fs ↔ f < m.fac.E.size r ∧ Exterior m (m.fac.E.r0 r + f) := by
    intro f; rw [← hfs, List.mem_filter, List.mem_range, decide_eq_true_iff]; rfl
  have hglob : ∀ f ∈ fs, globalOf m.fac.E r f = some (m.fac.E.r0 r + f) := by
    intro f hf
    unfold globalOf
    rw [if_pos ((hmem f).mp hf).1]
  -- rows of the facets
  have hvs : fs.mapM (fun f => (m.f2v r)[f]?) = some (fs.map fun f => (m.f2v r).getD f []) := by
    refine mapM_some _ _ _ fun f hf => ?_
    obtain ⟨row, h1, _⟩ := rows_at (h.f2v r hr) (hglob f hf)
    rw [List.getD_eq_getElem?_getD, h1, Option.getD_some]
  have hes : fs.mapM (fun f => (m.f2e r)[f]?) = some (fs.map fun f => (m.f2e r).getD f []) := by
    refine mapM_some _ _ _ fun f hf => ?_
    obtain ⟨row, h1, _⟩ := rows_at (h.f2e r hr) (hglob f hf)
    rw [List.getD_eq_getElem?_getD, h1, Option.getD_some]
  generalize hV : unique (sortNat (fs.map fun f => (m.f2v r).getD f []).flatten) = vertices
  generalize hE : unique (sortNat (fs.map fun f => (m.f2e r).getD f []).flatten) = entities
  have hmv : ∀ v, v ∈ vertices ↔ ∃ f ∈ fs, ∃ a ∈ m.facetVerts (m.fac.E.r0 r + f), globalOf m.V r v = some a := by
    intro v
    rw [← hV, mem_unique_sortNat, List.mem_flatten]
    constructor
    · rintro ⟨l, hl, hv⟩
      obtain ⟨f, hf, rfl⟩ := List.mem_map.mp hl
      obtain ⟨row, h1, h2⟩ := rows_at (h.f2v r hr) (hglob f hf)
      rw [List.getD_eq_getElem?_getD, h1, Option.getD_some] at hv
      obtain ⟨a, ha, hg⟩ := (map_mem h2).1 v hv
      exact ⟨f, hf, a, ha, hg⟩
    · rintro ⟨f, hf, a, ha, hg⟩
      obtain ⟨row, h1, h2⟩ := rows_at (h.f2v r hr) (hglob f hf)
      obtain ⟨v', hv', hg'⟩ := (map_mem h2).2 a ha
      have := SubMap.globalOf_inj m.V h.verts r hr v v' a hg hg'
      refine ⟨_, List.mem_map_of_mem hf, ?_⟩
      rw [List.getD_eq_getElem?_getD, h1, Option.getD_some, this]
      exact hv'
  have hme : ∀ e, e ∈ entities ↔ ∃ f ∈ fs, ∃ g ∈ m.facetEnts (m.fac.E.r0 r + f), globalOf m.D r e = some g := by
    intro e
    rw [← hE, mem_unique_sortNat, List.mem_flatten]
    constructor
    · rintro ⟨l, hl, hv⟩
      obtain ⟨f, hf, rfl⟩ := List.mem_map.mp hl
      obtain ⟨row, h1, h2⟩ := rows_at (h.f2e r hr) (hglob f hf)
      rw [List.getD_eq_getElem?_getD, h1, Option.getD_some] at hv
      obtain ⟨a, ha, hg⟩ := (map_mem h2).1 e hv
      exact ⟨f, hf, a, ha, hg⟩
    · rintro ⟨f, hf, a, ha, hg⟩
      obtain ⟨row, h1, h2⟩ := rows_at (h.f2e r hr) (hglob f hf)
      obtain ⟨e', he', hg'⟩ := (map_mem h2).2 a ha
      have := SubMap.globalOf_inj m.D h.ents r (by rw [h.ranks]; exact hr) e e' a hg hg'
      refine ⟨_, List.mem_map_of_mem hf, ?_⟩
      rw [List.getD_eq_getElem?_getD, h1, Option.getD_some, this]
      exact he'
  have hnd : vertices.Nodup := by
    rw [← hV]
    exact (unique_sortNat_sorted _).imp fun h => Nat.ne_of_lt h
  have hlen : (m.v2c r).length = m.V.size r + (m.V.ghosts r).length := (h.v2c r hr).1
  have hpts : vertices.mapM (vertexNode ⟨m.f2v r, m.f2e r, m.v2c r, t, m.x r⟩) = some (vertices.map fun v => m.point ((globalOf m.V r v).getD 0)) := by
    refine mapM_some _ _ _ fun v hv => ?_
    obtain ⟨f, _, a, _, hg⟩ := (hmv v).mp hv
    rw [vertexNode_eq h r hr t ht v a hg, hg]
    rfl
  have hco : boundaryCoords ⟨m.f2v r, m.f2e r, m.v2c r, t, m.x r⟩ fs = some (entities, vertices.map (fun v => m.point ((globalOf m.V r v).getD 0)),
      Submesh.inverse (m.v2c r).length vertices) := by
    unfold boundaryCoords
    simp only [Option.bind_eq_bind]
    rw [hvs, Option.bind_some, hes, Option.bind_some, hV, hE, hpts]
    rfl
  have hmarked : ∀ e ∈ entities, ∃ row, (m.e2v r)[e]? = some row ∧ ∀ v ∈ row,
      (((Submesh.inverse (m.v2c r).length vertices)[v]?).join.bind fun k => ((vertices.map fun v => m.point ((globalOf m.V r v).getD 0)).map p)[k]?) =
        some ((globalOf m.V r v).elim false fun g => p (m.point g)) := by
    intro e he
    obtain ⟨f, hf, g, hg, hge⟩ := (hme e).mp he
    obtain ⟨row, h1, h2⟩ := rows_at (h.e2v r hr) hge
    refine ⟨row, h1, fun v hv => ?_⟩
    obtain ⟨a, ha, hga⟩ := (map_mem h2).1 v hv
    have hvm : v ∈ vertices := (hmv v).mpr ⟨f, hf, a, h.closure _ g hg ha, hga⟩
    obtain ⟨k, hk⟩ := List.getElem?_of_mem hvm
    rw [inverse_get _ _ hnd (fun i hi => by
      obtain ⟨_, _, b, _, hb⟩ := (hmv i).mp hi
      rw [hlen]
      exact SubMap.globalOf_lt m.V r i b hb) k v hk]
    simp only [Option.join_some, Option.bind_some, List.getElem?_map, hk, Option.map_some, hga, Option.getD_some, Option.elim_some]
  refine ⟨entities.filter fun e => decide (∀ v ∈ (m.e2v r).getD e [], ((globalOf m.V r v).elim false fun g => p (m.point g)) = true), ?_, ?_, ?_⟩
  · unfold locateBoundary
    rw [hext]
    simp only [Bool.false_eq_true, if_false, Nat.lt_irrefl]
    rw [hco]
    show (if (List.map p _).length ≠ _ then _ else _) = _
    rw [if_neg (by simp), markedEntities_eq _ _ _ _ hmarked]
    rfl
  · rw [← hE]
    exact (unique_sortNat_sorted _).sublist List.filter_sublist
  · intro e
    rw [List.mem_filter, hme, decide_eq_true_iff]
    constructor
    · rintro ⟨⟨f, hf, g, hg, hge⟩, hm⟩
      have hf' := (hmem f).mp hf
      exact ⟨_, g, ⟨by rw [hP, h.franks]; exact hr, by omega, by omega⟩, hf'.2, hg, hge, (marked_iff h.toPointsOk r hr p e g hge).mp hm⟩
    · rintro ⟨f, g, ho, hx, hg, hge, hm⟩
      refine ⟨⟨f - m.fac.E.r0 r, (hmem _).mpr ⟨by have := ho.2; omega, ?_⟩, g, ?_, hge⟩, (marked_iff h.toPointsOk r hr p e g hge).mpr hm⟩
      · rwa [Nat.add_sub_cancel' ho.2.1]
      · rwa [Nat.add_sub_cancel' ho.2.1]

/-- The lists `l` are what `locate_entities_boundary` gives on all processes. -/
def BoundaryLists (m : Spec.LocateEntities.Mesh X) (p : X → Bool) (l : Nat → List Nat) : Prop :=
  ∀ r < m.V.P, ∃ t, m.types r = [t] ∧
    locateBoundary false 1 ⟨m.f2v r, m.f2e r, m.v2c r, t, m.x r⟩ (m.fac.E.size r) (m.fac.e2c r) (m.fac.inter r) (m.e2v r) (List.map p) = .ok (l r)

private theorem mem_lists (h : Ok m) (p : X → Bool) (l : Nat → List Nat) (hl : BoundaryLists m p l) (r : Nat) (hr : r < m.V.P) (e : Nat) :
    e ∈ l r ↔ ∃ f g, Owns m.fac.E r f ∧ Exterior m f ∧ g ∈ m.facetEnts f ∧ globalOf m.D r e = some g ∧ Marked m p g := by
  obtain ⟨t, ht, he⟩ := hl r hr
  obtain ⟨l', h1, _, h3⟩ := C72_boundary h p r hr t ht
  rw [he] at h1
  obtain h1 := Except.ok.inj h1
  rw [h1]
  exact h3 e

/-- C72: the entities that all processes find together are exactly the entities of exterior facets with marked vertices. -/
theorem C72_complete (h : Ok m) (p : X → Bool) (l : Nat → List Nat) (hl : BoundaryLists m p l) (g : Nat) :
    (∃ r < m.V.P, ∃ e ∈ l r, globalOf m.D r e = some g) ↔
      ∃ f < m.fac.E.r0 m.fac.E.P, Exterior m f ∧ g ∈ m.facetEnts f ∧ Marked m p g := by
  constructor
  · rintro ⟨r, hr, e, he, hg⟩
    obtain ⟨f, g', ho, hx, hf, hg', hm⟩ := (mem_lists h p l hl r hr e).mp he
    obtain rfl := Option.some.inj (hg.symm.trans hg')
    refine ⟨f, ?_, hx, hf, hm⟩
    have h1 : m.fac.E.r0 r + m.fac.E.size r = m.fac.E.r0 (r + 1) := (Offsets.excl_succ m.fac.E.size r).symm
    have h2 : m.fac.E.r0 (r + 1) ≤ m.fac.E.r0 m.fac.E.P := Offsets.excl_mono m.fac.E.size ho.1
    have := ho.2
    omega
  · rintro ⟨f, hf, hx, hg, hm⟩
    obtain ⟨r, ho⟩ := exists_owner m.fac.E f hf
    have hr : r < m.V.P := by
      have := ho.1
      rwa [h.facets.ranks, h.franks] at this
    obtain ⟨row, h1, h2⟩ := rows_at (h.f2e r hr) (owner_has m.fac.E r f ho)
    obtain ⟨e, _, he⟩ := (map_mem h2).2 g hg
    exact ⟨r, hr, e, (mem_lists h p l hl r hr e).mpr ⟨f, g, ho, hx, hg, he, hm⟩, he⟩

/-- C72: facets are found on their owner only. -/
theorem C72_facets (h : Ok m) (hD : m.D = m.fac.E) (hf : ∀ f, m.facetEnts f = [f]) (p : X → Bool) (l : Nat → List Nat)
    (hl : BoundaryLists m p l) (r : Nat) (hr : r < m.V.P) (e g : Nat) (he : globalOf m.D r e = some g) :
    e ∈ l r ↔ e < m.D.size r ∧ Exterior m g ∧ Marked m p g := by
  rw [mem_lists h p l hl r hr e]
  have hown := globalOf_owned m.D h.ents r e g (by rw [h.ranks]; exact hr) he
  constructor
  · rintro ⟨f, g', ho, hx, hm, hg', hmk⟩
    rw [hf, List.mem_singleton] at hm
    subst hm
    obtain rfl := Option.some.inj (he.symm.trans hg')
    exact ⟨hown.mp (by rw [hD]; exact ho), hx, hmk⟩
  · rintro ⟨h1, h2, h3⟩
    exact ⟨g, g, by rw [← hD]; exact hown.mpr h1, h2, by rw [hf]; simp, he, h3⟩

/-- C72: the dofs for a Dirichlet condition, found by `locate_dofs_topological` on the entities that `locate_entities_boundary` gives.
`DofOn g J k`: component `k` of the global block `J` of dofs is on the closure of entity `g`, as seen by all processes that have the entity (C42).
The owner of a dof finds it exactly if it is on an entity of an exterior facet whose vertices are marked; no process finds another dof. -/
theorem C72_dofs (h : Ok m) (p : X → Bool) (l : Nat → List Nat) (hl : BoundaryLists m p l)
    (w : World) (hw : w.Valid) (hP : w.P = m.V.P) (mapBs bs B : Nat) (hB : B = if mapBs = bs then 1 else mapBs) (hpos : 0 < B)
    (I : Nat → Locate.Input) (hI : ∀ r < m.V.P, Spec.Locate.Ok (I r) (l r))
    (DofOn : Nat → Nat → Nat → Prop)
    (hdof : ∀ r < m.V.P, ∀ e g, globalOf m.D r e = some g → ∀ J k, k < B →
      (DofOn g J k ↔ ∃ j, globalOf w r j = some J ∧ Spec.Locate.OnEntity (I r) e (B * j + k)))
    (hin : ∀ r < m.V.P, ∀ e d, Spec.Locate.OnEntity (I r) e d → d < B * (w.size r + (w.ghosts r).length))
    (loc : Nat → List Nat) (hloc : ∀ r < m.V.P, Locate.localDofs (I r) (l r) = some (loc r)) :
    ∀ q < m.V.P, ∀ i J k, globalOf w q i = some J → k < B →
      (B * i + k ∈ Locate.locate w mapBs bs loc true q → ∃ f < m.fac.E.r0 m.fac.E.P, Exterior m f ∧ ∃ g ∈ m.facetEnts f, Marked m p g ∧ DofOn g J k) ∧
      (Owns w q J → (∃ f < m.fac.E.r0 m.fac.E.P, Exterior m f ∧ ∃ g ∈ m.facetEnts f, Marked m p g ∧ DofOn g J k) →
        B * i + k ∈ Locate.locate w mapBs bs loc true q) := by
  have hmem : ∀ r < m.V.P, ∀ d, d ∈ loc r ↔ ∃ e ∈ l r, Spec.Locate.OnEntity (I r) e d := by
    intro r hr d
    obtain ⟨l', h1, _, h3⟩ := C48_local (I r) (l r) (hI r hr)
    obtain rfl := Option.some.inj ((hloc r hr).symm.trans h1)
    exact h3 d
  have hlo : LocOk w B loc := by
    intro r hr d hd
    rw [hP] at hr
    obtain ⟨e, _, he⟩ := (hmem r hr d).mp hd
    exact hin r hr e d he
  have hfound : ∀ r < m.V.P, ∀ J k, k < B → Spec.Locate.FoundBy w B loc r J k →
      ∃ f < m.fac.E.r0 m.fac.E.P, Exterior m f ∧ ∃ g ∈ m.facetEnts f, Marked m p g ∧ DofOn g J k := by
    rintro r hr J k hk ⟨j, hj, hd⟩
    obtain ⟨e, he, hon⟩ := (hmem r hr _).mp hd
    obtain ⟨f, g, ho, hx, hg, hge, hm⟩ := (mem_lists h p l hl r hr e).mp he
    obtain ⟨f', hf', hx', hg', _⟩ := (C72_complete h p l hl g).mp ⟨r, hr, e, he, hge⟩
    exact ⟨f', hf', hx', g, hg', hm, (hdof r hr e g hge J k hk).mpr ⟨j, hj, hon⟩⟩
  intro q hq i J k hi hk
  constructor
  · intro hd
    rcases ((C48_located w hw mapBs bs B hB hpos loc hlo q (by rw [hP]; exact hq)).2 i J k hi hk).mp hd with hf | ⟨r, hr, hf⟩
    · exact hfound q hq J k hk hf
    · refine hfound r ?_ J k hk hf
      have := neighbour_lt w hw q r (by rw [hP]; exact hq) ((mem_neighbours w q r).mpr hr)
      rwa [hP] at this
  · rintro ho ⟨f, hf, hx, g, hg, hm, hd⟩
    obtain ⟨r, hr, e, he, hge⟩ := (C72_complete h p l hl g).mpr ⟨f, hf, hx, hg, hm⟩
    obtain ⟨j, hj, hon⟩ := (hdof r hr e g hge J k hk).mp hd
    have := C48_owner w hw mapBs bs B hB hpos loc hlo r (by rw [hP]; exact hr) J k hk ⟨j, hj, (hmem r hr _).mpr ⟨e, he, hon⟩⟩ q ho
    have hij := SubMap.globalOf_inj w hw q (by rw [hP]; exact hq) i _ J hi (owner_has w q J ho)
    rwa [← hij] at this

/-- C72: a marker of another length, cells, and several types of entities are refused. -/
theorem C72_refused (n : Nat) (ts : List Cells) (x : List X) (e2v : List (List Nat)) (marker : List X → List Bool)
    (I : Input X) (e2c : List (List Nat)) (inter : List Nat) :
    (∀ pts, vertexCoords n ts x = some pts → (marker pts).length ≠ pts.length → locateEntities n ts x e2v marker = .error .markers) ∧
    (∀ e2vs, 1 < e2vs.length → locateEntitiesAll n ts x e2vs marker = .error .types) ∧
    (∀ k, locateBoundary true k I n e2c inter e2v marker = .error .cells) ∧
    (∀ k, 1 < k → locateBoundary false k I n e2c inter e2v marker = .error .types) ∧
    (∀ facets es pts pos, Integration.exteriorFacets n (some e2c) inter = .ok facets → boundaryCoords I facets = some (es, pts, pos) →
      (marker pts).length ≠ pts.length → locateBoundary false 1 I n e2c inter e2v marker = .error .markers) := by
  refine ⟨?_, ?_, ?_, ?_, ?_⟩
  · intro pts h1 h2
    unfold locateEntities
    rw [h1]
    show (if _ then _ else _) = _
    rw [if_pos h2]
  · intro e2vs h1
    unfold locateEntitiesAll
    rw [if_pos h1]
  · intro k
    rfl
  · intro k hk
    unfold locateBoundary
    rw [if_neg (by simp), if_pos hk]
  · intro facets es pts pos h1 h2 h3
    unfold locateBoundary
    rw [h1]
    simp only [Bool.false_eq_true, if_false, Nat.lt_irrefl]
    rw [h2]
    show (if _ then _ else _) = _
    rw [if_pos h3]

/-! ## An example: two triangles on two processes -/

abbrev CheckRows (w u : World) (r : Nat) (rows : List (List Nat)) (G : Nat → List Nat) : Prop :=
  rows.length = w.size r + (w.ghosts r).length ∧ ∀ i < rows.length, (rows.getD i []).map (globalOf u r) = (G ((globalOf w r i).getD 0)).map some

private theorem rows_of_check {w u : World} {r : Nat} {rows : List (List Nat)} {G : Nat → List Nat} (h : CheckRows w u r rows G) : Rows w u r rows G := by
  refine ⟨h.1, fun i g row hi hrow => ?_⟩
  have := h.2 i (List.getElem?_eq_some_iff.mp hrow).1
  rwa [hi, List.getD_eq_getElem?_getD, hrow] at this

/-- Vertices 0, 1, 2 are on process 0, which owns three edges; vertex 3 on process 1. -/
def C72Mesh (edges : Bool) : Spec.LocateEntities.Mesh (Nat × Nat) where
  fac := { C := { P := 2, size := fun _ => 1, ghosts := fun _ => [], owners := fun _ => [] }
           E := { P := 2, size := fun r => if r = 0 then 3 else 2, ghosts := fun r => if r = 0 then [] else [0], owners := fun r => if r = 0 then [] else [0] }
           G := fun g => if g = 0 then [0, 1, 2] else [3, 4, 0]
           c2e := fun _ => [[0, 1, 2]]
           e2c := fun _ => [[0], [0], [0]]
           inter := fun r => if r = 0 then [0] else [2] }
  V := { P := 2, size := fun r => if r = 0 then 3 else 1, ghosts := fun r => if r = 0 then [] else [1, 2], owners := fun r => if r = 0 then [] else [0, 0] }
  D := if edges then { P := 2, size := fun r => if r = 0 then 3 else 2, ghosts := fun r => if r = 0 then [] else [0], owners := fun r => if r = 0 then [] else [0] }
    else { P := 2, size := fun r => if r = 0 then 3 else 1, ghosts := fun r => if r = 0 then [] else [1, 2], owners := fun r => if r = 0 then [] else [0, 0] }
  types := fun r => [{ verts := [if r = 0 then [0, 1, 2] else [1, 2, 0]], nodes := [[2, 0, 1]] }]
  x := fun r => if r = 0 then [(1, 0), (0, 1), (0, 0)] else [(0, 1), (1, 1), (1, 0)]
  e2v := fun r => if edges then (if r = 0 then [[1, 2], [0, 2], [0, 1]] else [[2, 0], [1, 0], [1, 2]]) else [[0], [1], [2]]
  f2v := fun r => if r = 0 then [[1, 2], [0, 2], [0, 1]] else [[2, 0], [1, 0], [1, 2]]
  f2e := fun r => if edges then [[0], [1], [2]] else (if r = 0 then [[1, 2], [0, 2], [0, 1]] else [[2, 0], [1, 0], [1, 2]])
  v2c := fun _ => [[0], [0], [0]]
  vertsOf := fun g => if edges then ([[1, 2], [0, 2], [0, 1], [2, 3], [1, 3]].getD g []) else [g]
  facetVerts := fun g => [[1, 2], [0, 2], [0, 1], [2, 3], [1, 3]].getD g []
  facetEnts := fun g => if edges then [g] else ([[1, 2], [0, 2], [0, 1], [2, 3], [1, 3]].getD g [])
  point := fun v => [(0, 0), (1, 0), (0, 1), (1, 1)].getD v (0, 0)

theorem C72_aux_example (edges : Bool) : Ok (C72Mesh edges) where
  verts := World.valid_of_check _ (by cases edges <;> decide +kernel)
  ents := World.valid_of_check _ (by cases edges <;> decide +kernel)
  ranks := by cases edges <;> rfl
  e2v := by
    intro r hr
    refine rows_of_check ?_
    have : r < 2 := hr
    cases edges <;> interval_cases r <;> decide +kernel
  covered := by
    intro r hr v hv
    have : r < 2 := hr
    have : v < 3 := by interval_cases r <;> exact hv
    refine ⟨_, List.mem_singleton.mpr rfl, _, List.mem_singleton.mpr rfl, ?_⟩
    interval_cases r <;> interval_cases v <;> decide
  points := by
    intro r hr t ht c row i v hc hi
    have : r < 2 := hr
    obtain rfl := List.mem_singleton.mp ht
    have hc0 : c = 0 := by
      have := (List.getElem?_eq_some_iff.mp hc).1
      simpa using this
    subst hc0
    simp only [List.getElem?_cons_zero, Option.some.injEq] at hc
    subst hc
    have hi3 : i < 3 := by
      have := (List.getElem?_eq_some_iff.mp hi).1
      split at this <;> exact this
    have hv : v = (if r = 0 then [0, 1, 2] else [1, 2, 0]).getD i 0 := by
      rw [List.getD_eq_getElem?_getD, hi]; rfl
    subst hv
    refine ⟨[2, 0, 1], [2, 0, 1].getD i 0, (if r = 0 then [0, 1, 2] else [1, 2, 3]).getD i 0, rfl, ?_⟩
    cases edges <;> interval_cases r <;> interval_cases i <;> decide
  facets := by
    refine Integration.ok_of_check _ (World.valid_of_check _ ?_) (World.valid_of_check _ ?_) ?_ <;> cases edges <;> decide +kernel
  franks := rfl
  f2v := by
    intro r hr
    refine rows_of_check ?_
    have : r < 2 := hr
    cases edges <;> interval_cases r <;> decide +kernel
  f2e := by
    intro r hr
    refine rows_of_check ?_
    have : r < 2 := hr
    cases edges <;> interval_cases r <;> decide +kernel
  closure := by
    intro f e he
    cases edges
    · intro v hv
      have : v = e := by simpa [C72Mesh] using hv
      rw [this]
      exact he
    · have : e = f := by simpa [C72Mesh] using he
      rw [this]
      exact List.Subset.refl _
  v2c := by
    intro r hr
    have : r < 2 := hr
    refine ⟨by interval_cases r <;> rfl, _, rfl, ?_⟩
    intro v cs hcs
    have hv : v < 3 := (List.getElem?_eq_some_iff.mp hcs).1
    have hcs' : cs = [0] := by
      have h3 : (C72Mesh edges).v2c r = [[0], [0], [0]] := rfl
      rw [h3] at hcs
      interval_cases v <;> exact (Option.some.inj hcs).symm
    subst hcs'
    refine ⟨by simp, fun c hc => ?_⟩
    obtain rfl := List.mem_singleton.mp hc
    refine ⟨_, rfl, ?_⟩
    interval_cases r <;> interval_cases v <;> decide

private def C72Boundary (edges : Bool) (r : Nat) : Except Err (List Nat) :=
  let m := C72Mesh edges
  locateBoundary false 1 ⟨m.f2v r, m.f2e r, m.v2c r, (m.types r).headD ⟨[], []⟩, m.x r⟩ (m.fac.E.size r) (m.fac.e2c r) (m.fac.inter r) (m.e2v r)
    (List.map fun x => decide (1 ≤ x.1 + x.2))

/-- Edges with both vertices off the origin: the diagonal is not on the boundary. -/
example : C72Boundary true 0 = .ok [] ∧ C72Boundary true 1 = .ok [0, 1] := by constructor <;> rfl
/-- Vertices: both processes find vertices 1 and 2. -/
example : C72Boundary false 0 = .ok [1, 2] ∧ C72Boundary false 1 = .ok [0, 1, 2] := by constructor <;> rfl
/-- With the diagonal. -/
example : locateEntities 3 ((C72Mesh true).types 0) ((C72Mesh true).x 0) ((C72Mesh true).e2v 0) (List.map fun x => decide (1 ≤ x.1 + x.2)) = .ok [0] := by rfl


/-- Linear elements on this mesh: one dof at each vertex. -/
private def C72Dofs (r : Nat) : Locate.Input where
  e2c := [[0], [0], [0]]
  c2e := fun c => if c = 0 then [0, 1, 2] else []
  cellDofs := fun _ => if r = 0 then [0, 1, 2] else [1, 2, 0]
  closure := fun i => [[1, 2], [0, 2], [0, 1]].getD i []
  bs := 1
  ebs := 1

private theorem C72_aux_on (r e d : Nat) (hr : r < 2) : Spec.Locate.OnEntity (C72Dofs r) e d ↔ e < 3 ∧ d ∈ ((C72Mesh true).e2v r).getD e [] := by
  constructor
  · rintro ⟨c, i, hi, index, hx, hd⟩
    have hc : c = 0 := by
      by_contra hc
      simp [C72Dofs, hc] at hi
    subst hc
    have hi3 : i < 3 := (List.getElem?_eq_some_iff.mp hi).1
    have hei : e = i := by
      interval_cases i <;> simpa [C72Dofs] using hi.symm
    subst hei
    rcases hd with ⟨_, hd⟩ | ⟨hd, _⟩
    · refine ⟨hi3, ?_⟩
      have key : ∀ r < 2, ∀ e < 3, ∀ index ∈ (C72Dofs r).closure e,
          ((C72Dofs r).cellDofs 0).getD index 0 ∈ ((C72Mesh true).e2v r).getD e [] := by decide
      have := key r hr e hi3 index hx
      rwa [show ((C72Dofs r).cellDofs 0).getD index 0 = d by rw [List.getD_eq_getElem?_getD, hd]; rfl] at this
    · exact absurd rfl hd
  · rintro ⟨he, hd⟩
    refine ⟨0, e, ?_, ?_⟩
    · interval_cases e <;> rfl
    · have hsub : ∃ index ∈ (C72Dofs r).closure e, ((C72Dofs r).cellDofs 0)[index]? = some d := by
        interval_cases r <;> interval_cases e <;> simp [C72Mesh] at hd <;> rcases hd with rfl | rfl <;> simp [C72Dofs]
      obtain ⟨index, h1, h2⟩ := hsub
      exact ⟨index, h1, Or.inl ⟨rfl, h2⟩⟩

/-- Both processes find the dofs of the edges (2, 3) and (1, 3), which process 1 owns. -/
example : ∀ q < 2, ∀ i J, globalOf (C72Mesh true).V q i = some J → (i ∈ Locate.locate (C72Mesh true).V 1 1
    (fun r => if r = 0 then [] else [0, 1, 2]) true q → ∃ f < 5, Exterior (C72Mesh true) f ∧ ∃ g ∈ [f],
      Marked (C72Mesh true) (fun x => decide (1 ≤ x.1 + x.2)) g ∧ J ∈ (C72Mesh true).vertsOf g) := by
  intro q hq i J hJ hi
  have hrows : ∀ r < 2, ∀ e g, globalOf (C72Mesh true).D r e = some g → e < 3 ∧ ∀ J, J ∈ (C72Mesh true).vertsOf g ↔
      ∃ j, globalOf (C72Mesh true).V r j = some J ∧ j ∈ ((C72Mesh true).e2v r).getD e [] := by
    intro r hr e g hg
    obtain ⟨row, h1, h2⟩ := rows_at ((C72_aux_example true).e2v r hr) hg
    have he := (List.getElem?_eq_some_iff.mp h1).1
    refine ⟨by interval_cases r <;> exact he, fun J => ?_⟩
    rw [List.getD_eq_getElem?_getD, h1, Option.getD_some]
    constructor
    · intro hJ
      obtain ⟨v, hv, hg⟩ := (map_mem h2).2 J hJ
      exact ⟨v, hg, hv⟩
    · rintro ⟨v, hg, hv⟩
      obtain ⟨a, ha, hg'⟩ := (map_mem h2).1 v hv
      obtain rfl := Option.some.inj (hg.symm.trans hg')
      exact ha
  have := C72_dofs (C72_aux_example true) (fun x => decide (1 ≤ x.1 + x.2)) (fun r => if r = 0 then [] else [0, 1])
    (by
      intro r hr
      have : r < 2 := hr
      interval_cases r
      · exact ⟨_, rfl, rfl⟩
      · exact ⟨_, rfl, rfl⟩) (C72Mesh true).V (C72_aux_example true).verts rfl 1 1 1 rfl Nat.one_pos C72Dofs
    (by
      intro r hr
      have : r < 2 := hr
      refine ⟨?_, ?_, Or.inl rfl, ?_⟩
      · intro e he
        have : e < 3 := by interval_cases r <;> simp at he; omega
        refine ⟨0, [], ?_, ?_⟩ <;> interval_cases r <;> interval_cases e <;> decide
      · intro c i e hi index hx
        have hi3 : i < 3 := by
          by_contra hc
          have hx : index ∈ [[1, 2], [0, 2], [0, 1]].getD i [] := hx
          rw [List.getD_eq_getElem?_getD, List.getElem?_eq_none (by simp; omega)] at hx
          cases hx
        show index < _
        interval_cases r <;> interval_cases i <;> simp [C72Dofs] at hx ⊢ <;> omega
      · intro c i c' i' e d h1 h2
        have hc : c = 0 := by
          by_contra hc
          simp [C72Dofs, hc] at h1
        have hc' : c' = 0 := by
          by_contra hc
          simp [C72Dofs, hc] at h2
        subst hc hc'
        have hi : i < 3 := (List.getElem?_eq_some_iff.mp h1).1
        have hi' : i' < 3 := (List.getElem?_eq_some_iff.mp h2).1
        have : i = i' := by
          rw [← h2] at h1
          interval_cases i <;> interval_cases i' <;> first | rfl | simp [C72Dofs] at h1
        rw [this])
    (fun g J k => J ∈ (C72Mesh true).vertsOf g ∧ k = 0)
    (by
      intro r hr e g hg J k hk
      obtain ⟨he, hm⟩ := hrows r hr e g hg
      have hk0 : k = 0 := by omega
      subst hk0
      simp only [C72_aux_on r e _ hr, hm, and_true, one_mul, add_zero, he, true_and])
    (by
      intro r hr e d hd
      have : r < 2 := hr
      obtain ⟨he, hd⟩ := (C72_aux_on r e d hr).mp hd
      interval_cases r <;> interval_cases e <;> simp [C72Mesh] at hd ⊢ <;> omega)
    (fun r => if r = 0 then [] else [0, 1, 2])
    (by
      intro r hr
      have : r < 2 := hr
      interval_cases r <;> decide +kernel)
    q hq i J 0 hJ Nat.one_pos
  obtain ⟨f, h1, h2, g, h3, h4, h5, -⟩ := this.1 (by simpa using hi)
  exact ⟨f, h1, h2, g, h3, h4, h5⟩

end Verif.Props
