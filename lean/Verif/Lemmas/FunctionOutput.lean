import Verif.Spec.FunctionOutput
import Verif.Lemmas.Interpolate
import Verif.Lemmas.Xdmf
/-!
# Loops that write rows
-/
namespace Verif.FunOut
open Interp (foldlM_flatMap' foldlM_map' foldlM_congr')

variable {R T α : Type}

theorem put_loop (ws : List (Nat × Option R)) (a : List R) (h : ∀ w ∈ ws, w.1 < a.length ∧ ∃ v, w.2 = some v) :
    ∃ b, ws.foldlM put a = some b ∧ b.length = a.length ∧ (∀ p, (∀ w ∈ ws, w.1 ≠ p) → b[p]? = a[p]?) ∧
      ∀ p v, (∃ w ∈ ws, w.1 = p) → (∀ w ∈ ws, w.1 = p → w.2 = some v) → b[p]? = some v := by
  induction ws generalizing a with
  | nil => exact ⟨a, rfl, rfl, fun _ _ => rfl, fun p v h => by obtain ⟨w, hw, _⟩ := h; simp at hw⟩
  | cons w ws ih =>
    obtain ⟨h0, v0, hv0⟩ := h w (by simp)
    obtain ⟨b, h1, h2, h3, h4⟩ := ih (a.set w.1 v0) (fun w' hw' => by rw [List.length_set]; exact h w' (List.mem_cons_of_mem _ hw'))
    refine ⟨b, ?_, by rw [h2, List.length_set], ?_, ?_⟩
    · rw [List.foldlM_cons, put, hv0, Option.bind_some, if_pos h0]
      exact h1
    · intro p hp
      rw [h3 p (fun w' hw' => hp w' (List.mem_cons_of_mem _ hw')), List.getElem?_set_ne (hp w (by simp))]
    · intro p v hex hall
      by_cases hin : ∃ w' ∈ ws, w'.1 = p
      · exact h4 p v hin fun w' hw' => hall w' (List.mem_cons_of_mem _ hw')
      · have hne : ∀ w' ∈ ws, w'.1 ≠ p := fun w' hw' he => hin ⟨w', hw', he⟩
        obtain ⟨w', hw', he⟩ := hex
        rcases List.mem_cons.mp hw' with rfl | hw'
        · have hv := hall w' (by simp) he
          rw [hv0] at hv
          rw [h3 p hne, ← he, List.getElem?_set_self h0]
          exact hv
        · exact absurd he (hne w' hw')

theorem row_lt {r n nc k : Nat} (hr : r < n) (hk : k < nc) : nc * r + k < n * nc := by nlinarith

theorem row_inj {nc r r' k k' : Nat} (hk : k < nc) (hk' : k' < nc) (h : nc * r + k = nc * r' + k') : r = r' ∧ k = k' := by
  have h1 : (nc * r + k) / nc = r := by rw [Nat.mul_add_div (by omega), Nat.div_eq_of_lt hk, Nat.add_zero]
  have h2 : (nc * r' + k') / nc = r' := by rw [Nat.mul_add_div (by omega), Nat.div_eq_of_lt hk', Nat.add_zero]
  have : r = r' := by rw [← h1, h, h2]
  subst this
  exact ⟨rfl, by omega⟩

/-- A loop that writes `b` values to the start of rows of `nc` values. -/
theorem rows_loop [Zero R] (L : List α) (row : α → Nat) (src : α → Nat → Option R) (b nc n : Nat) (hb : b ≤ nc) (hr : ∀ a ∈ L, row a < n)
    (hs : ∀ a ∈ L, ∀ k < b, ∃ v, src a k = some v) :
    ∃ d, L.foldlM (fun d a => (List.range b).foldlM (fun d k => put d (nc * row a + k, src a k)) d) (List.replicate (n * nc) (0 : R)) = some d ∧
      d.length = n * nc ∧ ∀ a ∈ L, (∀ a' ∈ L, row a' = row a → ∀ k < b, src a' k = src a k) →
        ∀ k < nc, d[nc * row a + k]? = if k < b then src a k else some 0 := by
  obtain ⟨d, h1, h2, h3, h4⟩ := put_loop (L.flatMap fun a => (List.range b).map fun k => (nc * row a + k, src a k)) (List.replicate (n * nc) (0 : R)) (by
    intro w hw
    obtain ⟨a, ha, hw⟩ := List.mem_flatMap.mp hw
    obtain ⟨k, hk, rfl⟩ := List.mem_map.mp hw
    have hk := List.mem_range.mp hk
    rw [List.length_replicate]
    exact ⟨row_lt (hr a ha) (by omega), hs a ha k hk⟩)
  rw [List.length_replicate] at h2
  refine ⟨d, ?_, h2, ?_⟩
  · rw [← h1, foldlM_flatMap']
    refine foldlM_congr' _ _ _ ?_ _
    intro a _ s
    rw [foldlM_map']
  · intro a ha hsame k hk
    split
    · rename_i hkb
      obtain ⟨v, hv⟩ := hs a ha k hkb
      rw [hv]
      refine h4 _ v ⟨(nc * row a + k, src a k), List.mem_flatMap.mpr ⟨a, ha, List.mem_map.mpr ⟨k, List.mem_range.mpr hkb, rfl⟩⟩, rfl⟩ ?_
      intro w hw he
      obtain ⟨a', ha', hw⟩ := List.mem_flatMap.mp hw
      obtain ⟨k', hk', rfl⟩ := List.mem_map.mp hw
      have hk' := List.mem_range.mp hk'
      obtain ⟨e1, e2⟩ := row_inj (by omega) hk he
      subst e2
      rw [hsame a' ha' e1 k' hk', hv]
    · rename_i hkb
      rw [h3, List.getElem?_replicate, if_pos (row_lt (hr a ha) hk)]
      intro w hw he
      obtain ⟨a', ha', hw⟩ := List.mem_flatMap.mp hw
      obtain ⟨k', hk', rfl⟩ := List.mem_map.mp hw
      have hk' := List.mem_range.mp hk'
      obtain ⟨e1, e2⟩ := row_inj (by omega) hk he
      omega

/-- Cells with their dofs: loops over cells and over the dofs of each. -/
def cellPairs (cells : List (List Nat)) (n : Nat) : List (Nat × Nat × Nat) :=
  (List.range n).flatMap fun c => ((cells.getD c []).zipIdx).map fun p => (c, p.2, p.1)

theorem mem_cellPairs (cells : List (List Nat)) (n : Nat) (t : Nat × Nat × Nat) :
    t ∈ cellPairs cells n ↔ t.1 < n ∧ ((cells[t.1]?).bind fun ds => ds[t.2.1]?) = some t.2.2 := by
  obtain ⟨c, i, d⟩ := t
  simp only [cellPairs, List.mem_flatMap, List.mem_range, List.mem_map, Prod.mk.injEq]
  constructor
  · rintro ⟨c', hc, ⟨d', i'⟩, hp, rfl, rfl, rfl⟩
    refine ⟨hc, ?_⟩
    rw [List.mem_zipIdx_iff_getElem?] at hp
    rw [List.getD_eq_getElem?_getD] at hp
    cases hg : cells[c']? with
    | none => rw [hg] at hp; simp at hp
    | some ds => rw [hg] at hp; simpa using hp
  · rintro ⟨hc, h⟩
    refine ⟨c, hc, (d, i), ?_, rfl, rfl, rfl⟩
    rw [List.mem_zipIdx_iff_getElem?, List.getD_eq_getElem?_getD]
    cases hg : cells[c]? with
    | none => rw [hg] at h; simp at h
    | some ds => rw [hg] at h; simpa using h

theorem cellPairs_loop {β : Type} (cells : List (List Nat)) (n : Nat) (f : β → Nat × Nat × Nat → Option β) (s : β) :
    (List.range n).foldlM (fun s c => ((cells.getD c []).zipIdx).foldlM (fun s p => f s (c, p.2, p.1)) s) s = (cellPairs cells n).foldlM f s := by
  rw [cellPairs, foldlM_flatMap']
  refine foldlM_congr' _ _ _ ?_ _
  intro c _ s
  rw [foldlM_map']

/-! ## The loops of the writers -/

theorem numNodes_eq {V : Space} {n : Nat} (h : SpaceOk V n) : V.numNodes = V.owned + V.ghosts.length := by
  rw [Space.numNodes, h.map, Nat.mul_div_cancel_left _ h.pos]

theorem dof_lt {V : Space} {n : Nat} (h : SpaceOk V n) {c i p : Nat} (hp : V.dof c i = some p) :
    c < n ∧ i < V.elem.dim / V.elem.bs ∧ p < V.owned + V.ghosts.length := by
  obtain ⟨ds, h1, h2⟩ := Option.bind_eq_some_iff.mp hp
  have hm := List.mem_of_getElem? h1
  obtain ⟨h3, _⟩ := List.getElem?_eq_some_iff.mp h1
  obtain ⟨h4, _⟩ := List.getElem?_eq_some_iff.mp h2
  exact ⟨by rw [← h.cells]; exact h3, by rw [← h.row ds hm]; exact h4, h.lt ds hm p (List.mem_of_getElem? h2)⟩

theorem dof_some {V : Space} {n : Nat} (h : SpaceOk V n) {c i : Nat} (hc : c < n) (hi : i < V.elem.dim / V.elem.bs) : ∃ p, V.dof c i = some p := by
  have h1 : c < V.dofs.length := by rw [h.cells]; exact hc
  have h2 : i < (V.dofs[c]).length := by rw [h.row _ (List.getElem_mem h1)]; exact hi
  exact ⟨(V.dofs[c])[i], by rw [Space.dof, List.getElem?_eq_getElem h1, Option.bind_some, List.getElem?_eq_getElem h2]⟩

theorem read_some [Zero R] {u : Fn R} {n : Nat} (h : FnOk u n) {q k : Nat} (hq : q < u.space.owned + u.space.ghosts.length) (hk : k < u.space.bs) :
    u.x[u.space.bs * q + k]? = some (nodal u q k) := by
  have hlt : u.space.bs * q + k < u.x.length := by
    rw [h.2, Nat.mul_comm u.space.bs (_ + _)]
    exact row_lt hq hk
  rw [nodal, List.getD_eq_getElem?_getD, List.getElem?_eq_getElem hlt, Option.getD_some]

/-- A padded row. -/
def padded [Zero R] (u : Fn R) (q k : Nat) : R := if k < u.space.bs then nodal u q k else 0

theorem padded_src [Zero R] {u : Fn R} {n : Nat} (h : FnOk u n) {q : Nat} (hq : q < u.space.owned + u.space.ghosts.length) (k : Nat) :
    (if k < u.space.bs then u.x[u.space.bs * q + k]? else some 0) = some (padded u q k) := by
  rw [padded]
  split
  · rename_i hk
    exact read_some h hq hk
  · rfl

theorem bs_le {V : Space} {n : Nat} (h : SpaceOk V n) : V.bs ≤ numComponents V.elem.shape := by
  rw [numComponents, ← h.shape]
  split <;> omega

theorem padData_ok [Zero R] (u : Fn R) (n : Nat) (h : FnOk u n) :
    ∃ d, padData u.space (numComponents u.space.elem.shape) u.x = some d ∧
      d.length = (u.space.owned + u.space.ghosts.length) * numComponents u.space.elem.shape ∧
      ∀ q < u.space.owned + u.space.ghosts.length, ∀ k < numComponents u.space.elem.shape,
        d[numComponents u.space.elem.shape * q + k]? = some (padded u q k) := by
  obtain ⟨d, h1, h2, h3⟩ := rows_loop (R := R) (List.range (u.space.owned + u.space.ghosts.length)) id (fun q k => u.x[u.space.bs * q + k]?) u.space.bs
    (numComponents u.space.elem.shape) (u.space.owned + u.space.ghosts.length) (bs_le h.1) (fun a ha => List.mem_range.mp ha)
    (fun a ha k hk => ⟨_, read_some h (List.mem_range.mp ha) hk⟩)
  refine ⟨d, ?_, h2, ?_⟩
  · rw [padData, numNodes_eq h.1, h.1.map, ← h1]
    refine foldlM_congr' _ _ _ ?_ _
    intro i _ s
    simp only [id, Nat.mul_comm i]
  · intro q hq k hk
    rw [← padded_src h hq, ← h3 q (List.mem_range.mpr hq) (by rintro a' _ rfl _ _; rfl) k hk]
    rfl

theorem cellData_ok [Zero R] (u : Fn R) (n N : Nat) (h : FnOk u n) (hN : N ≤ n) (h1 : Constant u.space) :
    ∃ d, cellData u.space (numComponents u.space.elem.shape) N u.x = some d ∧ d.length = N * numComponents u.space.elem.shape ∧
      ∀ c q, c < N → u.space.dof c 0 = some q → ∀ k < numComponents u.space.elem.shape, d[numComponents u.space.elem.shape * c + k]? = some (padded u q k) := by
  have hm : ∀ t ∈ cellPairs u.space.dofs N, t.1 < N ∧ t.2.1 = 0 ∧ u.space.dof t.1 0 = some t.2.2 := by
    intro t ht
    obtain ⟨ht1, ht2⟩ := (mem_cellPairs _ _ _).mp ht
    have := (dof_lt h.1 (show u.space.dof t.1 t.2.1 = some t.2.2 from ht2)).2.1
    rw [h1] at this
    have h0 : t.2.1 = 0 := by omega
    exact ⟨ht1, h0, by rw [← h0]; exact ht2⟩
  obtain ⟨d, k1, k2, k3⟩ := rows_loop (R := R) (cellPairs u.space.dofs N) (fun t => t.1) (fun t k => u.x[u.space.bs * t.2.2 + k]?) u.space.bs
    (numComponents u.space.elem.shape) N (bs_le h.1) (fun t ht => (hm t ht).1)
    (fun t ht k hk => ⟨_, read_some h (dof_lt h.1 (hm t ht).2.2).2.2 hk⟩)
  refine ⟨d, ?_, k2, ?_⟩
  · rw [← k1, cellData]
    exact cellPairs_loop u.space.dofs N (fun d t => (List.range u.space.bs).foldlM (fun d k => put d
      (numComponents u.space.elem.shape * t.1 + k, u.x[u.space.bs * t.2.2 + k]?)) d) _
  · intro c q hc hq k hk
    rw [← padded_src h (dof_lt h.1 hq).2.2]
    refine k3 (c, 0, q) ((mem_cellPairs _ _ _).mpr ⟨hc, hq⟩) ?_ k hk
    intro t ht he j _
    have := (hm t ht).2.2
    rw [show t.1 = c from he, hq] at this
    rw [Option.some.inj this]

theorem remap_ok [Zero R] (V0 : Space) (u : Fn R) (n : Nat) (h0 : SpaceOk V0 n) (h : FnOk u n)
    (hw : V0.elem.dim / V0.elem.bs = u.space.elem.dim / u.space.elem.bs)
    (hn : V0.owned + V0.ghosts.length = u.space.owned + u.space.ghosts.length) (hf : Follows V0 u.space) :
    ∃ d, remap V0 u.space u.x = some d ∧ d.length = u.space.bs * (V0.owned + V0.ghosts.length) ∧
      ∀ c i p q, V0.dof c i = some p → u.space.dof c i = some q → ∀ k < u.space.bs, d[u.space.bs * p + k]? = some (nodal u q k) := by
  have hm : ∀ t ∈ cellPairs V0.dofs V0.dofs.length, V0.dof t.1 t.2.1 = some t.2.2 := fun t ht => ((mem_cellPairs _ _ _).mp ht).2
  have hq : ∀ t ∈ cellPairs V0.dofs V0.dofs.length, ∃ q, u.space.dof t.1 t.2.1 = some q := by
    intro t ht
    obtain ⟨a, b, _⟩ := dof_lt h0 (hm t ht)
    exact dof_some h.1 a (by rw [← hw]; exact b)
  obtain ⟨d, k1, k2, k3⟩ := rows_loop (R := R) (cellPairs V0.dofs V0.dofs.length) (fun t => t.2.2)
    (fun t k => (u.space.dof t.1 t.2.1).bind fun q => u.x[u.space.bs * q + k]?) u.space.bs
    u.space.bs (V0.owned + V0.ghosts.length) (le_refl _) (fun t ht => (dof_lt h0 (hm t ht)).2.2)
    (fun t ht k hk => by
      obtain ⟨q, hq⟩ := hq t ht
      exact ⟨_, by rw [hq]; exact read_some h (dof_lt h.1 hq).2.2 hk⟩)
  refine ⟨d, ?_, by rw [k2, Nat.mul_comm], ?_⟩
  · rw [remap, h.2, Nat.mul_comm, ← hn, ← k1]
    rw [← cellPairs_loop V0.dofs V0.dofs.length (fun d t => (List.range u.space.bs).foldlM (fun d k => put d
      (u.space.bs * t.2.2 + k, (u.space.dof t.1 t.2.1).bind fun q => u.x[u.space.bs * q + k]?)) d)]
    refine foldlM_congr' _ _ _ ?_ _
    intro c hc s
    refine foldlM_congr' _ _ _ ?_ _
    intro p _ s
    refine foldlM_congr' _ _ _ ?_ _
    intro k _ s
    have hc : c < u.space.dofs.length := by
      rw [h.1.cells, ← h0.cells]
      exact List.mem_range.mp hc
    simp only [Space.dof, List.getD_eq_getElem?_getD, List.getElem?_eq_getElem hc, Option.getD_some, Option.bind_some]
  · intro c i p q hp hq k hk
    have := k3 (c, i, p) ((mem_cellPairs _ _ _).mpr ⟨by rw [h0.cells]; exact (dof_lt h0 hp).1, hp⟩) (by
      intro t ht he j _
      simp only []
      rw [hf t.1 t.2.1 c i p (by rw [hm t ht]; exact congrArg some he) hp]) k hk
    simp only [if_pos hk, hq, Option.bind_some] at this
    rw [this]
    exact read_some h (dof_lt h.1 hq).2.2 hk

theorem dofCoordinates_ok [Zero T] (V : Space) (n gdim : Nat) (pts : Nat → Nat → Nat → T) (h : SpaceOk V n) (hg : gdim ≤ 3) (hp : OnePosition V gdim pts) :
    ∃ d, dofCoordinates V gdim pts = some d ∧ d.length = 3 * (V.owned + V.ghosts.length) ∧
      ∀ c i p, V.dof c i = some p → ∀ j < 3, d[3 * p + j]? = some (if j < gdim then pts c i j else 0) := by
  have hm : ∀ t ∈ cellPairs V.dofs V.dofs.length, V.dof t.1 t.2.1 = some t.2.2 := fun t ht => ((mem_cellPairs _ _ _).mp ht).2
  obtain ⟨d, k1, k2, k3⟩ := rows_loop (R := T) (cellPairs V.dofs V.dofs.length) (fun t => t.2.2) (fun t k => some (pts t.1 t.2.1 k)) gdim
    3 (V.owned + V.ghosts.length) hg (fun t ht => (dof_lt h (hm t ht)).2.2) (fun t ht k hk => ⟨_, rfl⟩)
  refine ⟨d, ?_, by rw [k2, Nat.mul_comm], ?_⟩
  · rw [dofCoordinates, numNodes_eq h, ← k1]
    exact cellPairs_loop V.dofs V.dofs.length (fun d t => (List.range gdim).foldlM (fun d j => put d (3 * t.2.2 + j, some (pts t.1 t.2.1 j))) d) _
  · intro c i p hc j hj
    have := k3 (c, i, p) ((mem_cellPairs _ _ _).mpr ⟨by rw [h.cells]; exact (dof_lt h hc).1, hc⟩) (by
      intro t ht he j hj
      exact congrArg some (hp t.1 t.2.1 c i p (by rw [hm t ht]; exact congrArg some he) hc j hj)) j hj
    rw [this]
    split <;> rfl

/-! ## The expected form -/

theorem prod_two (a b : Nat) : [a, b].prod = a * b := by simp

theorem shown_padded [Zero R] (u : Fn R) (q : Nat) (hs : u.space.elem.shape.prod = u.space.bs) (hf : FlatShape u.space.elem.shape) :
    shown u.space.elem.shape (nodal u q) = (List.range (numComponents u.space.elem.shape)).map (padded u q) := by
  rcases hf with he | ⟨n, he⟩ | ⟨a, ha, he⟩ | ⟨a, b, hab, h9, he⟩ <;> rw [he] at hs ⊢
  · simp only [List.prod_nil] at hs
    simp [shown, numComponents, padded, ← hs]
  · rw [List.prod_singleton] at hs
    have hnc : numComponents [n] = max n 3 := by
      simp only [numComponents, List.prod_singleton, List.length_singleton]
      split <;> omega
    rw [hnc, hs]
    exact List.map_congr_left fun k _ => rfl
  · rw [prod_two] at hs
    have hnc : numComponents [a, 3] = 9 := by
      simp only [numComponents, prod_two, List.length_cons, List.length_nil]
      split <;> omega
    rw [hnc, shown, if_pos ⟨ha, le_refl _⟩]
    refine List.map_congr_left fun k hk => ?_
    have hk := List.mem_range.mp hk
    rw [padded, ← hs]
    by_cases hka : k / 3 < a
    · rw [if_pos ⟨hka, by omega⟩, if_pos (by omega)]
      congr 1
      omega
    · rw [if_neg (fun h => hka h.1), if_neg (by omega)]
  · rw [prod_two] at hs
    have hnc : numComponents [a, b] = a * b := by
      simp only [numComponents, prod_two, List.length_cons, List.length_nil]
      split <;> omega
    rw [hnc, shown, if_neg hab]
    refine List.map_congr_left fun k hk => ?_
    have hk := List.mem_range.mp hk
    rw [padded, if_pos (by omega)]

theorem at_padded [Zero R] (u : Fn R) (q : Nat) (f : DataField R) (p : Nat) (hs : u.space.elem.shape.prod = u.space.bs) (hf : FlatShape u.space.elem.shape)
    (hnc : f.nc = numComponents u.space.elem.shape)
    (h : ∀ k < numComponents u.space.elem.shape, f.values[numComponents u.space.elem.shape * p + k]? = some (padded u q k)) :
    At f p (shown u.space.elem.shape (nodal u q)) := by
  rw [shown_padded u q hs hf]
  refine ⟨by rw [hnc, List.length_map, List.length_range], ?_⟩
  intro k hk
  rw [List.length_map, List.length_range] at hk
  rw [hnc, h k hk, List.getElem?_map, List.getElem?_range hk, Option.map_some]

/-! ## Connectivity -/

theorem mapM_some_map {β γ : Type} (l : List β) (f : β → Option γ) (g : β → γ) (h : ∀ a ∈ l, f a = some (g a)) : l.mapM f = some (l.map g) := by
  induction l with
  | nil => rfl
  | cons a l ih =>
    rw [List.mapM_cons, h a (by simp), ih fun b hb => h b (List.mem_cons_of_mem _ hb)]
    rfl

theorem flatten_get {β : Type} (L : List (List β)) (n : Nat) (h : ∀ r ∈ L, r.length = n) (c i : Nat) (row : List β) (hc : L[c]? = some row) (hi : i < n) :
    L.flatten[c * n + i]? = row[i]? := by
  have := Xdmf.flatten_at L n h c row hc
  rw [← this, List.getElem?_take, if_pos hi, List.getElem?_drop]

theorem permuted_ok (perm : List Nat) (cells : List (List Nat)) (n : Nat) (hp : OrderOk perm n) (h : ∀ r ∈ cells, r.length = n) :
    ∃ l, permuted perm cells = some l ∧ l.length = cells.length * n ∧
      ∀ c i k, perm[i]? = some k → l[c * n + i]? = (cells[c]?).bind fun r => r[k]? := by
  have h1 : ∀ row ∈ cells, ((List.range row.length).mapM fun i => (perm[i]?).bind fun k => row[k]?) =
      some ((List.range row.length).map fun i => row.getD (perm.getD i 0) 0) := by
    intro row hrow
    refine mapM_some_map _ _ _ fun i hi => ?_
    have hi := List.mem_range.mp hi
    rw [h row hrow] at hi
    have hi' : i < perm.length := by rw [hp.length]; exact hi
    have hk : perm[i] < row.length := by rw [h row hrow]; exact hp.lt _ (List.getElem_mem hi')
    simp [List.getD_eq_getElem?_getD, List.getElem?_eq_getElem hi', List.getElem?_eq_getElem hk]
  have h2 : ∀ r ∈ cells.map (fun row => (List.range row.length).map fun i => row.getD (perm.getD i 0) 0), r.length = n := by
    intro r hr
    obtain ⟨row, hrow, rfl⟩ := List.mem_map.mp hr
    rw [List.length_map, List.length_range, h row hrow]
  refine ⟨_, by rw [permuted, mapM_some_map _ _ _ h1, Option.map_some], by rw [Xdmf.flatten_length _ n h2, List.length_map], ?_⟩
  intro c i k hk
  have hi : i < n := by
    rw [← hp.length]
    exact (List.getElem?_eq_some_iff.mp hk).1
  have hkn : k < n := hp.lt k (List.mem_of_getElem? hk)
  cases hc : cells[c]? with
  | none =>
    rw [Option.bind_none, List.getElem?_eq_none_iff, Xdmf.flatten_length _ n h2, List.length_map]
    have := List.getElem?_eq_none_iff.mp hc
    nlinarith
  | some row =>
    rw [flatten_get _ n h2 c i ((List.range row.length).map fun i => row.getD (perm.getD i 0) 0) (by rw [List.getElem?_map, hc]; rfl) hi]
    have hl := h row (List.mem_of_getElem? hc)
    rw [Option.bind_some, List.getElem?_map, List.getElem?_range (by omega), Option.map_some, List.getD_eq_getElem?_getD, List.getD_eq_getElem?_getD, hk,
      Option.getD_some, List.getElem?_eq_getElem (by omega), Option.getD_some]

theorem dofIds_get {V : Space} (p : Nat) : (dofIds V)[p]? = globalId V p := by
  rw [dofIds, globalId]
  split
  · rename_i h
    rw [List.getElem?_append_left (by simpa using h), List.getElem?_map, List.getElem?_range h, Option.map_some]
  · rename_i h
    rw [List.getElem?_append_right (by simpa using h), List.length_map, List.length_range]

theorem dofGhosts_get {V : Space} {n : Nat} (hV : SpaceOk V n) (p : Nat) (hp : p < V.owned + V.ghosts.length) :
    (dofGhosts V)[p]? = some (if p < V.owned then 0 else 1) := by
  rw [dofGhosts, numNodes_eq hV]
  split
  · rename_i h
    rw [List.getElem?_append_left (by simpa using h), List.getElem?_replicate, if_pos h]
  · rename_i h
    rw [List.getElem?_append_right (by simpa using h), List.length_replicate, List.getElem?_replicate, if_pos (by omega)]

/-- The grid that is made of a space. -/
theorem meshFromSpace_ok [Zero T] (V : Space) (n gdim : Nat) (pts : Nat → Nat → Nat → T) (perm : List Nat) (h : SpaceOk V n) (hb : V.elem.basix ≠ none)
    (hg : gdim ≤ 3) (hp : OnePosition V gdim pts) (ho : OrderOk perm (V.elem.dim / V.elem.bs)) :
    ∃ g, meshFromSpace V gdim pts perm = .ok g ∧ GridOf g V gdim pts perm := by
  obtain ⟨x, hx, hxl, hxv⟩ := dofCoordinates_ok V n gdim pts h hg hp
  obtain ⟨l, hl, hll, hlv⟩ := permuted_ok perm V.dofs _ ho h.row
  refine ⟨⟨x, dofIds V, dofGhosts V, l, V.elem.dim / V.elem.bs⟩, ?_, rfl, hll, hxl, ?_, ?_, ?_⟩
  · rw [meshFromSpace, if_neg hb, hx, hl]
  · simp [dofIds]
  · have := numNodes_eq h
    simp only [dofGhosts, List.length_append, List.length_replicate]
    omega
  · intro c i k p hk hd
    exact ⟨(hlv c i k hk).trans hd, hxv c k p hd, dofIds_get p, dofGhosts_get h p (dof_lt h hd).2.2⟩

end Verif.FunOut
