import Verif.Lemmas.DualGraphExchange
import Verif.Spec.DualGraph
/-! # The dual graph in terms of the facets of all cells -/
namespace Verif.DualGraph
open Verif.Std Verif.Offsets Verif.LocalRange Verif.Spec Verif.Props Verif.EntityNumbering Verif.Group Verif.Exchange
open Verif.Spec.Dual (allCells facets Adjacent AtMost globalCell)

variable {I : Input}

theorem allCells_length (ls : List CellList) : (allCells ls).length = cellOffset ls ls.length := by
  induction ls with
  | nil => rfl
  | cons cl ls ih =>
    rw [List.length_cons, cellOffset_cons, ← ih]
    simp [allCells]

theorem facetsFrom_cons (cl : CellList) (ls : List CellList) (k : Nat) :
    ((allCells (cl :: ls)).zipIdx k).flatMap (fun p => p.1.2.map fun f => (p.2, f.map fun j => p.1.1.getD j 0)) =
      (cl.cells.zipIdx k).flatMap (fun p => cl.facets.map fun f => (p.2, f.map fun j => p.1.getD j 0)) ++
      ((allCells ls).zipIdx (k + cl.cells.length)).flatMap (fun p => p.1.2.map fun f => (p.2, f.map fun j => p.1.1.getD j 0)) := by
  have : allCells (cl :: ls) = (cl.cells.map fun v => (v, cl.facets)) ++ allCells ls := by simp [allCells]
  rw [this, List.zipIdx_append, List.flatMap_append, List.length_map]
  congr 1
  rw [List.zipIdx_map, List.flatMap_map]
  rfl

theorem facetsFrom_length (ls : List CellList) (k : Nat) :
    (((allCells ls).zipIdx k).flatMap (fun p => p.1.2.map fun f => (p.2, f.map fun j => p.1.1.getD j 0))).length =
      facetOffset ls ls.length := by
  induction ls generalizing k with
  | nil => rfl
  | cons cl ls ih =>
    rw [facetsFrom_cons, List.length_append, ih, List.length_cons, facetOffset_cons]
    congr 1
    rw [List.length_flatMap]
    simp

theorem flatMap_block_get {α β : Type} (l : List α) (g : α → List β) (m : Nat) (hg : ∀ a ∈ l, (g a).length = m) (c e : Nat)
    (he : e < m) : (l.flatMap g)[c * m + e]? = (l[c]?).bind fun a => (g a)[e]? := by
  induction l generalizing c with
  | nil => simp
  | cons a l ih =>
    rw [List.flatMap_cons]
    have ha := hg a (by simp)
    cases c with
    | zero => rw [Nat.zero_mul, Nat.zero_add, List.getElem?_append_left (by omega)]; rfl
    | succ c =>
      rw [List.getElem?_append_right (by rw [ha, Nat.succ_mul]; omega)]
      have : (c + 1) * m + e - (g a).length = c * m + e := by rw [ha, Nat.succ_mul]; omega
      rw [this, ih (fun b hb => hg b (by simp [hb]))]
      rfl

theorem facetsFrom_get {ls : List CellList} {t c f : Nat} {cl : CellList} (h : Inst ls t c f cl) (k : Nat) :
    (((allCells ls).zipIdx k).flatMap (fun p => p.1.2.map fun f => (p.2, f.map fun j => p.1.1.getD j 0)))[instPos ls cl t c f]? =
      some (k + (cellOffset ls t + c), (cl.facets.getD f []).map fun j => (cl.cells.getD c []).getD j 0) := by
  induction ls generalizing t k with
  | nil => simp [Inst] at h
  | cons cl' ls ih =>
    obtain ⟨h1, h2, h3⟩ := h
    rw [facetsFrom_cons]
    have hlen : ((cl'.cells.zipIdx k).flatMap (fun p => cl'.facets.map fun f => (p.2, f.map fun j => p.1.getD j 0))).length =
        cl'.cells.length * cl'.facets.length := by
      rw [List.length_flatMap]; simp
    cases t with
    | zero =>
      obtain rfl : cl' = cl := Option.some.inj h1
      have hlt := instPos_lt_count h2 h3
      have hp : instPos (cl' :: ls) cl' 0 c f = c * cl'.facets.length + f := by simp [instPos, facetOffset]
      rw [hp, List.getElem?_append_left (by rw [hlen]; exact hlt)]
      have hco : cellOffset (cl' :: ls) 0 = 0 := by simp [cellOffset]
      rw [hco, Nat.zero_add]
      have := flatMap_block_get (cl'.cells.zipIdx k) (fun p => cl'.facets.map fun f => (p.2, f.map fun j => p.1.getD j 0))
        cl'.facets.length (by intro a _; simp) c f h3
      rw [this, List.getElem?_zipIdx, List.getElem?_eq_getElem h2]
      simp [List.getElem?_eq_getElem h3, List.getElem?_eq_getElem h2]
    | succ t =>
      have h1' : ls[t]? = some cl := by simpa using h1
      have hp : instPos (cl' :: ls) cl (t + 1) c f = cl'.cells.length * cl'.facets.length + instPos ls cl t c f := by
        unfold instPos; rw [facetOffset_cons]; omega
      rw [hp, List.getElem?_append_right (by rw [hlen]; omega), hlen, Nat.add_sub_cancel_left, ih ⟨h1', h2, h3⟩,
        cellOffset_cons]
      congr 2; omega

/-- The table holds one entry for each facet of each cell. -/
theorem table_eq (h : Ok I) {r : Nat} (hr : r < I.P) : table I r =
    (facets (I.types r)).map fun x => (facetRow (maxVerts (I.types r)) (x.2.map Int.ofNat), x.1) := by
  have hlen : (table I r).length = (facets (I.types r)).length := by
    rw [table_length]; exact (facetsFrom_length _ 0).symm
  apply List.ext_getElem?
  intro i
  by_cases hi : i < (table I r).length
  · obtain ⟨t, c, f, cl, h1, rfl⟩ := inst_exists _ _ (by rw [← table_length]; exact hi)
    rw [table_get h hr h1, List.getElem?_map]
    have := facetsFrom_get h1 0
    unfold facets
    rw [this]
    simp [CellList.verts, Function.comp_def]
  · rw [List.getElem?_eq_none (by omega), List.getElem?_eq_none (by simp; omega)]

theorem foldl_maxlen (l : List (List Nat)) (m : Nat) : m ≤ l.foldl (fun m f => max m f.length) m ∧
    ∀ f ∈ l, f.length ≤ l.foldl (fun m f => max m f.length) m := by
  induction l generalizing m with
  | nil => simp
  | cons a l ih =>
    rw [List.foldl_cons]
    obtain ⟨h1, h2⟩ := ih (max m a.length)
    refine ⟨by omega, ?_⟩
    intro f hf
    rcases List.mem_cons.mp hf with rfl | hf
    · omega
    · exact h2 f hf

theorem maxVerts_le (ls : List CellList) : ∀ cl ∈ ls, ∀ f ∈ cl.facets, f.length ≤ maxVerts ls := by
  unfold maxVerts
  have : ∀ m, m ≤ ls.foldl (fun m cl => cl.facets.foldl (fun m f => max m f.length) m) m ∧ ∀ cl ∈ ls, ∀ f ∈ cl.facets,
      f.length ≤ ls.foldl (fun m cl => cl.facets.foldl (fun m f => max m f.length) m) m := by
    induction ls with
    | nil => simp
    | cons cl ls ih =>
      intro m
      rw [List.foldl_cons]
      obtain ⟨h1, h2⟩ := ih (cl.facets.foldl (fun m f => max m f.length) m)
      obtain ⟨h3, h4⟩ := foldl_maxlen cl.facets m
      refine ⟨by omega, ?_⟩
      intro cl' hcl f hf
      rcases List.mem_cons.mp hcl with rfl | hcl
      · have := h4 f hf; omega
      · exact h2 cl' hcl f hf
  exact (this 0).2

theorem facets_props {ls : List CellList} {x : Nat × List Nat} (hx : x ∈ facets ls) :
    x.1 < (allCells ls).length ∧ x.2.length ≤ maxVerts ls ∧ ((∀ cl ∈ ls, ∀ f ∈ cl.facets, f ≠ []) → x.2 ≠ []) := by
  unfold facets at hx
  obtain ⟨p, hp, hx⟩ := List.mem_flatMap.mp hx
  obtain ⟨f, hf, rfl⟩ := List.mem_map.mp hx
  have hp' := List.mem_zipIdx_iff_getElem?.mp hp
  have hm := List.mem_of_getElem? hp'
  unfold allCells at hm
  obtain ⟨cl, hcl, hm⟩ := List.mem_flatMap.mp hm
  obtain ⟨v, _, he⟩ := List.mem_map.mp hm
  have hf' : f ∈ cl.facets := by rw [← he] at hf; exact hf
  refine ⟨(List.getElem?_eq_some_iff.mp hp').1, ?_, ?_⟩
  · simpa using maxVerts_le ls cl hcl f hf'
  · intro hne; simpa using hne cl hcl f hf'

theorem numCells_eq (r : Nat) : numCells I r = (allCells (I.types r)).length := (allCells_length _).symm

theorem globalCell_eq (r c : Nat) : globalCell I.types r c = cellStart I r + c := by
  unfold globalCell cellStart excl
  congr 2
  apply List.map_congr_left
  intro q _
  exact (numCells_eq q).symm

/-- Entry `i` of the table for facet `i`. -/
theorem entry (h : Ok I) {r : Nat} (hr : r < I.P) {i c : Nat} {vs : List Nat} (hi : (facets (I.types r))[i]? = some (c, vs)) :
    i < (table I r).length ∧ fcell I r i = c ∧ fkey I r i = facetRow (maxVerts (I.types r)) (vs.map Int.ofNat) := by
  have hlt := (List.getElem?_eq_some_iff.mp hi).1
  have hlen : (table I r).length = (facets (I.types r)).length := by rw [table_eq h hr]; simp
  have h1 : (table I r)[i]? = some (facetRow (maxVerts (I.types r)) (vs.map Int.ofNat), c) := by
    rw [table_eq h hr, List.getElem?_map, hi]; rfl
  have h2 := table_getD (I := I) (r := r) (i := i) (by omega)
  rw [h1] at h2
  have := Option.some.inj h2
  exact ⟨by omega, (Prod.mk.inj this).2.symm, (Prod.mk.inj this).1.symm⟩

theorem entry_of (h : Ok I) {r : Nat} (hr : r < I.P) {i : Nat} (hi : i < (table I r).length) :
    ∃ vs, (facets (I.types r))[i]? = some (fcell I r i, vs) ∧ fkey I r i = facetRow (maxVerts (I.types r)) (vs.map Int.ofNat) := by
  have hlen : (table I r).length = (facets (I.types r)).length := by rw [table_eq h hr]; simp
  have hi' : (facets (I.types r))[i]? = some (facets (I.types r))[i] := List.getElem?_eq_getElem (by omega)
  obtain ⟨_, h2, h3⟩ := entry h hr (c := ((facets (I.types r))[i]).1) (vs := ((facets (I.types r))[i]).2) hi'
  exact ⟨_, by rw [h2]; exact hi', h3⟩

theorem nonneg_ofNat (vs : List Nat) : ∀ v ∈ vs.map Int.ofNat, (0 : Int) ≤ v := by
  intro v hv
  obtain ⟨n, _, rfl⟩ := List.mem_map.mp hv
  exact Int.natCast_nonneg n

theorem perm_ofNat (a b : List Nat) : (a.map Int.ofNat).Perm (b.map Int.ofNat) ↔ a.Perm b := by
  constructor
  · intro h
    have := h.map Int.toNat
    simpa [List.map_map, Function.comp_def] using this
  · exact fun h => h.map _

theorem key_iff (m : Nat) (a b : List Nat) : facetRow m (a.map Int.ofNat) = facetRow m (b.map Int.ofNat) ↔ a.Perm b :=
  (facetRow_eq_iff m _ _ (nonneg_ofNat a) (nonneg_ofNat b)).trans (perm_ofNat a b)

theorem le_shape {r : Nat} (hr : r < I.P) : localShape I r ≤ shape I :=
  (le_foldl_max (localShape I) (List.range I.P) 0).2 r (List.mem_range.mpr hr)

/-- Padded rows of unmatched facets. -/
theorem gkey_eq (h : Ok I) {r : Nat} (hr : r < I.P) {f c : Nat} {vs : List Nat}
    (hi : (facets (I.types r))[ui I r f]? = some (c, vs)) : gkey I r f = facetRow (shape I) (vs.map Int.ofNat) := by
  obtain ⟨h1, h2, h3⟩ := entry h hr hi
  have hp := facets_props (List.mem_of_getElem? hi)
  have hs : localShape I r = maxVerts (I.types r) := by
    unfold localShape
    rw [if_neg]
    rw [numCells_eq]
    have := hp.1
    omega
  unfold gkey
  rw [h3, facetRow_pad _ _ _ (by simpa using hp.2.1), hs]
  congr 1
  have := le_shape hr
  omega

theorem firstVertex_eq (h : Ok I) {r q : Nat} (hr : r < I.P) (hq : q < I.P) {i j c c' : Nat} {vs vs' : List Nat}
    (hi : (facets (I.types r))[i]? = some (c, vs)) (hj : (facets (I.types q))[j]? = some (c', vs')) (hp : vs.Perm vs') :
    firstVertex I r i = firstVertex I q j := by
  have hs : sortFacet (vs.map Int.ofNat) = sortFacet (vs'.map Int.ofNat) := (sortFacet_eq_iff _ _).mpr (hp.map _)
  have hne : vs ≠ [] := (facets_props (List.mem_of_getElem? hi)).2.2 (h.facets r hr)
  have hne2 : sortFacet (vs.map Int.ofNat) ≠ [] := by
    intro he
    have := (sortFacet_perm (vs.map Int.ofNat)).length_eq
    rw [he] at this
    exact hne (List.eq_nil_of_length_eq_zero (by simpa using this.symm))
  unfold firstVertex
  rw [(entry h hr hi).2.2, (entry h hq hj).2.2]
  unfold facetRow
  rw [← hs]
  cases hx : sortFacet (vs.map Int.ofNat) with
  | nil => exact absurd hx hne2
  | cons a l => rfl

/-! ### Which facets are sent -/

theorem mem_unmatched (h : Ok I) {r : Nat} (hr : r < I.P) {i c : Nat} {vs : List Nat}
    (hi : (facets (I.types r))[i]? = some (c, vs))
    (hl : ∀ m, I.limit = some m → ((facets (I.types r)).countP fun x => decide (x.2.Perm vs)) < m) : i ∈ unmatched I r := by
  obtain ⟨h1, h2, h3⟩ := entry h hr hi
  have hok := localRuns_ok h hr
  have ho : i ∈ (localRuns I r).flatten := by rw [hok.flat]; exact (mem_order h hr _).mpr h1
  obtain ⟨l, hlr, hil⟩ := List.mem_flatten.mp ho
  unfold unmatched
  refine List.mem_flatten.mpr ⟨l, List.mem_filter.mpr ⟨hlr, ?_⟩, hil⟩
  cases hm : I.limit with
  | none => rfl
  | some m =>
    simp only [decide_eq_true_eq]
    refine Nat.lt_of_le_of_lt ?_ (hl m hm)
    have hnd : l.Nodup := by
      have := order_nodup h hr
      rw [← hok.flat] at this
      exact (List.nodup_flatten.mp this).1 l hlr
    have hmem : ∀ j ∈ l, j < (table I r).length := by
      intro j hj
      apply (mem_order h hr _).mp
      rw [← hok.flat]
      exact List.mem_flatten.mpr ⟨l, hlr, hj⟩
    have hsub : l ⊆ (List.range (facets (I.types r)).length).filter fun j =>
        decide ((((facets (I.types r)).getD j (0, [])).2).Perm vs) := by
      intro j hj
      obtain ⟨vs', hj1, hj2⟩ := entry_of h hr (hmem j hj)
      rw [List.mem_filter, List.mem_range]
      refine ⟨(List.getElem?_eq_some_iff.mp hj1).1, ?_⟩
      rw [List.getD_eq_getElem?_getD, hj1]
      simp only [Option.getD_some, decide_eq_true_eq]
      rw [← key_iff (maxVerts (I.types r)), ← hj2, ← h3]
      exact hok.same l hlr j hj i hil
    have hle := (hnd.subperm hsub).length_le
    refine Nat.le_trans hle ?_
    rw [← List.countP_eq_length_filter]
    have : facets (I.types r) = (List.range (facets (I.types r)).length).map fun j => (facets (I.types r)).getD j (0, []) := by
      apply List.ext_getElem
      · simp
      · intro j hj1 hj2
        rw [List.getElem_map, List.getElem_range, List.getD_eq_getElem _ _ hj1]
    conv_rhs => rw [this]
    rw [List.countP_map]
    exact Nat.le_refl _

theorem sum_two (f : Nat → Nat) : ∀ (P r q : Nat), r < P → q < P → r ≠ q → f r + f q ≤ ((List.range P).map f).sum := by
  have one : ∀ (P r : Nat), r < P → f r ≤ ((List.range P).map f).sum := by
    intro P
    induction P with
    | zero => intro r h; omega
    | succ P ih =>
      intro r h
      rw [List.range_succ, List.map_append, List.sum_append]
      simp only [List.map_cons, List.map_nil, List.sum_cons, List.sum_nil, Nat.add_zero]
      by_cases hr : r = P
      · subst hr; omega
      · have := ih r (by omega); omega
  intro P
  induction P with
  | zero => intro r q h; omega
  | succ P ih =>
    intro r q hr hq hne
    rw [List.range_succ, List.map_append, List.sum_append]
    simp only [List.map_cons, List.map_nil, List.sum_cons, List.sum_nil, Nat.add_zero]
    by_cases h1 : r = P
    · subst h1
      have := one r q (by omega); omega
    · by_cases h2 : q = P
      · subst h2
        have := one q r (by omega); omega
      · have := ih r q (by omega) (by omega) hne; omega

theorem shared_unmatched (h : Ok I) (hl : ∀ m, I.limit = some m → AtMost I.P I.types m) {r q : Nat} (hr : r < I.P) (hq : q < I.P)
    (hne : r ≠ q) {i j c c' : Nat} {vs vs' : List Nat}
    (hi : (facets (I.types r))[i]? = some (c, vs)) (hj : (facets (I.types q))[j]? = some (c', vs')) (hp : vs.Perm vs') :
    i ∈ unmatched I r := by
  apply mem_unmatched h hr hi
  intro m hm
  have h1 := hl m hm vs
  rw [List.countP_flatMap] at h1
  have h2 := sum_two (fun r => (facets (I.types r)).countP fun x => decide (x.2.Perm vs)) I.P r q hr hq hne
  have h3 : 0 < (facets (I.types q)).countP fun x => decide (x.2.Perm vs) := by
    rw [List.countP_pos_iff]
    exact ⟨_, List.mem_of_getElem? hj, by simpa using hp.symm⟩
  have h4 : ((List.range I.P).map fun r => (facets (I.types r)).countP fun x => decide (x.2.Perm vs)).sum ≤ m := h1
  omega

theorem unmatched_nodup (h : Ok I) {r : Nat} (hr : r < I.P) : (unmatched I r).Nodup :=
  (order_nodup h hr).sublist (unmatched_sub h hr)

theorem ui_inj (h : Ok I) {r : Nat} (hr : r < I.P) {f k : Nat} (hf : f < (unmatched I r).length) (hk : k < (unmatched I r).length)
    (he : ui I r f = ui I r k) : f = k := by
  unfold ui at he
  rw [List.getD_eq_getElem _ _ hf, List.getD_eq_getElem _ _ hk] at he
  exact (unmatched_nodup h hr).getElem_inj_iff.mp he

theorem ui_of_mem {r i : Nat} (hi : i ∈ unmatched I r) : ∃ f, f < (unmatched I r).length ∧ ui I r f = i := by
  obtain ⟨f, hf, rfl⟩ := List.mem_iff_getElem.mp hi
  exact ⟨f, hf, by unfold ui; rw [List.getD_eq_getElem _ _ hf]⟩

/-! ### Rows -/

theorem localRow_adj (h : Ok I) {r : Nat} (hr : r < I.P) {c : Nat} (hc : c < numCells I r) (b : Nat) :
    b ∈ localRow I r c ↔ Adjacent I.types r c r b := by
  rw [mem_localRow h hr hc]
  constructor
  · rintro ⟨i, j, hi, hj, hne, hk, rfl, rfl⟩
    obtain ⟨vs, h1, h2⟩ := entry_of h hr hi
    obtain ⟨vs', h3, h4⟩ := entry_of h hr hj
    refine ⟨i, j, vs, vs', h1, h3, by simpa using hne, ?_⟩
    rw [← key_iff (maxVerts (I.types r)), ← h2, ← h4, hk]
  · rintro ⟨i, j, vs, vs', h1, h2, hne, hp⟩
    obtain ⟨a1, a2, a3⟩ := entry h hr h1
    obtain ⟨b1, b2, b3⟩ := entry h hr h2
    exact ⟨i, j, a1, b1, by simpa using hne, by rw [a3, b3, key_iff]; exact hp, a2, b2⟩

theorem adj_lt {types : Nat → List CellList} {r c r' c' : Nat} (h : Adjacent types r c r' c') :
    c < (allCells (types r)).length ∧ c' < (allCells (types r')).length := by
  obtain ⟨i, j, vs, vs', h1, h2, -, -⟩ := h
  exact ⟨(facets_props (List.mem_of_getElem? h1)).1, (facets_props (List.mem_of_getElem? h2)).1⟩

theorem rawRow_adj (h : Ok I) (hl : ∀ m, I.limit = some m → AtMost I.P I.types m) {r : Nat} (hr : r < I.P) {c : Nat}
    (hc : c < numCells I r) (g : Nat) :
    g ∈ rawRow I r c ↔ ∃ r' c', r' < I.P ∧ g = globalCell I.types r' c' ∧ Adjacent I.types r c r' c' := by
  rw [mem_rawRow h hr hc]
  constructor
  · rintro (⟨b, hb, rfl⟩ | ⟨f, hf, rfl, hg⟩)
    · exact ⟨r, b, hr, by rw [globalCell_eq, Nat.add_comm], (localRow_adj h hr hc b).mp hb⟩
    · obtain ⟨q, k, hq, hk, -, hne, hkey, rfl⟩ := (mem_ansOf h hr hf g).mp hg
      obtain ⟨vs, h1, -⟩ := entry_of h hr (ui_lt h hr hf)
      obtain ⟨vs', h3, -⟩ := entry_of h hq (ui_lt h hq hk)
      refine ⟨q, fcell I q (ui I q k), hq, by rw [globalCell_eq, Nat.add_comm]; rfl, ui I r f, ui I q k, vs, vs', h1, h3, ?_, ?_⟩
      · intro he
        obtain ⟨h5, h6⟩ := Prod.mk.inj he
        subst h5
        exact hne (by rw [ui_inj h hr hf hk h6])
      · rw [← key_iff (shape I), ← gkey_eq h hr h1, ← gkey_eq h hq h3, hkey]
  · rintro ⟨q, c', hq, rfl, hadj⟩
    by_cases hrq : r = q
    · subst hrq
      exact Or.inl ⟨c', (localRow_adj h hr hc c').mpr hadj, by rw [globalCell_eq, Nat.add_comm]⟩
    · right
      obtain ⟨i, j, vs, vs', h1, h2, hne, hp⟩ := hadj
      obtain ⟨f, hf, hfi⟩ := ui_of_mem (shared_unmatched h hl hr hq hrq h1 h2 hp)
      obtain ⟨k, hk, hkj⟩ := ui_of_mem (shared_unmatched h hl hq hr (Ne.symm hrq) h2 h1 hp.symm)
      refine ⟨f, hf, by rw [hfi]; exact (entry h hr h1).2.1, ?_⟩
      rw [mem_ansOf h hr hf]
      refine ⟨q, k, hq, hk, ?_, ?_, ?_, ?_⟩
      · unfold po
        rw [hfi, hkj, firstVertex_eq h hr hq h1 h2 hp]
      · intro he; exact hrq (Prod.mk.inj he).1.symm
      · rw [gkey_eq h hr (hfi.symm ▸ h1), gkey_eq h hq (hkj.symm ▸ h2), key_iff]; exact hp
      · unfold gcell
        rw [hkj, (entry h hq h2).2.1, globalCell_eq, Nat.add_comm]

/-! ### Removal of duplicates -/

theorem writeAt_eq (l a : List Nat) (p : Nat) (h : p + l.length ≤ a.length) :
    writeAt a p l = a.take p ++ l ++ a.drop (p + l.length) := by
  induction l generalizing a p with
  | nil => simp [writeAt]
  | cons x l ih =>
    simp only [List.length_cons] at h ⊢
    rw [writeAt, ih _ _ (by rw [List.length_set]; omega), List.take_set, List.drop_set_of_lt (by omega),
      List.take_add_one, List.getElem?_eq_getElem (by omega)]
    have hl : (List.take p a).length = p := by rw [List.length_take]; omega
    rw [List.set_append_right _ _ (by omega), hl, Nat.sub_self]
    simp only [Option.toList_some, List.set_cons_zero, List.append_assoc, List.cons_append, List.nil_append]
    congr 4
    omega

/-- State of the loop that removes duplicates. -/
theorem dedup_inv (rows : Nat → List Nat) (n : Nat) (k : Nat) (hk : k ≤ n) :
    ∃ d, (List.range k).foldl (dedupStep (excl fun c => (rows c).length)) ((List.range n).flatMap rows, 0, []) =
        (d, excl (fun c => (unique (sortNat (rows c))).length) k,
          (List.range k).map (excl fun c => (unique (sortNat (rows c))).length)) ∧
      d.length = ((List.range n).flatMap rows).length ∧
      d.take (excl (fun c => (unique (sortNat (rows c))).length) k) = (List.range k).flatMap (fun c => unique (sortNat (rows c))) ∧
      d.drop (excl (fun c => (rows c).length) k) = ((List.range n).flatMap rows).drop (excl (fun c => (rows c).length) k) := by
  have hul : ∀ c, (unique (sortNat (rows c))).length ≤ (rows c).length := by
    intro c
    have hnd : (unique (sortNat (rows c))).Nodup := (unique_sortNat_sorted (rows c)).imp fun h => Nat.ne_of_lt h
    exact (hnd.subperm fun x hx => (mem_unique_sortNat _ x).mp hx).length_le
  have hle : ∀ k, excl (fun c => (unique (sortNat (rows c))).length) k ≤ excl (fun c => (rows c).length) k := by
    intro k
    induction k with
    | zero => rfl
    | succ k ih => rw [excl_succ, excl_succ]; exact Nat.add_le_add ih (hul k)
  induction k with
  | zero => exact ⟨_, rfl, rfl, by rfl, rfl⟩
  | succ k ih =>
    obtain ⟨d, h1, h2, h3, h4⟩ := ih (by omega)
    have hslice := slice_flatMap_range rows n k (by omega)
    have hrow : (d.drop (excl (fun c => (rows c).length) k)).take
        (excl (fun c => (rows c).length) (k + 1) - excl (fun c => (rows c).length) k) = rows k := by
      rw [h4, hslice]
    have htot : ((List.range n).flatMap rows).length = excl (fun c => (rows c).length) n := by
      rw [length_flatMap_range]
    have hmono : excl (fun c => (rows c).length) (k + 1) ≤ excl (fun c => (rows c).length) n := excl_mono _ hk
    have hlek := hle k
    have hulk := hul k
    have hs1 := excl_succ (fun c => (rows c).length) k
    have hs2 := excl_succ (fun c => (unique (sortNat (rows c))).length) k
    have hroom : excl (fun c => (unique (sortNat (rows c))).length) k + (unique (sortNat (rows k))).length ≤ d.length := by
      omega
    have hw := writeAt_eq (unique (sortNat (rows k))) d _ hroom
    refine ⟨writeAt d (excl (fun c => (unique (sortNat (rows c))).length) k) (unique (sortNat (rows k))), ?_, ?_, ?_, ?_⟩
    · rw [List.range_succ, List.foldl_append, h1]
      simp only [List.foldl_cons, List.foldl_nil, dedupStep, hrow, List.map_append, List.map_cons, List.map_nil]
      rw [hs2]
    · rw [hw]
      simp only [List.length_append, List.length_take, List.length_drop]
      omega
    · rw [hw, h3, List.range_succ, List.flatMap_append]
      simp only [List.flatMap_cons, List.flatMap_nil, List.append_nil]
      apply List.take_left'
      rw [List.length_append, length_flatMap_range, hs2]
    · rw [hw]
      have hlt : (List.take (excl (fun c => (unique (sortNat (rows c))).length) k) d ++ unique (sortNat (rows k))).length =
          excl (fun c => (unique (sortNat (rows c))).length) (k + 1) := by
        rw [List.length_append, List.length_take, hs2]; omega
      rw [List.drop_append, hlt, List.drop_eq_nil_of_le (by rw [hlt, hs1, hs2]; omega), List.nil_append, List.drop_drop]
      have e : excl (fun c => (unique (sortNat (rows c))).length) k + (unique (sortNat (rows k))).length +
          (excl (fun c => (rows c).length) (k + 1) - excl (fun c => (unique (sortNat (rows c))).length) (k + 1)) =
          excl (fun c => (rows c).length) k + (rows k).length := by omega
      rw [e, ← List.drop_drop, h4, List.drop_drop, hs1]

theorem dedup_eq (rows : Nat → List Nat) (n : Nat) : dedup (excl fun c => (rows c).length) n ((List.range n).flatMap rows) =
    ((List.range n).flatMap (fun c => unique (sortNat (rows c))),
      (List.range (n + 1)).map (excl fun c => (unique (sortNat (rows c))).length)) := by
  obtain ⟨d, h1, -, h3, -⟩ := dedup_inv rows n n (le_refl _)
  unfold dedup
  rw [h1]
  simp only [h3, List.range_succ, List.map_append, List.map_cons, List.map_nil]

theorem dedup_congr (off off' : Nat → Nat) (n : Nat) (data : List Nat) (h : ∀ c, c ≤ n → off c = off' c) :
    dedup off n data = dedup off' n data := by
  unfold dedup
  have : ∀ k, k ≤ n → (List.range k).foldl (dedupStep off) (data, 0, []) = (List.range k).foldl (dedupStep off') (data, 0, []) := by
    intro k hk
    induction k with
    | zero => rfl
    | succ k ih =>
      rw [List.range_succ, List.foldl_append, List.foldl_append, ih (by omega)]
      simp only [List.foldl_cons, List.foldl_nil, dedupStep]
      rw [h k (by omega), h (k + 1) hk]
  rw [this n (le_refl _)]

/-- Links in the graph with more than one rank. -/
theorem dualGraph_row (h : Ok I) (hP : I.P ≠ 1) {r : Nat} (hr : r < I.P) {c : Nat} (hc : c < numCells I r) :
    Dual.links (dualGraph I r) c = unique (sortNat (rawRow I r c)) := by
  unfold dualGraph
  rw [if_neg hP, dedup_congr _ (excl fun c => (rawRow I r c).length) _ _ (fun c hc => offset_rawRow h hr hc), data_eq h hr,
    dedup_eq]
  unfold Dual.links
  have hg : ∀ k, k ≤ numCells I r → ((List.range (numCells I r + 1)).map
      (excl fun c => (unique (sortNat (rawRow I r c))).length)).getD k 0 = excl (fun c => (unique (sortNat (rawRow I r c))).length) k := by
    intro k hk
    rw [List.getD_eq_getElem _ _ (by simp; omega), List.getElem_map, List.getElem_range]
  simp only
  rw [hg c (by omega), hg (c + 1) (by omega)]
  exact slice_flatMap_range (fun c => unique (sortNat (rawRow I r c))) _ c hc

theorem dualGraph_row_serial (hP : I.P = 1) {r c : Nat} (hc : c < numCells I r) :
    Dual.links (dualGraph I r) c = localRow I r c := by
  unfold dualGraph
  rw [if_pos hP]
  unfold Dual.links localRow
  have hg : ∀ k, k ≤ numCells I r → ((List.range (numCells I r + 1)).map (localOffset I r)).getD k 0 = localOffset I r k := by
    intro k hk
    rw [List.getD_eq_getElem _ _ (by simp; omega), List.getElem_map, List.getElem_range]
  simp only
  rw [hg c (by omega), hg (c + 1) (by omega)]

theorem dualGraph_nodes (h : Ok I) {r : Nat} (hr : r < I.P) : (dualGraph I r).2.length = numCells I r + 1 := by
  unfold dualGraph
  split
  · simp
  · rw [dedup_congr _ (excl fun c => (rawRow I r c).length) _ _ (fun c hc => offset_rawRow h hr hc), data_eq h hr, dedup_eq]
    simp

end Verif.DualGraph
