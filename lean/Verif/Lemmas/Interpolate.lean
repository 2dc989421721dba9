import Verif.Prelude
import Verif.Spec.Interpolate
/-!
# Lemmas on interpolation
-/
namespace Verif.Interp
open Verif.Spec.Interp

variable {T : Type} [CommRing T]

theorem sumTo_eq (n : Nat) (g : Nat → T) (acc : T) : sumTo n g acc = acc + ∑ i ∈ Finset.range n, g i := by
  unfold sumTo
  induction n with
  | zero => simp
  | succ n ih => rw [List.range_succ, List.foldl_append, ih, Finset.sum_range_succ]; simp [add_assoc]

theorem foldl_sumTo (n0 n1 : Nat) (g : Nat → Nat → T) (acc : T) :
    (List.range n1).foldl (fun a k => sumTo n0 (g k) a) acc = acc + ∑ k ∈ Finset.range n1, ∑ j ∈ Finset.range n0, g k j := by
  induction n1 with
  | zero => simp
  | succ n ih => rw [List.range_succ, List.foldl_append, ih, Finset.sum_range_succ]; simp [sumTo_eq, add_assoc]

theorem foldlM_congr' {α β : Type} (l : List α) (f g : β → α → Option β) (h : ∀ a ∈ l, ∀ s, f s a = g s a) (s : β) : l.foldlM f s = l.foldlM g s := by
  induction l generalizing s with
  | nil => rfl
  | cons a l ih =>
    rw [List.foldlM_cons, List.foldlM_cons, h a (by simp)]
    congr 1
    funext s'
    exact ih (fun b hb => h b (List.mem_cons_of_mem _ hb)) s'

theorem foldlM_flatMap' {α β γ : Type} (l : List α) (g : α → List γ) (f : β → γ → Option β) (s : β) :
    (l.flatMap g).foldlM f s = l.foldlM (fun s a => (g a).foldlM f s) s := by
  induction l generalizing s with
  | nil => rfl
  | cons a l ih =>
    rw [List.flatMap_cons, List.foldlM_append, List.foldlM_cons]
    congr 1
    funext s'
    exact ih s'

theorem foldlM_map' {α β γ : Type} (l : List α) (g : α → γ) (f : β → γ → Option β) (s : β) : (l.map g).foldlM f s = l.foldlM (fun s a => f s (g a)) s := by
  induction l generalizing s with
  | nil => rfl
  | cons a l ih =>
    rw [List.map_cons, List.foldlM_cons, List.foldlM_cons]
    congr 1
    funext s'
    exact ih s'

/-- Writes at given places. -/
def writes (ws : List (Nat × T)) (u : List T) : Option (List T) := ws.foldlM (fun u w => setAt u w.1 w.2) u

theorem writes_ok (ws : List (Nat × T)) (hn : (ws.map Prod.fst).Nodup) (u : List T) (hw : ∀ w ∈ ws, w.1 < u.length) :
    ∃ u', writes ws u = some u' ∧ u'.length = u.length ∧ (∀ g, (∀ w ∈ ws, w.1 ≠ g) → u'[g]? = u[g]?) ∧ ∀ w ∈ ws, u'[w.1]? = some w.2 := by
  induction ws generalizing u with
  | nil => exact ⟨u, rfl, rfl, fun _ _ => rfl, fun _ h => by simp at h⟩
  | cons w ws ih =>
    rw [List.map_cons, List.nodup_cons] at hn
    have h0 := hw w (by simp)
    obtain ⟨u', h1, h2, h3, h4⟩ := ih hn.2 (u.set w.1 w.2) (fun v hv => by rw [List.length_set]; exact hw v (List.mem_cons_of_mem _ hv))
    have hne : ∀ v ∈ ws, v.1 ≠ w.1 := fun v hv h => hn.1 (List.mem_map.mpr ⟨v, hv, h⟩)
    refine ⟨u', ?_, by rw [h2, List.length_set], ?_, ?_⟩
    · rw [writes, List.foldlM_cons, setAt, if_pos h0]
      exact h1
    · intro g hg
      rw [h3 g (fun v hv => hg v (List.mem_cons_of_mem _ hv)), List.getElem?_set_ne (hg w (by simp))]
    · intro v hv
      rcases List.mem_cons.mp hv with rfl | hv
      · rw [h3 _ hne, List.getElem?_set_self h0]
      · exact h4 v hv

/-! ## Dofs of a cell -/

theorem flat_some {dm : DMap} {total n c : Nat} (h : DofsOk dm total n c) {j : Nat} : j < total ↔ ∃ g, flat dm c j = some g := by
  obtain ⟨hb, ds, hds, ht, _, _⟩ := h
  simp only [flat, hds, Option.bind_some]
  constructor
  · intro hj
    have : j / dm.bs < ds.length := by rw [Nat.div_lt_iff_lt_mul hb, mul_comm, ht]; exact hj
    exact ⟨_, by rw [List.getElem?_eq_getElem this]; rfl⟩
  · rintro ⟨g, hg⟩
    rcases Nat.lt_or_ge (j / dm.bs) ds.length with h | h
    · rwa [Nat.div_lt_iff_lt_mul hb, mul_comm, ht] at h
    · rw [List.getElem?_eq_none h] at hg
      cases hg

theorem flat_lt {dm : DMap} {total n c : Nat} (h : DofsOk dm total n c) {j g : Nat} (hj : flat dm c j = some g) : g < n := by
  obtain ⟨hb, ds, hds, ht, _, hr⟩ := h
  simp only [flat, hds, Option.bind_some] at hj
  obtain ⟨d, hd, rfl⟩ := Option.map_eq_some_iff.mp hj
  have := hr d (List.mem_of_getElem? hd)
  have := Nat.mod_lt j hb
  omega

theorem flat_inj {dm : DMap} {total n c : Nat} (h : DofsOk dm total n c) {j j' g : Nat} (hj : flat dm c j = some g) (hj' : flat dm c j' = some g) : j = j' := by
  obtain ⟨hb, ds, hds, ht, hn, hr⟩ := h
  simp only [flat, hds, Option.bind_some] at hj hj'
  obtain ⟨d, hd, e1⟩ := Option.map_eq_some_iff.mp hj
  obtain ⟨d', hd', e2⟩ := Option.map_eq_some_iff.mp hj'
  have q1 : g / dm.bs = d := by
    rw [← e1, Nat.mul_add_div hb, Nat.div_eq_of_lt (Nat.mod_lt _ hb), Nat.add_zero]
  have q2 : g / dm.bs = d' := by
    rw [← e2, Nat.mul_add_div hb, Nat.div_eq_of_lt (Nat.mod_lt _ hb), Nat.add_zero]
  have r1 : g % dm.bs = j % dm.bs := by
    rw [← e1, Nat.mul_add_mod, Nat.mod_mod]
  have r2 : g % dm.bs = j' % dm.bs := by
    rw [← e2, Nat.mul_add_mod, Nat.mod_mod]
  have hdd : d = d' := by rw [← q1, q2]
  subst hdd
  obtain ⟨l1, e3⟩ := List.getElem?_eq_some_iff.mp hd
  obtain ⟨l2, e4⟩ := List.getElem?_eq_some_iff.mp hd'
  have hi := (List.Nodup.getElem_inj_iff hn).mp (e3.trans e4.symm)
  have a1 := Nat.div_add_mod j dm.bs
  have a2 := Nat.div_add_mod j' dm.bs
  rw [hi, ← r1, r2] at a1
  omega

/-- The result of writing all dofs of a cell, in any order. -/
theorem writes_cell {dm : DMap} {total n c : Nat} (h : DofsOk dm total n c) (J : List Nat) (hJ : J.Nodup) (hm : ∀ j, j ∈ J ↔ j < total) (v : Nat → T)
    (u : List T) (hu : u.length = n) :
    ∃ u', writes (J.map fun j => ((flat dm c j).getD 0, v j)) u = some u' ∧ u'.length = n ∧ (∀ g, (∀ j, flat dm c j ≠ some g) → u'[g]? = u[g]?) ∧
      ∀ j g, flat dm c j = some g → u'[g]? = some (v j) := by
  have hex : ∀ j ∈ J, ∃ g, flat dm c j = some g := fun j hj => (flat_some h).mp ((hm j).mp hj)
  obtain ⟨u', h1, h2, h3, h4⟩ := writes_ok (J.map fun j => ((flat dm c j).getD 0, v j)) (by
      rw [List.map_map]
      refine List.Nodup.map_on ?_ hJ
      intro a ha b hb hab
      obtain ⟨g1, e1⟩ := hex a ha
      obtain ⟨g2, e2⟩ := hex b hb
      simp only [Function.comp, e1, e2, Option.getD_some] at hab
      subst hab
      exact flat_inj h e1 e2) u (by
      intro w hw
      obtain ⟨j, hj, rfl⟩ := List.mem_map.mp hw
      obtain ⟨g, e⟩ := hex j hj
      simp only [e, Option.getD_some, hu]
      exact flat_lt h e)
  refine ⟨u', h1, h2.trans hu, ?_, ?_⟩
  · intro g hg
    refine h3 g ?_
    intro w hw
    obtain ⟨j, hj, rfl⟩ := List.mem_map.mp hw
    obtain ⟨g', e⟩ := hex j hj
    simp only [e, Option.getD_some]
    rintro rfl
    exact hg j e
  · intro j g hj
    have := h4 _ (List.mem_map.mpr ⟨j, (hm j).mpr ((flat_some h).mpr ⟨g, hj⟩), rfl⟩)
    simpa only [hj, Option.getD_some] using this

/-- Loops over cells, given what happens for one of them. -/
theorem cells_result {dm : DMap} {N : Nat} {α : Type} (L : List α) (cell : α → Nat) (step : List T → α → Option (List T)) (v : α → Nat → T)
    (hstep : ∀ a ∈ L, ∀ u : List T, u.length = N → ∃ u', step u a = some u' ∧ u'.length = N ∧
      (∀ g, (∀ j, flat dm (cell a) j ≠ some g) → u'[g]? = u[g]?) ∧ ∀ j g, flat dm (cell a) j = some g → u'[g]? = some (v a j))
    (u : List T) (hu : u.length = N) : ∃ u', L.foldlM step u = some u' ∧ u'.length = N ∧
      (∀ g, (∀ a ∈ L, ∀ j, flat dm (cell a) j ≠ some g) → u'[g]? = u[g]?) ∧
      ∀ (n : Nat) (a : α) (j g : Nat), L[n]? = some a → flat dm (cell a) j = some g →
        (∀ (n' : Nat) (a' : α) (j' : Nat), n < n' → L[n']? = some a' → flat dm (cell a') j' ≠ some g) → u'[g]? = some (v a j) := by
  induction L generalizing u with
  | nil => exact ⟨u, rfl, hu, fun _ _ => rfl, fun n a j g h => by simp at h⟩
  | cons a L ih =>
    obtain ⟨u1, h1, h2, h3, h4⟩ := hstep a (by simp) u hu
    obtain ⟨u', k1, k2, k3, k4⟩ := ih (fun b hb => hstep b (List.mem_cons_of_mem _ hb)) u1 h2
    refine ⟨u', by rw [List.foldlM_cons, h1]; exact k1, k2, ?_, ?_⟩
    · intro g hg
      rw [k3 g (fun b hb => hg b (List.mem_cons_of_mem _ hb)), h3 g (hg a (by simp))]
    · intro n b j g hb hg hl
      cases n with
      | zero =>
        cases hb
        rw [k3 g ?_, h4 j g hg]
        intro b hb j'
        obtain ⟨n', hn'⟩ := List.mem_iff_getElem?.mp hb
        exact hl (n' + 1) b j' (by omega) (by simpa using hn')
      | succ n =>
        exact k4 n b j g (by simpa using hb) hg fun n' a' j' hn ha => hl (n' + 1) a' j' (by omega) (by simpa using ha)

/-! ## Copies of the dofs of a cell are writes -/

/-- Dofs in the order of the loops over blocks. -/
def blockOrder (bs dim : Nat) : List Nat := (List.range bs).flatMap fun k => (List.range dim).map fun i => bs * i + k

theorem blockOrder_mem (bs dim j : Nat) : j ∈ blockOrder bs dim ↔ j < bs * dim := by
  simp only [blockOrder, List.mem_flatMap, List.mem_range, List.mem_map]
  constructor
  · rintro ⟨k, hk, i, hi, rfl⟩
    nlinarith
  · intro h
    have hb : 0 < bs := Nat.pos_of_ne_zero fun h0 => by simp [h0] at h
    exact ⟨j % bs, Nat.mod_lt _ hb, j / bs, by rwa [Nat.div_lt_iff_lt_mul hb, mul_comm], Nat.div_add_mod _ _⟩

theorem blockOrder_nodup (bs dim : Nat) : (blockOrder bs dim).Nodup := by
  unfold blockOrder
  rw [List.nodup_flatMap]
  constructor
  · intro k hk
    have hb : 0 < bs := Nat.pos_of_ne_zero fun h0 => by simp [h0] at hk
    refine List.Nodup.map ?_ List.nodup_range
    intro a b hab
    have hab : bs * a + k = bs * b + k := hab
    exact Nat.eq_of_mul_eq_mul_left hb (by omega)
  · refine List.Pairwise.imp_of_mem ?_ (List.nodup_range (n := bs))
    intro a b ha hb hab x hx hy
    simp only [List.mem_map, List.mem_range] at hx hy ha hb
    obtain ⟨i, _, rfl⟩ := hx
    obtain ⟨i', _, h⟩ := hy
    have h1 : (bs * i + a) % bs = a := by rw [Nat.mul_add_mod, Nat.mod_eq_of_lt ha]
    have h2 : (bs * i' + b) % bs = b := by rw [Nat.mul_add_mod, Nat.mod_eq_of_lt hb]
    rw [h] at h2
    omega

theorem writeBlock_eq (e : Elem T) {dm : DMap} {n c : Nat} (h : DofsOk dm (e.bs * e.dim) n c) {ds : List Nat} (hds : dm.dofs[c]? = some ds) (hb : 0 < e.bs)
    (k : Nat) (hk : k < e.bs) (co : Nat → T) (u : List T) :
    writeBlock e dm ds k co u = writes ((List.range e.dim).map fun i => ((flat dm c (e.bs * i + k)).getD 0, co i)) u := by
  rw [writeBlock, writes, foldlM_map']
  refine foldlM_congr' _ _ _ ?_ u
  intro i hi s
  have hi := List.mem_range.mp hi
  have hj : e.bs * i + k < e.bs * e.dim := by nlinarith
  obtain ⟨g, hg⟩ := (flat_some h).mp hj
  rw [hg, Option.getD_some]
  simp only [flat, hds, Option.bind_some] at hg
  obtain ⟨d, hd, rfl⟩ := Option.map_eq_some_iff.mp hg
  split
  · rename_i hbs
    rw [hbs, Nat.mul_add_div hb, Nat.div_eq_of_lt hk, Nat.add_zero] at hd
    rw [hd, Option.bind_some, hbs, Nat.mul_add_mod, Nat.mod_eq_of_lt hk]
  · rw [mul_comm i, hd, Option.bind_some]

/-- Blocks of a cell written one after another. -/
theorem blocks_result (e : Elem T) {dm : DMap} {n c : Nat} (h : DofsOk dm (e.bs * e.dim) n c) {ds : List Nat} (hds : dm.dofs[c]? = some ds) (hb : 0 < e.bs)
    (step : List T → Nat → Option (List T)) (co : Nat → Nat → T) (hs : ∀ k < e.bs, ∀ u, step u k = writeBlock e dm ds k (co k) u)
    (u : List T) (hu : u.length = n) :
    ∃ u', (List.range e.bs).foldlM step u = some u' ∧ u'.length = n ∧ (∀ g, (∀ j, flat dm c j ≠ some g) → u'[g]? = u[g]?) ∧
      ∀ j g, flat dm c j = some g → u'[g]? = some (co (j % e.bs) (j / e.bs)) := by
  have : (List.range e.bs).foldlM step u = writes ((blockOrder e.bs e.dim).map fun j => ((flat dm c j).getD 0, co (j % e.bs) (j / e.bs))) u := by
    rw [blockOrder, List.map_flatMap, writes, foldlM_flatMap']
    refine foldlM_congr' _ _ _ ?_ u
    intro k hk s
    have hk := List.mem_range.mp hk
    rw [hs k hk, writeBlock_eq e h hds hb k hk, List.map_map, writes]
    congr 1
    refine List.map_congr_left ?_
    intro i hi
    simp only [Function.comp]
    rw [Nat.mul_add_mod, Nat.mod_eq_of_lt hk, Nat.mul_add_div hb, Nat.div_eq_of_lt hk, Nat.add_zero]
  rw [this]
  exact writes_cell h _ (blockOrder_nodup _ _) (blockOrder_mem _ _) _ u hu

/-- Dofs in the order of a dofmap. -/
theorem writeCell_eq {dm : DMap} {total n c : Nat} (h : DofsOk dm total n c) {ds : List Nat} (hds : dm.dofs[c]? = some ds) (co : Nat → T) (u : List T) :
    writeCell dm ds co u = writes (((List.range ds.length).flatMap fun i => (List.range dm.bs).map fun k => dm.bs * i + k).map fun j => ((flat dm c j).getD 0, co j)) u := by
  obtain ⟨hb, ds', hds', ht, hn, hr⟩ := h
  rw [hds] at hds'; cases hds'
  have hz : ds.zipIdx = (List.range ds.length).map fun i => (ds.getD i 0, i) := by
    refine List.ext_getElem? ?_
    intro i
    rw [List.getElem?_zipIdx, List.getElem?_map]
    by_cases hi : i < ds.length
    · simp [hi]
    · simp [hi]
  rw [writeCell, hz, foldlM_map', writes, List.map_flatMap, foldlM_flatMap']
  refine foldlM_congr' _ _ _ ?_ u
  intro i hi s
  have hi := List.mem_range.mp hi
  simp only
  rw [List.map_map, foldlM_map']
  refine foldlM_congr' _ _ _ ?_ s
  intro k hk s'
  have hk := List.mem_range.mp hk
  have hf : flat dm c (dm.bs * i + k) = some (dm.bs * ds.getD i 0 + k) := by
    simp only [flat, hds, Option.bind_some]
    rw [Nat.mul_add_div hb, Nat.div_eq_of_lt hk, Nat.add_zero, List.getElem?_eq_getElem hi, Nat.mul_add_mod, Nat.mod_eq_of_lt hk]
    simp [hi]
  simp only [Function.comp, hf, Option.getD_some]

theorem flatOrder_eq (bs n : Nat) (hb : 0 < bs) : ((List.range n).flatMap fun i => (List.range bs).map fun k => bs * i + k) = List.range (bs * n) := by
  induction n with
  | zero => simp
  | succ n ih =>
    rw [List.range_succ, List.flatMap_append, ih, Nat.mul_succ, List.range_add]
    simp

/-- All dofs of a cell written. -/
theorem writeCell_result {dm : DMap} {total n c : Nat} (h : DofsOk dm total n c) {ds : List Nat} (hds : dm.dofs[c]? = some ds) (co : Nat → T) (u : List T) (hu : u.length = n) :
    ∃ u', writeCell dm ds co u = some u' ∧ u'.length = n ∧ (∀ g, (∀ j, flat dm c j ≠ some g) → u'[g]? = u[g]?) ∧ ∀ j g, flat dm c j = some g → u'[g]? = some (co j) := by
  rw [writeCell_eq h hds, flatOrder_eq _ _ h.1]
  refine writes_cell h _ List.nodup_range (fun j => ?_) co u hu
  obtain ⟨hb, ds', hds', ht, hn, hr⟩ := h
  rw [hds] at hds'; cases hds'
  rw [List.mem_range, ht]

theorem mapM_eq_map {α β : Type} (l : List α) (f : α → Option β) (g : α → β) (h : ∀ a ∈ l, f a = some (g a)) : l.mapM f = some (l.map g) := by
  induction l with
  | nil => rfl
  | cons a l ih =>
    rw [List.mapM_cons, h a (by simp), ih (fun b hb => h b (List.mem_cons_of_mem _ hb))]
    rfl

/-- Local coefficients of a cell. -/
theorem readCell_ok {dm : DMap} {total n c : Nat} (h : DofsOk dm total n c) {ds : List Nat} (hds : dm.dofs[c]? = some ds) (x : List T) (hx : x.length = n) :
    ∃ l, readCell dm ds x = some l ∧ l.length = total ∧ ∀ j g, flat dm c j = some g → x[g]? = l[j]? ∧ j < total := by
  obtain ⟨hb, ds', hds', ht, hn, hr⟩ := id h
  rw [hds] at hds'; cases hds'
  have hL : (ds.flatMap fun d => (List.range dm.bs).map fun k => dm.bs * d + k) = (List.range total).map fun j => (flat dm c j).getD 0 := by
    rw [← ht, ← flatOrder_eq _ _ hb, List.map_flatMap]
    have : ds = (List.range ds.length).map fun i => ds.getD i 0 := by
      refine List.ext_getElem? ?_
      intro i
      rw [List.getElem?_map]
      by_cases hi : i < ds.length
      · simp [hi]
      · simp [hi]
    conv_lhs => rw [this, List.flatMap_map]
    refine List.flatMap_congr ?_
    intro i hi
    have hi := List.mem_range.mp hi
    rw [List.map_map]
    refine List.map_congr_left ?_
    intro k hk
    have hk := List.mem_range.mp hk
    simp only [Function.comp, flat, hds, Option.bind_some]
    rw [Nat.mul_add_div hb, Nat.div_eq_of_lt hk, Nat.add_zero, List.getElem?_eq_getElem hi, Nat.mul_add_mod, Nat.mod_eq_of_lt hk]
    simp [hi]
  have hm : (List.range total).mapM (fun j => x[(flat dm c j).getD 0]?) = some ((List.range total).map fun j => x.getD ((flat dm c j).getD 0) 0) := by
    refine mapM_eq_map _ _ _ ?_
    intro j hj
    obtain ⟨g, hg⟩ := (flat_some h).mp (List.mem_range.mp hj)
    have := flat_lt h hg
    simp [hg, ← hx] at this ⊢
    simp [this]
  refine ⟨(List.range total).map fun j => x.getD ((flat dm c j).getD 0) 0, ?_, ?_, ?_⟩
  · rw [readCell, hL, List.mapM_map]
    exact hm
  · simp
  · intro j g hg
    have hj := (flat_some h).mpr ⟨g, hg⟩
    have := flat_lt h hg
    rw [← hx] at this
    simp [hj, hg, this]

end Verif.Interp
