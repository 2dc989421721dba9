import Verif.Lemmas.SubSpace
import Verif.Props.C42_Dofmap
/-!
# Collapsing a view
-/
namespace Verif.SubSpace
open Verif.World Verif.Spec Verif.Std

/-! ## The collapsed map -/

theorem plain_set_length (A : List (Nat × Nat)) (m : List Nat) : (A.foldl (fun a e => a.set e.1 e.2) m).length = m.length := by
  induction A generalizing m with
  | nil => rfl
  | cons a A ih => simp [List.foldl_cons, ih]

theorem plain_set (A : List (Nat × Nat)) (m : List Nat) (i b : Nat) (hi : i < m.length) (hm : (i, b) ∈ A)
    (hf : ∀ b', (i, b') ∈ A → b' = b) : (A.foldl (fun a e => a.set e.1 e.2) m)[i]? = some b := by
  induction A generalizing m with
  | nil => simp at hm
  | cons a A ih =>
    rw [List.foldl_cons]
    by_cases hA : ∃ b', (i, b') ∈ A
    · obtain ⟨b', hb'⟩ := hA
      have : b' = b := hf b' (by simp [hb'])
      subst this
      exact ih _ (by simpa using hi) hb' (fun b'' hb'' => hf b'' (by simp [hb'']))
    · push Not at hA
      have hun : ∀ (A : List (Nat × Nat)) (m : List Nat), (∀ b, (i, b) ∉ A) → (A.foldl (fun a e => a.set e.1 e.2) m)[i]? = m[i]? := by
        intro A
        induction A with
        | nil => intros; rfl
        | cons c A ih =>
          intro m h
          rw [List.foldl_cons, ih _ (fun b hb => h b (by simp [hb])), List.getElem?_set_ne]
          intro he
          exact h c.2 (by simp [← he])
      rw [hun _ _ hA]
      rcases List.mem_cons.mp hm with h | h
      · subst h; simp [hi]
      · exact absurd h (hA b)

/-- The writes of `collapsed_map`. -/
def writes (V N : DofMap) : List (Nat × Nat) :=
  (List.range V.numCells).flatMap fun c => (N.cellDofs c).zipIdx.flatMap fun p => (List.range N.bs).map fun k =>
    (N.bs * p.1 + k, (V.cellDofs c).getD (N.bs * p.2 + k) 0)

theorem dof_one {D : DofMap} (h : D.bs = 1) (c l : Nat) : D.dof c l = (D.cellDofs c)[l]? := by
  unfold DofMap.dof
  rw [h, Nat.div_one]
  cases (D.cellDofs c)[l]? with
  | none => rfl
  | some x => simp [Nat.mod_one]

theorem mem_writes {sh : List Nat} {e : Elem} (he : e.Ok sh) {V N : DofMap} {nc : Nat} (hV : V.IsFor e nc) (hN : N.IsFor e nc)
    (h1 : V.bs = 1) (x y : Nat) :
    (x, y) ∈ writes V N ↔ ∃ c l, c < nc ∧ l < e.dim ∧ N.dof c l = some x ∧ V.dof c l = some y := by
  obtain ⟨w1, w2, w3, w4⟩ := isFor_width he hN
  obtain ⟨v1, v2, v3, v4⟩ := isFor_width he hV
  rw [h1, Nat.mul_one] at v1
  unfold writes
  rw [numCells_eq he hV]
  simp only [List.mem_flatMap, List.mem_range, List.mem_map, Prod.mk.injEq]
  constructor
  · rintro ⟨c, hc, ⟨a, i⟩, hp, k, hk, rfl, rfl⟩
    have hp' := List.mem_zipIdx_iff_getElem?.mp hp
    simp only at hp' ⊢
    have hi : i < N.width := by
      rw [← cellDofs_len he hN hc]
      exact (List.getElem?_eq_some_iff.mp hp').1
    have hl : N.bs * i + k < e.dim := by
      rw [← w1]
      have := Nat.mul_le_mul_left N.bs hi
      rw [Nat.mul_succ, Nat.mul_comm N.bs N.width] at this
      omega
    refine ⟨c, N.bs * i + k, hc, hl, ?_, ?_⟩
    · unfold DofMap.dof
      rw [Nat.mul_add_div w2, Nat.div_eq_of_lt hk, Nat.add_zero, hp', Nat.mul_add_mod, Nat.mod_eq_of_lt hk]
      rfl
    · rw [dof_one h1, List.getD_eq_getElem?_getD, List.getElem?_eq_getElem (by rw [cellDofs_len he hV hc, v1]; exact hl)]
      rfl
  · rintro ⟨c, l, hc, hl, hx, hy⟩
    unfold DofMap.dof at hx
    obtain ⟨a, ha, hax⟩ := Option.map_eq_some_iff.mp hx
    refine ⟨c, hc, (a, l / N.bs), List.mem_zipIdx_iff_getElem?.mpr ha, l % N.bs, Nat.mod_lt _ w2, hax, ?_⟩
    simp only
    rw [Nat.div_add_mod, List.getD_eq_getElem?_getD]
    rw [dof_one h1] at hy
    rw [hy]
    rfl

/-- What has to be shown of the new dofmap. -/
theorem collapse_assemble {sh : List Nat} {e : Elem} (he : e.Ok sh) {V N : Maps} {nc : Nat → Nat}
    (hP : N.W.P = V.W.P) (hvN : N.W.Valid) (hvV : V.W.Valid)
    (hV : ∀ r, r < V.W.P → (V.D r).IsFor e (nc r) ∧ (V.D r).bs = 1 ∧ 0 < (V.D r).imbs)
    (hN : ∀ r, r < V.W.P → (N.D r).IsFor e (nc r))
    (hy : ∀ r, r < V.W.P → ∀ c l y, c < nc r → l < e.dim → (V.D r).dof c l = some y →
      y / (V.D r).imbs < V.W.size r + (V.W.ghosts r).length)
    (hx : ∀ r, r < V.W.P → ∀ c l x, c < nc r → l < e.dim → (N.D r).dof c l = some x →
      x < (N.D r).imbs * (N.W.size r + (N.W.ghosts r).length))
    (hused : ∀ r, r < V.W.P → ∀ x, x < (N.D r).imbs * (N.W.size r + (N.W.ghosts r).length) →
      ∃ c l, c < nc r ∧ l < e.dim ∧ (N.D r).dof c l = some x)
    (hsame : ∀ r, r < V.W.P → ∀ r', r' < V.W.P → ∀ c l c' l' x y x' y' : Nat, c < nc r → l < e.dim → c' < nc r' → l' < e.dim →
      (N.D r).dof c l = some x → (V.D r).dof c l = some y → (N.D r').dof c' l' = some x' → (V.D r').dof c' l' = some y' →
      (globalDof N.W (N.D r).imbs r x = globalDof N.W (N.D r').imbs r' x' ↔
        globalDof V.W (V.D r).imbs r y = globalDof V.W (V.D r').imbs r' y'))
    (hown : ∀ r, r < V.W.P → ∀ c l x y g g' : Nat, c < nc r → l < e.dim → (N.D r).dof c l = some x → (V.D r).dof c l = some y →
      globalOf N.W r (x / (N.D r).imbs) = some g → globalOf V.W r (y / (V.D r).imbs) = some g' →
      ∀ q, Owns N.W q g ↔ Owns V.W q g') :
    CollapseOk V N (collapsedMap V N) nc e.dim := by
  have hlen : ∀ r, (collapsedMap V N r).length = (N.D r).imbs * (N.W.size r + (N.W.ghosts r).length) := by
    intro r
    unfold collapsedMap
    simp only
    rw [plain_set_length, List.length_replicate, Nat.mul_comm]
  have hcons : ∀ r, r < V.W.P → ∀ c l c' l' x y y' : Nat, c < nc r → l < e.dim → c' < nc r → l' < e.dim →
      (N.D r).dof c l = some x → (V.D r).dof c l = some y → (N.D r).dof c' l' = some x → (V.D r).dof c' l' = some y' → y' = y := by
    intro r hr c l c' l' x y y' hc hl hc' hl' h1 h2 h3 h4
    have h5 := (hsame r hr r hr c l c' l' x y x y' hc hl hc' hl' h1 h2 h3 h4).mp rfl
    have r1 := hy r hr c l y hc hl h2
    have r2 := hy r hr c' l' y' hc' hl' h4
    obtain ⟨g1, hg1⟩ := Props.globalOf_some V.W r _ r1
    obtain ⟨g2, hg2⟩ := Props.globalOf_some V.W r _ r2
    unfold globalDof at h5
    rw [hg1, hg2] at h5
    simp only [Option.map_some, Option.some.injEq, Prod.mk.injEq] at h5
    have hd := Dofmap.globalOf_inj hvV hr r1 r2 (by rw [hg1, hg2, h5.1])
    rw [← Nat.div_add_mod y (V.D r).imbs, ← Nat.div_add_mod y' (V.D r).imbs, hd, h5.2]
  have hget : ∀ r, r < V.W.P → ∀ c l x y : Nat, c < nc r → l < e.dim → (N.D r).dof c l = some x → (V.D r).dof c l = some y →
      (collapsedMap V N r)[x]? = some y := by
    intro r hr c l x y hc hl h1 h2
    obtain ⟨v1, v2, v3⟩ := hV r hr
    have := plain_set (writes (V.D r) (N.D r)) (List.replicate ((N.W.size r + (N.W.ghosts r).length) * (N.D r).imbs) 0) x y
      (by rw [List.length_replicate, Nat.mul_comm]; exact hx r hr c l x hc hl h1)
      ((mem_writes he v1 (hN r hr) v2 x y).mpr ⟨c, l, hc, hl, h1, h2⟩) ?_
    · exact this
    · intro y' hy'
      obtain ⟨c', l', a1, a2, a3, a4⟩ := (mem_writes he v1 (hN r hr) v2 x y').mp hy'
      exact hcons r hr c l c' l' x y y' hc hl a1 a2 h1 h2 a3 a4
  have hback : ∀ r, r < V.W.P → ∀ x y : Nat, (collapsedMap V N r)[x]? = some y →
      ∃ c l, c < nc r ∧ l < e.dim ∧ (N.D r).dof c l = some x ∧ (V.D r).dof c l = some y := by
    intro r hr x y hxy
    have hlt := (List.getElem?_eq_some_iff.mp hxy).1
    rw [hlen] at hlt
    obtain ⟨c, l, hc, hl, h1⟩ := hused r hr x hlt
    obtain ⟨y', h2⟩ := dof_some he (hV r hr).1 hc hl
    have := hget r hr c l x y' hc hl h1 h2
    rw [hxy] at this
    obtain rfl := Option.some.inj this
    exact ⟨c, l, hc, hl, h1, h2⟩
  refine ⟨hP, hvN, fun r _ => hlen r, ?_, ?_, ?_, ?_, ?_⟩
  · intro r hr c hc l hl
    obtain ⟨x, h1⟩ := dof_some he (hN r hr) hc hl
    obtain ⟨y, h2⟩ := dof_some he (hV r hr).1 hc hl
    exact ⟨x, y, h1, h2, hget r hr c l x y hc hl h1 h2⟩
  · intro r hr x y h1
    obtain ⟨c, l, a1, a2, a3, a4⟩ := hback r hr x y h1
    have := hy r hr c l y a1 a2 a4
    rw [Nat.div_lt_iff_lt_mul (hV r hr).2.2, Nat.mul_comm] at this
    exact this
  · intro r hr x hlt
    rw [hlen] at hlt
    exact hused r hr x hlt
  · intro r hr r' hr' x y x' y' h1 h2
    obtain ⟨c, l, a1, a2, a3, a4⟩ := hback r hr x y h1
    obtain ⟨c', l', b1, b2, b3, b4⟩ := hback r' hr' x' y' h2
    exact hsame r hr r' hr' c l c' l' x y x' y' a1 a2 b1 b2 a3 a4 b3 b4
  · intro r hr x y g g' h1 h2 h3
    obtain ⟨c, l, a1, a2, a3, a4⟩ := hback r hr x y h1
    exact hown r hr c l x y g g' a1 a2 a3 a4 h2 h3

/-! ## Without blocks -/

/-- A view on all ranks of an element without blocks.  Indices are local indices of the index map with block size
`bs`, and all have the same component `k` (always if `bs = 1`). -/
structure ViewOk (V : Maps) (sh : List Nat) (e : Elem) (nc : Nat → Nat) (bs k : Nat) : Prop where
  elem : e.Ok sh
  block : e.bs = 1
  valid : V.W.Valid
  bs_pos : 0 < bs
  isFor : ∀ r, r < V.W.P → (V.D r).IsFor e (nc r)
  one : ∀ r, r < V.W.P → (V.D r).bs = 1
  imbs : ∀ r, r < V.W.P → (V.D r).imbs = bs
  index : ∀ r, r < V.W.P → ∀ x ∈ (V.D r).arr, x % bs = k ∧ x / bs < V.W.size r + (V.W.ghosts r).length

section
variable {V : Maps} {sh : List Nat} {e : Elem} {nc : Nat → Nat} {bs k : Nat} (h : ViewOk V sh e nc bs k)
include h

theorem view_ind {r : Nat} (hr : r < V.W.P) : (viewInput V.W V.D).ind r = (dofsView (V.D r)).map (· / bs) := by
  unfold viewInput
  simp only
  rw [h.imbs r hr]
  split
  · rename_i hb
    subst hb
    simp
  · rfl

theorem mem_dofsView {D : DofMap} (x : Nat) : x ∈ dofsView D ↔ x ∈ D.arr := by
  unfold dofsView
  exact mem_unique_sortNat _ _

theorem view_ok : (viewInput V.W V.D).Ok := by
  refine ⟨h.valid, ?_, ?_⟩
  · intro r hr
    rw [view_ind h hr, List.pairwise_map]
    have hs : (dofsView (V.D r)).Pairwise (· < ·) := unique_sortNat_sorted _
    refine hs.imp_of_mem ?_
    intro a b ha hb hab
    have h1 := (h.index r hr a ((mem_dofsView h a).mp ha)).1
    have h2 := (h.index r hr b ((mem_dofsView h b).mp hb)).1
    have h3 := Nat.div_add_mod a bs
    have h4 := Nat.div_add_mod b bs
    rw [h1] at h3
    rw [h2] at h4
    by_contra hc
    have := Nat.mul_le_mul_left bs (Nat.not_lt.mp hc)
    omega
  · intro r hr i hi
    rw [view_ind h hr] at hi
    obtain ⟨x, hx, rfl⟩ := List.mem_map.mp hi
    exact (h.index r hr x ((mem_dofsView h x).mp hx)).2

theorem mem_toParent {r : Nat} (hr : r < V.W.P) (i : Nat) :
    i ∈ (viewInput V.W V.D).toParent r ↔ ∃ x ∈ (V.D r).arr, x / bs = i := by
  rw [(Props.C29_indices (view_ok h) r hr).mem_iff, view_ind h hr, List.mem_map]
  simp only [mem_dofsView h]

theorem toParent_nodup {r : Nat} (hr : r < V.W.P) : ((viewInput V.W V.D).toParent r).Nodup := by
  rw [(Props.C29_indices (view_ok h) r hr).nodup_iff]
  exact nodup_of_strict ((view_ok h).sorted r hr)

theorem oldToNew_get {r : Nat} (hr : r < V.W.P) {x : Nat} (hx : x ∈ (V.D r).arr) :
    ∃ i, (oldToNewView (V.D r) ((viewInput V.W V.D).toParent r)).getD x none = some i ∧
      ((viewInput V.W V.D).toParent r)[i]? = some (x / bs) := by
  obtain ⟨i, hi⟩ := List.mem_iff_getElem?.mp ((mem_toParent h hr (x / bs)).mpr ⟨x, hx, rfl⟩)
  refine ⟨i, ?_, hi⟩
  have hdv := (mem_dofsView (D := V.D r) h x).mpr hx
  have hsize : ∃ m, (dofsView (V.D r)).getLast? = some m ∧ x ≤ m := by
    have hne : dofsView (V.D r) ≠ [] := List.ne_nil_of_mem hdv
    refine ⟨_, List.getLast?_eq_some_getLast hne, ?_⟩
    have hs : (dofsView (V.D r)).Pairwise (· < ·) := unique_sortNat_sorted _
    rw [← List.dropLast_append_getLast hne] at hs hdv
    rcases List.mem_append.mp hdv with h1 | h1
    · exact Nat.le_of_lt ((List.pairwise_append.mp hs).2.2 x h1 _ (by simp))
    · simp only [List.mem_singleton] at h1
      omega
  obtain ⟨m, hm, hxm⟩ := hsize
  unfold oldToNewView
  simp only [hm]
  rw [List.getD_eq_getElem?_getD, h.imbs r hr, ArrayFold.set_written _ _ x i]
  · rfl
  · rw [List.length_replicate]
    have := h.bs_pos
    show x < m + bs
    omega
  · simp only [List.mem_flatMap, List.mem_map, List.mem_range, Prod.mk.injEq]
    refine ⟨(x / bs, i), List.mem_zipIdx_iff_getElem?.mpr hi, x % bs, Nat.mod_lt _ h.bs_pos, ?_, rfl⟩
    simp only
    rw [Nat.mul_comm, Nat.div_add_mod]
  · intro i' hi'
    simp only [List.mem_flatMap, List.mem_map, List.mem_range, Prod.mk.injEq] at hi'
    obtain ⟨⟨a, j⟩, hp, k', hk', h1, rfl⟩ := hi'
    simp only at h1 ⊢
    have hp' := List.mem_zipIdx_iff_getElem?.mp hp
    simp only at hp'
    have ha : a = x / bs := by
      rw [← h1, Nat.mul_comm, Nat.mul_add_div h.bs_pos, Nat.div_eq_of_lt hk', Nat.add_zero]
    rw [ha, ← hi] at hp'
    exact (List.getElem?_inj (List.getElem?_eq_some_iff.mp hi).1 (toParent_nodup h hr)).mp hp'.symm |>.symm

end

/-- Every rank that owns an index of the view of some rank has it in its view. -/
def OwnersHave (V : Maps) (bs : Nat) : Prop :=
  ∀ r, r < V.W.P → ∀ x ∈ (V.D r).arr, ∀ g q, globalOf V.W r (x / bs) = some g → Owns V.W q g →
    ∃ y ∈ (V.D q).arr, globalOf V.W q (y / bs) = some g

theorem layout_copy (e : Elem) (pm : List Nat) : (e.layout pm).copy = e.layout [] := by
  cases e <;> simp only [Elem.layout, Layout.copy]

section
variable {V : Maps} {sh : List Nat} {e : Elem} {nc : Nat → Nat} {bs k : Nat} (h : ViewOk V sh e nc bs k)
include h

theorem view_chooses {q : Nat} (hq : q < V.W.P) (g : Nat) : Chooses V.W (viewInput V.W V.D).ind q g ↔
    ∃ y ∈ (V.D q).arr, globalOf V.W q (y / bs) = some g := by
  unfold Chooses
  rw [view_ind h hq]
  simp only [List.mem_map, mem_dofsView h]
  constructor
  · rintro ⟨i, ⟨y, hy, rfl⟩, hg⟩; exact ⟨y, hy, hg⟩
  · rintro ⟨y, hy, hg⟩; exact ⟨_, ⟨y, hy, rfl⟩, hg⟩

theorem no_throw_iff : (∀ r, r < V.W.P → (viewInput V.W V.D).throws r = false) ↔ OwnersHave V bs := by
  have hth := fun r hr => Props.C29_throws (view_ok h) r hr
  constructor
  · intro hno r hr x hx g q hg ho
    have hq := ho.1
    by_contra hc
    have := (hth q hq).mpr ⟨g, r, ho, fun hch => hc ((view_chooses h hq g).mp hch), hr,
      (view_chooses h hr g).mpr ⟨x, hx, hg⟩⟩
    rw [hno q hq] at this
    cases this
  · intro ho r hr
    by_contra hc
    rw [Bool.not_eq_false] at hc
    obtain ⟨g, q, h1, h2, h3, h4⟩ := (hth r hr).mp hc
    obtain ⟨x, hx, hg⟩ := (view_chooses h h3 g).mp h4
    exact h2 ((view_chooses h hr g).mpr (ho q h3 x hx g r hg h1))

/-- The new dofmaps of `build_collapsed_dofmap`. -/
def collapsedView (V : Maps) : Maps where
  W := (viewInput V.W V.D).sub
  D r := { layout := (V.D r).layout.copy, imbs := 1, bs := 1
           arr := if r < V.W.P then (V.D r).arr.map fun x =>
             ((oldToNewView (V.D r) ((viewInput V.W V.D).toParent r)).getD x none).getD 0 else [] }

theorem buildCollapsed_eq (ho : OwnersHave V bs) : buildCollapsed V V.W.P = some (collapsedView V) := by
  unfold buildCollapsed
  have hno := (no_throw_iff h).mpr ho
  have hb : ∀ r, r < V.W.P → (V.D r).layout.bs = 1 := by
    intro r hr
    obtain ⟨⟨pm, hL⟩, _⟩ := h.isFor r hr
    rw [hL, layout_bs, h.block]
  have hany : (List.range V.W.P).any (fun r => decide ((V.D r).layout.bs > 1) || (viewInput V.W V.D).throws r) = false := by
    rw [List.any_eq_false]
    intro r hr
    rw [hb r (List.mem_range.mp hr), hno r (List.mem_range.mp hr)]
    simp
  simp only [hany, Bool.false_eq_true, if_false, Option.bind_eq_bind]
  rw [Props.mapM_some _ _ (fun r => (V.D r).arr.map fun x =>
    ((oldToNewView (V.D r) ((viewInput V.W V.D).toParent r)).getD x none).getD 0)]
  · rw [Option.bind_some]
    congr 1
    unfold collapsedView
    congr 1
    funext r
    congr 1
    rw [List.getD_eq_getElem?_getD, List.getElem?_map]
    by_cases hr : r < V.W.P
    · rw [List.getElem?_range hr, if_pos hr]; rfl
    · rw [if_neg hr, List.getElem?_eq_none (by simpa using hr)]; rfl
  · intro r hr
    refine Props.mapM_some _ _ _ ?_
    intro x hx
    obtain ⟨i, hi, _⟩ := oldToNew_get h (List.mem_range.mp hr) hx
    rw [hi]
    rfl

theorem collapsed_isFor {r : Nat} (hr : r < V.W.P) : ((collapsedView V).D r).IsFor e (nc r) := by
  obtain ⟨⟨pm, hL⟩, _, hlen⟩ := h.isFor r hr
  rw [h.one r hr, Nat.one_mul] at hlen
  refine ⟨⟨[], ?_⟩, Or.inl rfl, ?_⟩
  · show (V.D r).layout.copy = _
    rw [hL, layout_copy]
  · show 1 * (if r < V.W.P then _ else _ : List Nat).length = _
    rw [if_pos hr, List.length_map, hlen, Nat.one_mul]

theorem dof_arr {D : DofMap} {n : Nat} (hD : D.IsFor e n) (h1 : D.bs = 1) {c l : Nat} (hl : l < e.dim) :
    D.dof c l = D.arr[e.dim * c + l]? := by
  have hw := (isFor_width h.elem hD).1
  rw [h1, Nat.mul_one] at hw
  rw [dof_one h1]
  unfold DofMap.cellDofs
  rw [List.getElem?_take, hw, if_pos hl, List.getElem?_drop]

theorem collapsed_dof {r : Nat} (hr : r < V.W.P) {c l y : Nat} (hl : l < e.dim) (hy : (V.D r).dof c l = some y) :
    ∃ i, ((collapsedView V).D r).dof c l = some i ∧ ((viewInput V.W V.D).toParent r)[i]? = some (y / bs) := by
  rw [dof_arr h (h.isFor r hr) (h.one r hr) hl] at hy
  rw [dof_arr h (collapsed_isFor h hr) rfl hl]
  obtain ⟨i, h1, h2⟩ := oldToNew_get h hr (List.mem_of_getElem? hy)
  refine ⟨i, ?_, h2⟩
  show (if r < V.W.P then _ else _ : List Nat)[_]? = _
  rw [if_pos hr, List.getElem?_map, hy, Option.map_some, h1]
  rfl

theorem sub_length {r : Nat} : (collapsedView V).W.size r + ((collapsedView V).W.ghosts r).length =
    ((viewInput V.W V.D).toParent r).length := by
  show (viewInput V.W V.D).sub.size r + ((viewInput V.W V.D).sub.ghosts r).length = _
  rw [Props.sub_ghosts_length]
  unfold SubMap.Input.toParent
  rw [List.length_append, List.length_map]
  rfl

theorem collapsed_ok (ho : OwnersHave V bs) : CollapseOk V (collapsedView V) (collapsedMap V (collapsedView V)) nc e.dim := by
  have hs := view_ok h
  have hdofy : ∀ r, r < V.W.P → ∀ c l y, l < e.dim → (V.D r).dof c l = some y → y ∈ (V.D r).arr := by
    intro r hr c l y hl hy
    rw [dof_arr h (h.isFor r hr) (h.one r hr) hl] at hy
    exact List.mem_of_getElem? hy
  have hNi : ∀ r, ((collapsedView V).D r).imbs = 1 := fun _ => rfl
  refine collapse_assemble h.elem rfl (Props.C29_valid hs) h.valid (fun r hr => ⟨h.isFor r hr, h.one r hr, ?_⟩)
    (fun r hr => collapsed_isFor h hr) ?_ ?_ ?_ ?_ ?_
  · rw [h.imbs r hr]; exact h.bs_pos
  · intro r hr c l y _ hl hy
    rw [h.imbs r hr]
    exact (h.index r hr y (hdofy r hr c l y hl hy)).2
  · intro r hr c l x hc hl hx
    obtain ⟨y, hy⟩ := dof_some h.elem (h.isFor r hr) hc hl
    obtain ⟨i, h1, h2⟩ := collapsed_dof h hr hl hy
    rw [hx] at h1
    obtain rfl := Option.some.inj h1
    rw [hNi, Nat.one_mul, sub_length h]
    exact (List.getElem?_eq_some_iff.mp h2).1
  · intro r hr x hx
    rw [hNi, Nat.one_mul, sub_length h] at hx
    obtain ⟨y, hy, hyx⟩ := (mem_toParent h hr _).mp (List.getElem_mem hx)
    obtain ⟨p, hp⟩ := List.mem_iff_getElem?.mp hy
    have hplt := (List.getElem?_eq_some_iff.mp hp).1
    have hfor := h.isFor r hr
    have hlen := (isFor_width h.elem hfor).2.2.2
    have hw := (isFor_width h.elem hfor).1
    rw [h.one r hr, Nat.mul_one] at hw
    rw [hlen, hw] at hplt
    have hdim := dim_pos sh e h.elem
    have hl : p % e.dim < e.dim := Nat.mod_lt _ hdim
    refine ⟨p / e.dim, p % e.dim, Nat.div_lt_of_lt_mul (by rw [Nat.mul_comm]; exact hplt), hl, ?_⟩
    have hdof : (V.D r).dof (p / e.dim) (p % e.dim) = some y := by
      rw [dof_arr h hfor (h.one r hr) hl, Nat.div_add_mod, hp]
    obtain ⟨i, h1, h2⟩ := collapsed_dof h hr hl hdof
    rw [h1]
    congr 1
    have hx' : ((viewInput V.W V.D).toParent r)[x]? = some (y / bs) := by
      rw [List.getElem?_eq_getElem hx, hyx]
    exact (List.getElem?_inj (List.getElem?_eq_some_iff.mp h2).1 (toParent_nodup h hr)).mp (h2.trans hx'.symm)
  · intro r hr r' hr' c l c' l' x y x' y' _ hl _ hl' h1 h2 h3 h4
    obtain ⟨i, a1, a2⟩ := collapsed_dof h hr hl h2
    obtain ⟨i', b1, b2⟩ := collapsed_dof h hr' hl' h4
    rw [h1] at a1
    rw [h3] at b1
    obtain rfl := Option.some.inj a1
    obtain rfl := Option.some.inj b1
    have hsi := Props.C29_same_index hs r r' _ _ _ _ hr hr' a2 b2
    have k1 := (h.index r hr y (hdofy r hr c l y hl h2)).1
    have k2 := (h.index r' hr' y' (hdofy r' hr' c' l' y' hl' h4)).1
    unfold globalDof
    rw [hNi, hNi, h.imbs r hr, h.imbs r' hr', Nat.div_one, Nat.div_one, Nat.mod_one, Nat.mod_one, k1, k2]
    have hinj : ∀ (a b : Option Nat) (m : Nat), a.map (fun g => (g, m)) = b.map (fun g => (g, m)) ↔ a = b := by
      intro a b m
      cases a <;> cases b <;> simp
    rw [hinj, hinj]
    exact hsi
  · intro r hr c l x y g g' hc hl h1 h2 h3 h4 q
    obtain ⟨i, a1, a2⟩ := collapsed_dof h hr hl h2
    rw [h1] at a1
    obtain rfl := Option.some.inj a1
    rw [hNi, Nat.div_one] at h3
    rw [h.imbs r hr] at h4
    obtain ⟨G, o, p, j, c1, c2, c3, c4, c5, _⟩ := Props.sub_number hs r hr _ _ a2
    have e1 : some g = some _ := h3.symm.trans c5
    have e2 : some g' = some G := h4.symm.trans c1
    obtain rfl := Option.some.inj e1
    obtain rfl := Option.some.inj e2
    obtain ⟨po, d1, d2⟩ := c2
    have hpo : o = po := by
      rcases d2 with ⟨_, d2⟩ | ⟨d2, _⟩
      · exact d2
      · exact absurd ((view_chooses h d1.1 _).mpr (ho r hr y (hdofy r hr c l y hl h2) _ _ h4 d1)) d2
    subst hpo
    have hp := (List.getElem?_eq_some_iff.mp c3).1
    have hO : Owns (viewInput V.W V.D).sub o ((viewInput V.W V.D).sub.r0 o + p) := ⟨d1.1, by omega, by
      have : (viewInput V.W V.D).sub.size o = ((viewInput V.W V.D).subOwned o).length := rfl
      omega⟩
    constructor
    · intro hq
      obtain rfl := Props.range_unique _ hq.2 hO.2
      exact d1
    · intro hq
      obtain rfl := Props.range_unique _ hq.2 d1.2
      exact hO

end

end Verif.SubSpace
