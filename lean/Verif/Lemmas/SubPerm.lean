import Verif.Lemmas.SubSpace
/-!
# Dofs of sub-elements on entities, and their permutations
-/
namespace Verif.SubSpace
open Verif.World Verif.Spec Verif.Std

theorem Alls_mem {p : Basix → Prop} {es : List Elem} (h : Alls p es) {e : Elem} (he : e ∈ es) : e.All p := by
  induction es with
  | nil => simp at he
  | cons a es ih =>
    rw [Alls] at h
    rcases List.mem_cons.mp he with rfl | he
    · exact h.1
    · exact ih h.2 he

/-! ## Positions of the dofs of a sub-element on an entity -/

/-- Dofs of one entity, counted with all components. -/
def full (e : Elem) (d s : Nat) : List Nat := (slot e.ed d s).flatMap fun x => (List.range e.bs).map fun b => 0 + x * e.bs + b

/-- Number of dofs of an entity before the first of the sub-element. -/
def before : Elem → List Nat → Nat → Nat → Nat
  | .mixed es, i :: path, d, s => ((es.take i).map fun e => (full e d s).length).sum +
      match es[i]? with
      | some e => before e path d s
      | none => 0
  | .blocked _ _, i :: _, _, _ => i
  | _, _, _, _ => 0

theorem block_get (ds : List Nat) (bs o m i k : Nat) (h : ds[m]? = some i) (hk : k < bs) :
    (ds.flatMap fun x => (List.range bs).map fun b => o + x * bs + b)[bs * m + k]? = some (o + i * bs + k) := by
  induction ds generalizing m with
  | nil => simp at h
  | cons a ds ih =>
    rw [List.flatMap_cons]
    cases m with
    | zero =>
      simp at h
      subst h
      rw [Nat.mul_zero, Nat.zero_add, List.getElem?_append_left (by simpa using hk), List.getElem?_map, List.getElem?_range hk]
      rfl
    | succ m =>
      rw [List.getElem?_cons_succ] at h
      rw [List.getElem?_append_right (by simp [Nat.mul_succ]; omega)]
      simp only [List.length_map, List.length_range]
      rw [show bs * (m + 1) + k - bs = bs * m + k by rw [Nat.mul_succ]; omega]
      exact ih m h

theorem block_length (ds : List Nat) (bs o : Nat) : (ds.flatMap fun x => (List.range bs).map fun b => o + x * bs + b).length =
    ds.length * bs := by
  rw [List.length_flatMap]
  simp only [List.length_map, List.length_range]
  rw [List.map_const', List.sum_replicate]
  simp

theorem full_one {e : Elem} (h : e.bs = 1) (d s : Nat) : full e d s = slot e.ed d s := by
  unfold full
  rw [h]
  induction slot e.ed d s with
  | nil => rfl
  | cons a l ih => rw [List.flatMap_cons, ih]; simp

/-- Dofs of one entity of a list of sub-elements. -/
def fulls (es : List Elem) (o d s : Nat) : List Nat :=
  (edList es o).flatMap fun y => (slot y.2.2 d s).flatMap fun k => (List.range y.2.1).map fun b => y.1 + k * y.2.1 + b

theorem block_shift (ds : List Nat) (bs o : Nat) : (ds.flatMap fun x => (List.range bs).map fun b => o + x * bs + b) =
    (ds.flatMap fun x => (List.range bs).map fun b => 0 + x * bs + b).map (o + ·) := by
  rw [List.map_flatMap]
  apply List.flatMap_congr
  intro x _
  rw [List.map_map]
  apply List.map_congr_left
  intro b _
  simp only [Function.comp]
  omega

theorem fulls_cons (e : Elem) (es : List Elem) (o d s : Nat) :
    fulls (e :: es) o d s = (full e d s).map (o + ·) ++ fulls es (o + e.dim) d s := by
  unfold fulls full
  rw [edList, List.flatMap_cons]
  simp only
  rw [block_shift]

theorem full_mixed {sh : List Nat} {es : List Elem} (h : (Elem.mixed es).Ok sh) {d s : Nat} (hs : s < sh.getD d 0) :
    full (.mixed es) d s = fulls es 0 d s := by
  rw [full_one rfl]
  rw [Elem.Ok] at h
  rw [Elem.ed, mixedEd_slot _ sh (edList_shape sh es 0 h.2) d s (edList_ne h.1 0) hs]
  rfl

theorem fulls_get (es : List Elem) (o i : Nat) (e : Elem) (h : es[i]? = some e) (d s m x : Nat) (hm : (full e d s)[m]? = some x) :
    (fulls es o d s)[((es.take i).map fun e => (full e d s).length).sum + m]? = some (o + ((es.take i).map Elem.dim).sum + x) := by
  induction es generalizing o i with
  | nil => simp at h
  | cons a es ih =>
    rw [fulls_cons]
    cases i with
    | zero =>
      simp at h
      subst h
      simp only [List.take_zero, List.map_nil, List.sum_nil, Nat.zero_add, Nat.add_zero]
      rw [List.getElem?_append_left (by rw [List.length_map]; exact (List.getElem?_eq_some_iff.mp hm).1), List.getElem?_map, hm]
      rfl
    | succ i =>
      rw [List.getElem?_cons_succ] at h
      simp only [List.take_succ_cons, List.map_cons, List.sum_cons]
      rw [List.getElem?_append_right (by rw [List.length_map]; omega), List.length_map, Nat.add_assoc, Nat.add_sub_cancel_left,
        ih (o + a.dim) i h]
      congr 1
      omega

theorem part_cons {e : Elem} {i : Nat} {path : List Nat} {o st : Nat} {e' : Elem} (h : part e (i :: path) = some (o, st, e')) :
    ∃ o1 s1 e1 o2 s2, part1 e i = some (o1, s1, e1) ∧ part e1 path = some (o2, s2, e') ∧ o = o1 + s1 * o2 ∧ st = s1 * s2 := by
  rw [part] at h
  simp only [Option.bind_eq_bind, Option.bind_eq_some_iff] at h
  obtain ⟨⟨o1, s1, e1⟩, h1, ⟨o2, s2, e2⟩, h2, h3⟩ := h
  simp only [Option.some.injEq, Prod.mk.injEq] at h3
  obtain ⟨rfl, rfl, rfl⟩ := h3
  exact ⟨o1, s1, e1, o2, s2, h1, h2, rfl, rfl⟩

theorem part_base {b : Basix} {path : List Nat} {o st : Nat} {e' : Elem} (h : part (.base b) path = some (o, st, e')) :
    path = [] ∧ o = 0 ∧ st = 1 ∧ e' = .base b := by
  cases path with
  | nil =>
    simp only [part, Option.some.injEq, Prod.mk.injEq] at h
    exact ⟨rfl, h.1.symm, h.2.1.symm, h.2.2.symm⟩
  | cons i p =>
    obtain ⟨_, _, _, _, _, h1, _⟩ := part_cons h
    simp [part1] at h1

theorem part_blocked {bs : Nat} {b : Basix} {i : Nat} {path : List Nat} {o st : Nat} {e' : Elem}
    (h : part (.blocked bs b) (i :: path) = some (o, st, e')) : path = [] ∧ i < bs ∧ o = i ∧ st = bs ∧ e' = .base b := by
  obtain ⟨o1, s1, e1, o2, s2, h1, h2, rfl, rfl⟩ := part_cons h
  simp only [part1] at h1
  split at h1
  · rename_i hi
    simp only [Option.some.injEq, Prod.mk.injEq] at h1
    obtain ⟨rfl, rfl, rfl⟩ := h1
    obtain ⟨rfl, rfl, rfl, rfl⟩ := part_base h2
    exact ⟨rfl, hi, by omega, by omega, rfl⟩
  · cases h1

theorem part_mixed {es : List Elem} {i : Nat} {path : List Nat} {o st : Nat} {e' : Elem}
    (h : part (.mixed es) (i :: path) = some (o, st, e')) : ∃ e1 o2, es[i]? = some e1 ∧ part e1 path = some (o2, st, e') ∧
      o = ((es.take i).map Elem.dim).sum + o2 := by
  obtain ⟨o1, s1, e1, o2, s2, h1, h2, rfl, rfl⟩ := part_cons h
  simp only [part1, Option.map_eq_some_iff, Prod.mk.injEq] at h1
  obtain ⟨e3, h3, h4, h5, h6⟩ := h1
  subst h4 h5 h6
  exact ⟨e3, o2, h3, by rw [h2, Nat.one_mul], by omega⟩

/-- Where the dofs of a sub-element are among the dofs of an entity. -/
theorem embed {sh : List Nat} {e : Elem} (he : e.Ok sh) {path : List Nat} {o st : Nat} {e' : Elem}
    (hp : part e path = some (o, st, e')) {d s : Nat} (hs : s < sh.getD d 0) {m x : Nat} (hm : (full e' d s)[m]? = some x) :
    (full e d s)[before e path d s + st * m]? = some (o + st * x) := by
  induction path generalizing e o st with
  | nil =>
    simp only [part, Option.some.injEq, Prod.mk.injEq] at hp
    obtain ⟨rfl, rfl, rfl⟩ := hp
    have : before e [] d s = 0 := by cases e <;> rfl
    rw [this, Nat.zero_add, Nat.zero_add, Nat.one_mul, Nat.one_mul]
    exact hm
  | cons i path ih =>
    cases e with
    | base b => exact absurd (part_base hp).1 (by simp)
    | blocked bs b =>
      obtain ⟨rfl, hi, rfl, rfl, rfl⟩ := part_blocked hp
      rw [full_one rfl] at hm
      have := block_get (slot b.ed d s) st 0 m x o hm hi
      unfold full
      rw [before, Elem.ed, Elem.bs, Nat.add_comm o, this]
      congr 1
      rw [Nat.mul_comm]
      omega
    | mixed es =>
      obtain ⟨e1, o2, h1, h2, h3⟩ := part_mixed hp
      rw [full_mixed he hs, before, h1]
      rw [Elem.Ok] at he
      simp only
      have hx := ih (Oks_mem he.2 (List.mem_of_getElem? h1)) h2
      rw [Nat.add_assoc, fulls_get es 0 i e1 h1 d s _ _ hx, h3]
      congr 1
      omega

/-! ## Numbers of dofs -/

variable {sh : List Nat} {et : Nat → Nat → Nat}

mutual
theorem full_even {d s s' : Nat} (hs : s < sh.getD d 0) (hs' : s' < sh.getD d 0)
    (ht : et d s = et d s') : ∀ e : Elem, e.Ok sh → e.All (Basix.Good sh et) → (full e d s).length = (full e d s').length
  | .base b, _, ha => by
    rw [Elem.All] at ha
    rw [full_one rfl, full_one rfl, Elem.ed]; exact ha.even d s s' hs hs' ht
  | .blocked bs b, _, ha => by
    rw [Elem.All] at ha
    unfold full
    rw [block_length, block_length, Elem.ed]
    congr 1
    exact ha.even d s s' hs hs' ht
  | .mixed es, h, ha => by
    rw [full_mixed h hs, full_mixed h hs']
    rw [Elem.Ok] at h
    rw [Elem.All] at ha
    exact fulls_even hs hs' ht es 0 h.2 ha
theorem fulls_even {d s s' : Nat} (hs : s < sh.getD d 0) (hs' : s' < sh.getD d 0)
    (ht : et d s = et d s') : ∀ (es : List Elem) (o : Nat), Oks sh es → Alls (Basix.Good sh et) es →
    (fulls es o d s).length = (fulls es o d s').length
  | [], _, _, _ => rfl
  | e :: es, o, h, ha => by
    rw [Oks] at h
    rw [Alls] at ha
    rw [fulls_cons, fulls_cons, List.length_append, List.length_append, List.length_map, List.length_map,
      full_even hs hs' ht e h.1 ha.1, fulls_even hs hs' ht es _ h.2 ha.2]
end

theorem before_even {d s s' : Nat} (hs : s < sh.getD d 0) (hs' : s' < sh.getD d 0)
    (ht : et d s = et d s') {e : Elem} (h : e.Ok sh) (ha : e.All (Basix.Good sh et)) (path : List Nat) :
    before e path d s = before e path d s' := by
  induction path generalizing e with
  | nil => cases e <;> rfl
  | cons i path ih =>
    cases e with
    | base b => rfl
    | blocked bs b => rfl
    | mixed es =>
      rw [Elem.Ok] at h
      rw [Elem.All] at ha
      rw [before, before]
      congr 1
      · congr 1
        apply List.map_congr_left
        intro e he
        have he' := List.mem_of_mem_take he
        exact full_even hs hs' ht e (Oks_mem h.2 he') (Alls_mem ha he')
      · cases h1 : es[i]? with
        | none => rfl
        | some e => exact ih (Oks_mem h.2 (List.mem_of_getElem? h1)) (Alls_mem ha (List.mem_of_getElem? h1))

theorem part_ok {e : Elem} (he : e.Ok sh) {path : List Nat} {o st : Nat} {e' : Elem} (h : part e path = some (o, st, e')) :
    e'.Ok sh := by
  induction path generalizing e o st with
  | nil => simp [part] at h; rw [← h.2.2]; exact he
  | cons i path ih =>
    obtain ⟨o1, s1, e1, o2, s2, h1, h2, _, _⟩ := part_cons h
    exact ih (part1_ok he h1) h2

theorem part_all {p : Basix → Prop} {e : Elem} (he : e.All p) {path : List Nat} {o st : Nat} {e' : Elem}
    (h : part e path = some (o, st, e')) : e'.All p := by
  induction path generalizing e o st with
  | nil =>
    simp only [part, Option.some.injEq, Prod.mk.injEq] at h
    rw [← h.2.2]
    exact he
  | cons i path ih =>
    cases e with
    | base b => exact absurd (part_base h).1 (by simp)
    | blocked bs b =>
      obtain ⟨_, _, _, _, rfl⟩ := part_blocked h
      exact he
    | mixed es =>
      obtain ⟨e1, o2, h1, h2, h3⟩ := part_mixed h
      rw [Elem.All] at he
      exact ih (Alls_mem he (List.mem_of_getElem? h1)) h2

theorem part_lt {e : Elem} {path : List Nat} {o st : Nat} {e' : Elem} (h : part e path = some (o, st, e')) {j : Nat}
    (hj : j < e'.dim) : o + st * j < e.dim := by
  induction path generalizing e o st with
  | nil =>
    simp only [part, Option.some.injEq, Prod.mk.injEq] at h
    obtain ⟨rfl, rfl, rfl⟩ := h
    omega
  | cons i path ih =>
    obtain ⟨o1, s1, e1, o2, s2, h1, h2, rfl, rfl⟩ := part_cons h
    have := part1_lt h1 (ih h2)
    rw [Nat.mul_add, ← Nat.mul_assoc, ← Nat.add_assoc] at this
    exact this

mutual
theorem full_lt {d s x : Nat} (hs : s < sh.getD d 0) : ∀ e : Elem, e.Ok sh → e.All (Basix.Good sh et) → x ∈ full e d s → x < e.dim
  | .base b, _, ha, hx => by
    rw [full_one rfl] at hx
    exact ha.range d s x hx
  | .blocked bs b, _, ha, hx => by
    simp only [full, List.mem_flatMap, List.mem_map, List.mem_range] at hx
    obtain ⟨i, hi, k, hk, rfl⟩ := hx
    have h1 : i < b.dim := ha.range d s i hi
    have h2 : bs * (i + 1) ≤ bs * b.dim := Nat.mul_le_mul_left bs h1
    rw [Elem.bs] at hk ⊢
    rw [Elem.dim]
    rw [Nat.mul_succ, Nat.mul_comm] at h2
    omega
  | .mixed es, h, ha, hx => by
    rw [full_mixed h hs] at hx
    rw [Elem.Ok] at h
    rw [Elem.dim]
    have := (fulls_lt hs es 0 h.2 ha hx).2
    omega
theorem fulls_lt {d s x : Nat} (hs : s < sh.getD d 0) : ∀ (es : List Elem) (o : Nat), Oks sh es → Alls (Basix.Good sh et) es →
    x ∈ fulls es o d s → o ≤ x ∧ x < o + dims es
  | [], _, _, _, hx => by simp [fulls, edList] at hx
  | e :: es, o, h, ha, hx => by
    rw [Oks] at h
    rw [Alls] at ha
    rw [fulls_cons, List.mem_append, List.mem_map] at hx
    rw [dims]
    rcases hx with ⟨y, hy, rfl⟩ | hx
    · have := full_lt hs e h.1 ha.1 hy
      omega
    · have := fulls_lt hs es _ h.2 ha.2 hx
      omega
end

mutual
theorem full_cover {j : Nat} : ∀ e : Elem, e.Ok sh → e.All (Basix.Good sh et) → j < e.dim → ∃ d s, s < sh.getD d 0 ∧ j ∈ full e d s
  | .base b, _, ha, hj => by
    obtain ⟨d, s, h1, h2⟩ := ha.cover j hj
    exact ⟨d, s, h1, by rw [full_one rfl]; exact h2⟩
  | .blocked bs b, h, ha, hj => by
    rw [Elem.Ok] at h
    have hj' : j / bs < b.dim := Nat.div_lt_of_lt_mul hj
    obtain ⟨d, s, h1, h2⟩ := ha.cover (j / bs) hj'
    refine ⟨d, s, h1, ?_⟩
    simp only [full, List.mem_flatMap, List.mem_map, List.mem_range]
    refine ⟨j / bs, h2, j % bs, Nat.mod_lt _ h.1, ?_⟩
    rw [Elem.bs, Nat.zero_add, Nat.mul_comm, Nat.div_add_mod]
  | .mixed es, h, ha, hj => by
    have h' := h
    rw [Elem.Ok] at h
    rw [Elem.dim] at hj
    obtain ⟨d, s, h1, h2⟩ := fulls_cover es 0 h.2 ha hj
    refine ⟨d, s, h1, ?_⟩
    rw [full_mixed h' h1]
    rw [Nat.zero_add] at h2
    exact h2
theorem fulls_cover {j : Nat} : ∀ (es : List Elem) (o : Nat), Oks sh es → Alls (Basix.Good sh et) es → j < dims es →
    ∃ d s, s < sh.getD d 0 ∧ o + j ∈ fulls es o d s
  | [], _, _, _, hj => by rw [dims] at hj; omega
  | e :: es, o, h, ha, hj => by
    rw [Oks] at h
    rw [Alls] at ha
    rw [dims] at hj
    by_cases hc : j < e.dim
    · obtain ⟨d, s, h1, h2⟩ := full_cover e h.1 ha.1 hc
      refine ⟨d, s, h1, ?_⟩
      rw [fulls_cons, List.mem_append, List.mem_map]
      exact Or.inl ⟨j, h2, rfl⟩
    · obtain ⟨d, s, h1, h2⟩ := fulls_cover (j := j - e.dim) es (o + e.dim) h.2 ha.2 (by omega)
      refine ⟨d, s, h1, ?_⟩
      rw [fulls_cons, List.mem_append]
      rw [show o + e.dim + (j - e.dim) = o + j by omega] at h2
      exact Or.inr h2
end

/-! ## Permutations -/

theorem blockPermute_length (bs : Nat) (b : Basix) (info : Nat) (l : List Nat) : (blockPermute bs b info l).length = l.length := by
  unfold blockPermute
  have h2 : ∀ (ks : List Nat) (f : Nat → Nat) (g : Nat → Nat) (l : List Nat), (ks.foldl (fun l i => l.set (f i) (g i)) l).length = l.length := by
    intro ks f g
    induction ks with
    | nil => intro l; rfl
    | cons a ks ih => intro l; rw [List.foldl_cons, ih, List.length_set]
  induction (List.range bs) generalizing l with
  | nil => rfl
  | cons a ks ih => rw [List.foldl_cons, ih, h2]

mutual
theorem permute_length (info : Nat) : ∀ (e : Elem), e.All (Basix.Good sh et) → ∀ l : List Nat, l.length = e.dim →
    (e.permute info l).length = e.dim
  | .base b, h, l, hl => by
    rw [Elem.All] at h
    rw [Elem.permute, Basix.permute]
    rw [Elem.dim] at hl ⊢
    cases hb : b.perm with
    | none => exact hl
    | some f => exact (h.perm f hb info l hl).1
  | .blocked bs b, _, l, hl => by rw [Elem.permute, blockPermute_length, hl]
  | .mixed es, h, l, hl => by
    rw [Elem.All] at h
    rw [Elem.permute, Elem.dim]
    rw [Elem.dim] at hl
    exact permuteList_length info es h l hl
theorem permuteList_length (info : Nat) : ∀ (es : List Elem), Alls (Basix.Good sh et) es → ∀ l : List Nat, l.length = dims es →
    (permuteList es info l).length = dims es
  | [], _, l, hl => by rw [permuteList, hl]
  | e :: es, h, l, hl => by
    rw [Alls] at h
    rw [dims] at hl ⊢
    rw [permuteList, List.length_append, permute_length info e h.1 _ (by rw [List.length_take]; omega),
      permuteList_length info es h.2 _ (by rw [List.length_drop]; omega)]
end

theorem permuteList_get (info : Nat) (es : List Elem) (h : Alls (Basix.Good sh et) es) (l : List Nat) (hl : l.length = dims es) (i : Nat)
    (e : Elem) (hi : es[i]? = some e) (j : Nat) (hj : j < e.dim) :
    (permuteList es info l)[((es.take i).map Elem.dim).sum + j]? =
      (e.permute info ((l.drop ((es.take i).map Elem.dim).sum).take e.dim))[j]? := by
  induction es generalizing l i with
  | nil => simp at hi
  | cons a es ih =>
    rw [Alls] at h
    rw [dims] at hl
    have hal := permute_length info a h.1 (l.take a.dim) (by rw [List.length_take]; omega)
    rw [permuteList]
    cases i with
    | zero =>
      simp at hi
      subst hi
      rw [List.getElem?_append_left (by rw [hal]; simpa using hj)]
      simp
    | succ i =>
      rw [List.getElem?_cons_succ] at hi
      simp only [List.take_succ_cons, List.map_cons, List.sum_cons]
      rw [List.getElem?_append_right (by omega), hal, Nat.add_assoc, Nat.add_sub_cancel_left,
        ih h.2 (l.drop a.dim) (by rw [List.length_drop]; omega) i hi, List.drop_drop]

/-- The dofs of a part of an element. -/
def pick (l : List Nat) (o st n : Nat) : List Nat := (List.range n).map fun j => l.getD (o + st * j) 0

theorem pick_length (l : List Nat) (o st n : Nat) : (pick l o st n).length = n := by simp [pick]

theorem pick_get (l : List Nat) (o st n j : Nat) (hj : j < n) (h : o + st * j < l.length) : (pick l o st n)[j]? = l[o + st * j]? := by
  unfold pick
  rw [List.getElem?_map, List.getElem?_range hj, List.getElem?_eq_getElem h, Option.map_some, List.getD_eq_getElem?_getD,
    List.getElem?_eq_getElem h]
  rfl

/-- One component of a blocked element. -/
theorem set_component (bs n k : Nat) (hk : k < bs) (v : Nat → Nat) (l : List Nat) (hl : l.length = bs * n) (j k0 : Nat) (hk0 : k0 < bs) :
    ((List.range n).foldl (fun l i => l.set (bs * i + k) (v i)) l)[bs * j + k0]? =
      if j < n ∧ k0 = k then some (v j) else l[bs * j + k0]? := by
  have hgen : ∀ is : List Nat, (∀ i ∈ is, i < n) → ∀ l : List Nat, l.length = bs * n →
      (is.foldl (fun l i => l.set (bs * i + k) (v i)) l)[bs * j + k0]? = if j ∈ is ∧ k0 = k then some (v j) else l[bs * j + k0]? := by
    intro is
    induction is with
    | nil => intro _ l _; simp
    | cons a is ih =>
      intro hin l hl
      have ha := hin a (by simp)
      rw [List.foldl_cons, ih (fun i hi => hin i (by simp [hi])) _ (by rw [List.length_set]; exact hl)]
      have hlt : bs * a + k < l.length := by
        rw [hl]
        have := Nat.mul_le_mul_left bs ha
        rw [Nat.mul_succ] at this
        omega
      by_cases hc : j ∈ is ∧ k0 = k
      · rw [if_pos hc, if_pos ⟨by simp [hc.1], hc.2⟩]
      · rw [if_neg hc, List.getElem?_set]
        by_cases he : bs * a + k = bs * j + k0
        · have h1 : a = j ∧ k = k0 := by
            have e1 := congrArg (· / bs) he
            have e2 := congrArg (· % bs) he
            beta_reduce at e1 e2
            rw [Nat.mul_add_div (by omega), Nat.mul_add_div (by omega), Nat.div_eq_of_lt hk, Nat.div_eq_of_lt hk0] at e1
            rw [Nat.mul_add_mod, Nat.mul_add_mod, Nat.mod_eq_of_lt hk, Nat.mod_eq_of_lt hk0] at e2
            exact ⟨by omega, e2⟩
          rw [if_pos he, if_pos hlt, if_pos ⟨by simp [h1.1], h1.2.symm⟩, h1.1]
        · rw [if_neg he, if_neg]
          rintro ⟨h1, h2⟩
          rcases List.mem_cons.mp h1 with h1 | h1
          · exact he (by rw [h1, h2])
          · exact hc ⟨h1, h2⟩
  rw [hgen _ (fun i hi => List.mem_range.mp hi) l hl]
  simp only [List.mem_range]

theorem basix_length {b : Basix} (h : b.Good sh et) (info : Nat) (l : List Nat) (hl : l.length = b.dim) : (b.permute info l).length = b.dim := by
  unfold Basix.permute
  cases hb : b.perm with
  | none => exact hl
  | some f => exact (h.perm f hb info l hl).1

theorem blockPermute_get (bs : Nat) (b : Basix) (h : b.Good sh et) (info : Nat) (l : List Nat) (hl : l.length = bs * b.dim) (j k : Nat)
    (hk : k < bs) : (blockPermute bs b info l)[bs * j + k]? = (b.permute info (pick l k bs b.dim))[j]? := by
  have hgen : ∀ ks : List Nat, ks.Nodup → (∀ k ∈ ks, k < bs) → ∀ l : List Nat, l.length = bs * b.dim → ∀ k < bs, ∀ j,
      (ks.foldl (fun l k =>
        let sub := b.permute info ((List.range b.dim).map fun i => l.getD (bs * i + k) 0)
        (List.range b.dim).foldl (fun l i => l.set (bs * i + k) (sub.getD i 0)) l) l)[bs * j + k]? =
        if k ∈ ks then (b.permute info (pick l k bs b.dim))[j]? else l[bs * j + k]? := by
    intro ks
    induction ks with
    | nil => intro _ _ l _ k _ j; simp
    | cons a ks ih =>
      intro hnd hin l hl k hk j
      have ha := hin a (by simp)
      rw [List.nodup_cons] at hnd
      rw [List.foldl_cons]
      simp only
      have hpl : (b.permute info ((List.range b.dim).map fun i => l.getD (bs * i + a) 0)).length = b.dim :=
        basix_length h info _ (by simp)
      have hlen : ((List.range b.dim).foldl (fun l' i => l'.set (bs * i + a)
          ((b.permute info ((List.range b.dim).map fun i => l.getD (bs * i + a) 0)).getD i 0)) l).length = bs * b.dim := by
        rw [← hl]
        generalize List.range b.dim = is
        generalize hv : (b.permute info (is.map fun i => l.getD (bs * i + a) 0)) = v
        clear hv hl hpl
        induction is generalizing l with
        | nil => rfl
        | cons c is ih2 => rw [List.foldl_cons, ih2, List.length_set]
      rw [ih hnd.2 (fun k hk => hin k (by simp [hk])) _ hlen k hk j]
      have hset := fun j k0 hk0 => set_component bs b.dim a ha (fun i => (b.permute info ((List.range b.dim).map fun i =>
        l.getD (bs * i + a) 0)).getD i 0) l hl j k0 hk0
      by_cases hka : k = a
      · subst hka
        rw [if_neg hnd.1, if_pos (by simp), hset j k hk]
        have hpick : pick l k bs b.dim = (List.range b.dim).map fun i => l.getD (bs * i + k) 0 := by
          unfold pick
          simp only [Nat.add_comm k]
        rw [hpick]
        by_cases hj : j < b.dim
        · rw [if_pos ⟨hj, rfl⟩, List.getD_eq_getElem?_getD, List.getElem?_eq_getElem (by rw [hpl]; exact hj)]
          rfl
        · have h2 := Nat.mul_le_mul_left bs (Nat.le_of_not_lt hj)
          rw [if_neg (fun hc => hj hc.1), List.getElem?_eq_none (l := l) (by omega), List.getElem?_eq_none (by omega)]
      · have hpk : ∀ X : List Nat, (∀ i, X[bs * i + k]? = l[bs * i + k]?) → pick X k bs b.dim = pick l k bs b.dim := by
          intro X hX
          unfold pick
          apply List.map_congr_left
          intro i _
          rw [List.getD_eq_getElem?_getD, List.getD_eq_getElem?_getD, Nat.add_comm, hX]
        have hsame := fun i => (hset i k hk).trans (if_neg (fun hc => hka hc.2))
        rw [hpk _ hsame, hsame j]
        by_cases hc : k ∈ ks
        · rw [if_pos hc, if_pos (by simp [hc])]
        · rw [if_neg hc, if_neg (by simp [hc, hka])]
  unfold blockPermute
  rw [hgen _ List.nodup_range (fun k hk => List.mem_range.mp hk) l hl k hk j, if_pos (List.mem_range.mpr hk)]

/-- Permutations act on each sub-element separately. -/
theorem part_perm {e : Elem} (ha : e.All (Basix.Good sh et)) {path : List Nat} {o st : Nat} {e' : Elem}
    (hp : part e path = some (o, st, e')) (info : Nat) (l : List Nat) (hl : l.length = e.dim) (j : Nat) (hj : j < e'.dim) :
    (e.permute info l)[o + st * j]? = (e'.permute info (pick l o st e'.dim))[j]? := by
  induction path generalizing e o st l with
  | nil =>
    simp only [part, Option.some.injEq, Prod.mk.injEq] at hp
    obtain ⟨rfl, rfl, rfl⟩ := hp
    have : pick l 0 1 e.dim = l := by
      unfold pick
      rw [← hl]
      simp only [Nat.zero_add, Nat.one_mul]
      exact map_range_getD l 0
    rw [this, Nat.zero_add, Nat.one_mul]
  | cons i path ih =>
    cases e with
    | base b => exact absurd (part_base hp).1 (by simp)
    | blocked bs b =>
      obtain ⟨rfl, hi, rfl, rfl, rfl⟩ := part_blocked hp
      rw [Elem.dim] at hl
      have hb : (Elem.blocked st b).permute info l = blockPermute st b info l := by rw [Elem.permute]
      rw [Nat.add_comm, hb, blockPermute_get st b ha info l hl j o hi, Elem.permute, Elem.dim]
    | mixed es =>
      obtain ⟨e1, o2, h1, h2, h3⟩ := part_mixed hp
      rw [Elem.All] at ha
      rw [Elem.dim] at hl
      have hsum := sum_take_lt es i e1 h1
      have hdm := dims_eq es
      have hlen : ((l.drop ((es.take i).map Elem.dim).sum).take e1.dim).length = e1.dim := by
        rw [List.length_take, List.length_drop]; omega
      have hj' := part_lt h2 hj
      rw [Elem.permute, h3, Nat.add_assoc, permuteList_get info es ha l hl i e1 h1 _ hj',
        ih (Alls_mem ha (List.mem_of_getElem? h1)) h2 _ hlen]
      congr 2
      unfold pick
      apply List.map_congr_left
      intro i' hi'
      have := part_lt h2 (List.mem_range.mp hi')
      rw [List.getD_eq_getElem?_getD, List.getD_eq_getElem?_getD, List.getElem?_take, if_pos this, List.getElem?_drop,
        Nat.add_assoc]

/-! ## Permutations of the dofs of an entity -/

theorem perm_block {f g : Nat → Option Nat} (ds : List Nat) (bs : Nat)
    (h : ∀ k, k < bs → (ds.filterMap fun x => f (0 + x * bs + k)).Perm (ds.filterMap fun x => g (0 + x * bs + k))) :
    ((ds.flatMap fun x => (List.range bs).map fun b => 0 + x * bs + b).filterMap f).Perm
      ((ds.flatMap fun x => (List.range bs).map fun b => 0 + x * bs + b).filterMap g) := by
  have key : ∀ f : Nat → Option Nat, ((ds.flatMap fun x => (List.range bs).map fun b => 0 + x * bs + b).filterMap f).Perm
      ((List.range bs).flatMap fun k => ds.filterMap fun x => f (0 + x * bs + k)) := by
    intro f
    clear h
    induction ds with
    | nil => simp
    | cons a ds ih =>
      rw [List.flatMap_cons, List.filterMap_append]
      have h2 : ((List.range bs).flatMap fun k => (a :: ds).filterMap fun x => f (0 + x * bs + k)) =
          (List.range bs).flatMap fun k => (f (0 + a * bs + k)).toList ++ ds.filterMap fun x => f (0 + x * bs + k) := by
        apply List.flatMap_congr
        intro k _
        rw [List.filterMap_cons]
        cases f (0 + a * bs + k) <;> rfl
      rw [h2]
      refine List.Perm.trans ?_ (List.flatMap_append_perm _ _ _)
      refine List.Perm.append (List.Perm.of_eq ?_) ih
      · rw [List.filterMap_map]
        induction List.range bs with
        | nil => rfl
        | cons c cs ih3 =>
          rw [List.filterMap_cons, List.flatMap_cons, ← ih3]
          simp only [Function.comp]
          cases f (0 + a * bs + c) <;> rfl
  exact (key f).trans ((List.Perm.flatMap_left _ fun k hk => h k (List.mem_range.mp hk)).trans (key g).symm)

theorem basix_entity {b : Basix} (h : b.Good sh et) (info : Nat) (l : List Nat) (hl : l.length = b.dim) (d s : Nat) :
    ((slot b.ed d s).filterMap fun i => (b.permute info l)[i]?).Perm ((slot b.ed d s).filterMap fun i => l[i]?) := by
  unfold Basix.permute
  cases hb : b.perm with
  | none => exact List.Perm.refl _
  | some f => exact (h.perm f hb info l hl).2 d s

theorem pick_component (l : List Nat) (bs n k x : Nat) (hk : k < bs) (hl : l.length = bs * n) : (pick l k bs n)[x]? = l[bs * x + k]? := by
  by_cases hx : x < n
  · have := Nat.mul_le_mul_left bs hx
    rw [Nat.mul_succ] at this
    rw [pick_get l k bs n x hx (by omega), Nat.add_comm]
  · have := Nat.mul_le_mul_left bs (Nat.le_of_not_lt hx)
    rw [List.getElem?_eq_none (by rw [pick_length]; omega), List.getElem?_eq_none (by omega)]

theorem blockPermute_id (bs : Nat) (b : Basix) (hg : b.Good sh et) (h : b.perm = none) (hbs : 0 < bs) (info : Nat) (l : List Nat)
    (hl : l.length = bs * b.dim) : blockPermute bs b info l = l := by
  apply List.ext_getElem?
  intro i
  have := blockPermute_get bs b hg info l hl (i / bs) (i % bs) (Nat.mod_lt _ hbs)
  rw [Nat.div_add_mod] at this
  rw [this]
  unfold Basix.permute
  rw [h]
  simp only
  rw [pick_component l bs b.dim (i % bs) (i / bs) (Nat.mod_lt _ hbs) hl, Nat.div_add_mod]

mutual
/-- The dofs of an entity are permuted among themselves. -/
theorem perm_entity (info : Nat) {d s : Nat} (hs : s < sh.getD d 0) : ∀ e : Elem, e.Ok sh → e.All (Basix.Good sh et) →
    ∀ l : List Nat, l.length = e.dim →
    ((full e d s).filterMap fun i => (e.permute info l)[i]?).Perm ((full e d s).filterMap fun i => l[i]?)
  | .base b, _, ha, l, hl => by
    rw [full_one rfl, Elem.permute]
    exact basix_entity ha info l hl d s
  | .blocked bs b, _, ha, l, hl => by
    rw [Elem.permute]
    rw [Elem.dim] at hl
    apply perm_block
    intro k hk
    have hk' : k < bs := hk
    have h1 : ∀ x, 0 + x * (Elem.blocked bs b).bs + k = bs * x + k := by intro x; rw [Elem.bs, Nat.mul_comm]; omega
    simp only [h1]
    simp only [blockPermute_get bs b ha info l hl _ k hk', ← pick_component l bs b.dim k _ hk' hl]
    exact basix_entity ha info _ (pick_length _ _ _ _) d s
  | .mixed es, h, ha, l, hl => by
    rw [full_mixed h hs, Elem.permute]
    rw [Elem.Ok] at h
    rw [Elem.dim] at hl
    have := perm_entities info hs es 0 h.2 ha l hl
    simp only [Nat.sub_zero] at this
    exact this
theorem perm_entities (info : Nat) {d s : Nat} (hs : s < sh.getD d 0) : ∀ (es : List Elem) (o : Nat), Oks sh es →
    Alls (Basix.Good sh et) es → ∀ l : List Nat, l.length = dims es →
    ((fulls es o d s).filterMap fun i => (permuteList es info l)[i - o]?).Perm ((fulls es o d s).filterMap fun i => l[i - o]?)
  | [], _, _, _, _, _ => List.Perm.refl _
  | e :: es, o, h, ha, l, hl => by
    rw [Oks] at h
    rw [Alls] at ha
    rw [dims] at hl
    have hal := permute_length info e ha.1 (l.take e.dim) (by rw [List.length_take]; omega)
    rw [fulls_cons, List.filterMap_append, List.filterMap_append, List.filterMap_map, List.filterMap_map, permuteList]
    have h1 := perm_entity info hs e h.1 ha.1 (l.take e.dim) (by rw [List.length_take]; omega)
    have h2 := perm_entities info hs es (o + e.dim) h.2 ha.2 (l.drop e.dim) (by rw [List.length_drop]; omega)
    refine List.Perm.append ?_ ?_
    · rw [List.filterMap_congr (g := fun i => (e.permute info (l.take e.dim))[i]?), List.filterMap_congr (f := (fun i => l[i - o]?) ∘ fun x => o + x)
        (g := fun i => (l.take e.dim)[i]?)]
      · exact h1
      · intro x hx
        have := full_lt hs e h.1 ha.1 hx
        simp only [Function.comp, Nat.add_sub_cancel_left]
        rw [List.getElem?_take, if_pos this]
      · intro x hx
        have := full_lt hs e h.1 ha.1 hx
        simp only [Function.comp, Nat.add_sub_cancel_left]
        rw [List.getElem?_append_left (by omega)]
    · rw [List.filterMap_congr (g := fun i => (permuteList es info (l.drop e.dim))[i - (o + e.dim)]?),
        List.filterMap_congr (f := fun i => l[i - o]?) (g := fun i => (l.drop e.dim)[i - (o + e.dim)]?)]
      · exact h2
      · intro x hx
        have := fulls_lt hs es _ h.2 ha.2 hx
        rw [List.getElem?_drop]
        congr 1
        omega
      · intro x hx
        have := fulls_lt hs es _ h.2 ha.2 hx
        rw [List.getElem?_append_right (by omega), hal]
        congr 1
        omega
end

end Verif.SubSpace
