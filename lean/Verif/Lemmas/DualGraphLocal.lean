import Verif.Model.DualGraph
import Verif.Props.C37_EntityNumbering
import Verif.Lemmas.BucketFill
import Verif.Lemmas.Pack
import Verif.Lemmas.StdAlg
/-! # Facet table and runs of equal facets -/
namespace Verif.DualGraph
open Verif.Std Verif.Offsets Verif.LocalRange Verif.Spec Verif.Props Verif.EntityNumbering

/-! ### Sorted facets -/

theorem ce_perm (a b : Int) (l : List Int) : (min a b :: max a b :: l).Perm (a :: b :: l) := by
  rcases le_total a b with h | h
  · rw [min_eq_left h, max_eq_right h]
  · rw [min_eq_right h, max_eq_left h]; exact List.Perm.swap _ _ _

theorem sortFacet_perm (l : List Int) : (sortFacet l).Perm l := by
  unfold sortFacet
  split
  · exact ce_perm _ _ _
  · rename_i a b c
    refine (ce_perm _ _ _).trans ?_
    refine (List.Perm.cons _ (ce_perm _ _ _)).trans ?_
    exact ce_perm _ _ _
  · rename_i a b c d
    dsimp only
    -- undo (1,2)
    refine (List.Perm.cons _ (ce_perm _ _ _)).trans ?_
    -- a2, b2, c2, d2
    refine (List.Perm.trans (List.Perm.cons _ (List.Perm.swap _ _ _)) ?_)
    refine (ce_perm _ _ _).trans ?_
    refine (List.Perm.cons _ (List.Perm.cons _ (ce_perm _ _ []))).trans ?_
    -- a1, c1, b1, d1
    refine (List.Perm.trans (List.Perm.cons _ (List.Perm.swap _ _ _)) ?_)
    refine (ce_perm _ _ _).trans ?_
    exact List.Perm.cons _ (List.Perm.cons _ (ce_perm _ _ []))
  · exact sort_perm _ _

theorem sortFacet_sorted (l : List Int) : (sortFacet l).Pairwise (· ≤ ·) := by
  unfold sortFacet
  split
  · simp
  · simp
    omega
  · simp
    omega
  · have := sort_sorted (fun a b : Int => decide (a ≤ b)) (by intro a b c h1 h2; simp at *; omega)
      (by intro a b; simp; omega) l
    exact this.imp (by intro a b h; simpa using h)

theorem sortFacet_eq_iff (l l' : List Int) : sortFacet l = sortFacet l' ↔ l.Perm l' := by
  constructor
  · intro h
    exact (sortFacet_perm l).symm.trans ((List.Perm.of_eq h).trans (sortFacet_perm l'))
  · intro h
    exact List.Perm.eq_of_pairwise (fun a b _ _ h1 h2 => le_antisymm h1 h2) (sortFacet_sorted l) (sortFacet_sorted l')
      ((sortFacet_perm l).trans (h.trans (sortFacet_perm l').symm))

theorem facetRow_filter (m : Nat) (vs : List Int) (h : ∀ v ∈ vs, 0 ≤ v) :
    (facetRow m vs).filter (fun v => decide (0 ≤ v)) = sortFacet vs := by
  unfold facetRow
  rw [List.filter_append, List.filter_eq_self.mpr, List.filter_eq_nil_iff.mpr, List.append_nil]
  · intro a ha; rw [List.eq_of_mem_replicate ha]; decide
  · intro a ha; simpa using h a ((sortFacet_perm vs).mem_iff.mp ha)

theorem facetRow_eq_iff (m : Nat) (vs vs' : List Int) (h : ∀ v ∈ vs, 0 ≤ v) (h' : ∀ v ∈ vs', 0 ≤ v) :
    facetRow m vs = facetRow m vs' ↔ vs.Perm vs' := by
  constructor
  · intro he
    rw [← sortFacet_eq_iff, ← facetRow_filter m vs h, ← facetRow_filter m vs' h', he]
  · intro hp
    unfold facetRow
    rw [(sortFacet_eq_iff vs vs').mpr hp, hp.length_eq]

theorem facetRow_pad (m k : Nat) (vs : List Int) (h : vs.length ≤ m) :
    facetRow m vs ++ List.replicate k (-1) = facetRow (m + k) vs := by
  unfold facetRow
  rw [List.append_assoc, List.replicate_append_replicate]
  congr 2; omega

theorem facetRow_head (m : Nat) (vs : List Int) (hne : vs ≠ []) (h : ∀ v ∈ vs, 0 ≤ v) :
    ∃ a, (facetRow m vs).head? = some a ∧ a ∈ vs ∧ 0 ≤ a := by
  have hp := sortFacet_perm vs
  cases hs : sortFacet vs with
  | nil => rw [hs] at hp; exact absurd hp.symm.eq_nil hne
  | cons a l =>
    have ha : a ∈ vs := hp.mem_iff.mp (by rw [hs]; simp)
    exact ⟨a, by simp [facetRow, hs], ha, h a ha⟩

/-! ### Positions of facet instances -/

/-- Facet `f` of cell `c` of type `t`. -/
def Inst (ls : List CellList) (t c f : Nat) (cl : CellList) : Prop :=
  ls[t]? = some cl ∧ c < cl.cells.length ∧ f < cl.facets.length

/-- Row of the table for an instance. -/
def instPos (ls : List CellList) (cl : CellList) (t c f : Nat) : Nat := facetOffset ls t + c * cl.facets.length + f

theorem facetOffset_cons (cl : CellList) (ls : List CellList) (k : Nat) :
    facetOffset (cl :: ls) (k + 1) = cl.cells.length * cl.facets.length + facetOffset ls k := by
  unfold facetOffset; simp

theorem cellOffset_cons (cl : CellList) (ls : List CellList) (k : Nat) :
    cellOffset (cl :: ls) (k + 1) = cl.cells.length + cellOffset ls k := by
  unfold cellOffset; simp

theorem instPos_lt_count {cl : CellList} {c f : Nat} (hc : c < cl.cells.length) (hf : f < cl.facets.length) :
    c * cl.facets.length + f < cl.cells.length * cl.facets.length := by
  have := Nat.mul_le_mul_right cl.facets.length (show c + 1 ≤ _ from hc)
  rw [Nat.succ_mul] at this; omega

theorem inst_exists (ls : List CellList) (i : Nat) (hi : i < facetOffset ls ls.length) :
    ∃ t c f cl, Inst ls t c f cl ∧ i = instPos ls cl t c f := by
  induction ls generalizing i with
  | nil => simp [facetOffset] at hi
  | cons cl ls ih =>
    rw [List.length_cons, facetOffset_cons] at hi
    by_cases h : i < cl.cells.length * cl.facets.length
    · have hm : 0 < cl.facets.length := by
        rcases Nat.eq_zero_or_pos cl.facets.length with h0 | h0
        · simp [h0] at h
        · exact h0
      refine ⟨0, i / cl.facets.length, i % cl.facets.length, cl, ⟨rfl, ?_, Nat.mod_lt _ hm⟩, ?_⟩
      · exact Nat.div_lt_of_lt_mul (by rw [Nat.mul_comm]; exact h)
      · have : facetOffset (cl :: ls) 0 = 0 := rfl
        unfold instPos
        rw [this, Nat.zero_add, Nat.mul_comm]; exact (Nat.div_add_mod _ _).symm
    · obtain ⟨t, c, f, cl', h1, h2⟩ := ih (i - cl.cells.length * cl.facets.length) (by omega)
      refine ⟨t + 1, c, f, cl', ⟨by simpa using h1.1, h1.2⟩, ?_⟩
      unfold instPos at h2 ⊢
      rw [facetOffset_cons]; omega

theorem instPos_lt {ls : List CellList} {t c f : Nat} {cl : CellList} (h : Inst ls t c f cl) :
    instPos ls cl t c f < facetOffset ls ls.length := by
  induction ls generalizing t with
  | nil => simp [Inst] at h
  | cons cl' ls ih =>
    rw [List.length_cons, facetOffset_cons]
    obtain ⟨h1, h2, h3⟩ := h
    cases t with
    | zero =>
      simp only [List.getElem?_cons_zero, Option.some.injEq] at h1
      subst h1
      have := instPos_lt_count h2 h3
      have h0 : facetOffset (cl' :: ls) 0 = 0 := rfl
      unfold instPos; omega
    | succ t =>
      have := ih (t := t) ⟨by simpa using h1, h2, h3⟩
      unfold instPos at this ⊢
      rw [facetOffset_cons]; omega

theorem instPos_inj {ls : List CellList} {t c f t' c' f' : Nat} {cl cl' : CellList} (h : Inst ls t c f cl)
    (h' : Inst ls t' c' f' cl') (he : instPos ls cl t c f = instPos ls cl' t' c' f') : t = t' ∧ c = c' ∧ f = f' := by
  induction ls generalizing t t' with
  | nil => simp [Inst] at h
  | cons cl0 ls ih =>
    obtain ⟨h1, h2, h3⟩ := h
    obtain ⟨h1', h2', h3'⟩ := h'
    have h0 : facetOffset (cl0 :: ls) 0 = 0 := rfl
    cases t with
    | zero =>
      simp only [List.getElem?_cons_zero, Option.some.injEq] at h1
      subst h1
      have hlt := instPos_lt_count h2 h3
      cases t' with
      | zero =>
        simp only [List.getElem?_cons_zero, Option.some.injEq] at h1'
        subst h1'
        unfold instPos at he
        have hm : 0 < cl0.facets.length := by omega
        have e1 : c * cl0.facets.length + f = c' * cl0.facets.length + f' := by omega
        have hc : c = c' := by
          have := congrArg (· / cl0.facets.length) e1
          simp only [Nat.mul_comm _ cl0.facets.length, Nat.mul_add_div hm, Nat.div_eq_of_lt h3, Nat.div_eq_of_lt h3'] at this
          omega
        subst hc
        exact ⟨rfl, rfl, by omega⟩
      | succ t' =>
        unfold instPos at he
        rw [facetOffset_cons] at he
        omega
    | succ t =>
      cases t' with
      | zero =>
        simp only [List.getElem?_cons_zero, Option.some.injEq] at h1'
        subst h1'
        have hlt := instPos_lt_count h2' h3'
        unfold instPos at he
        rw [facetOffset_cons] at he
        omega
      | succ t' =>
        have := ih (t := t) (t' := t') ⟨by simpa using h1, h2, h3⟩ ⟨by simpa using h1', h2', h3'⟩ (by
          unfold instPos at he ⊢
          rw [facetOffset_cons, facetOffset_cons] at he
          omega)
        exact ⟨by omega, this.2⟩

/-! ### The table -/

theorem mem_threadWrites (m threads : Nat) (ht : 0 < threads) (cl : CellList) (co fo : Nat) (i : Nat) (v : List Int × Nat) :
    (i, v) ∈ ((List.range threads).flatMap fun t => threadWrites m cl co fo (localRange t cl.cells.length threads)) ↔
      ∃ c f, c < cl.cells.length ∧ f < cl.facets.length ∧ i = fo + c * cl.facets.length + f ∧
        v = (facetRow m (cl.verts c f), co + c) := by
  have htile := C01_local_range_tiles cl.cells.length threads ht
  unfold threadWrites
  simp only [List.mem_flatMap, List.mem_map, List.mem_range, Prod.mk.injEq]
  constructor
  · rintro ⟨t, h1, c, h2, e, h3, rfl, rfl⟩
    refine ⟨(localRange t cl.cells.length threads).1 + c, e, ?_, h3, by rw [Nat.add_mul]; omega, ?_⟩
    · have hle : ∀ t, t < threads → (localRange t cl.cells.length threads).2 ≤ cl.cells.length := by
        intro t ht'
        obtain ⟨d, hd⟩ := Nat.exists_eq_add_of_le (show t + 1 ≤ threads from ht')
        induction d generalizing t with
        | zero => rw [htile.stop t (by omega)]
        | succ d ih =>
          have := ih (t + 1) (by omega) (by omega)
          have h4 := htile.glued t (by omega)
          have h5 := htile.ordered (t + 1) (by omega)
          omega
      have := hle t h1
      omega
    · congr 1; omega
  · rintro ⟨c, e, h1, h2, rfl, rfl⟩
    obtain ⟨t, ⟨h3, h4⟩, _⟩ := C01_exactly_one_rank cl.cells.length threads c ht h1
    unfold InRange at h4
    have hcc : (localRange t cl.cells.length threads).1 + (c - (localRange t cl.cells.length threads).1) = c := by omega
    refine ⟨t, h3, c - (localRange t cl.cells.length threads).1, by omega, e, h2, ?_, ?_⟩
    · rw [Nat.add_assoc fo, ← Nat.add_mul, hcc]
    · rw [hcc]; congr 1; omega

theorem mem_allWrites (threads : Nat) (ht : 0 < threads) (ls : List CellList) (i : Nat) (v : List Int × Nat) :
    (i, v) ∈ allWrites threads ls ↔ ∃ t c f cl, Inst ls t c f cl ∧ i = instPos ls cl t c f ∧
      v = (facetRow (maxVerts ls) (cl.verts c f), cellOffset ls t + c) := by
  unfold allWrites
  rw [List.mem_flatMap]
  constructor
  · rintro ⟨⟨cl, t⟩, hm, h⟩
    obtain ⟨c, f, h1, h2, h3, h4⟩ := (mem_threadWrites _ _ ht _ _ _ _ _).mp h
    exact ⟨t, c, f, cl, ⟨List.mem_zipIdx_iff_getElem?.mp hm, h1, h2⟩, h3, h4⟩
  · rintro ⟨t, c, f, cl, ⟨h0, h1, h2⟩, h3, h4⟩
    exact ⟨(cl, t), List.mem_zipIdx_iff_getElem?.mpr h0, (mem_threadWrites _ _ ht _ _ _ _ _).mpr ⟨c, f, h1, h2, h3, h4⟩⟩

/-- Requirements: at least one thread per rank, every schedule executes all writes, every facet has a vertex, and the orders
are the result of sorting. -/
structure Ok (I : Input) : Prop where
  threads : ∀ r, r < I.P → 0 < I.threads r
  sched : ∀ r, r < I.P → ∀ ws, (I.sched r ws).Perm ws
  facets : ∀ r, r < I.P → ∀ cl ∈ I.types r, ∀ f ∈ cl.facets, f ≠ []
  order : ∀ r, r < I.P → (I.order r).Perm (List.range (table I r).length)
  order_sorted : ∀ r, r < I.P → (I.order r).Pairwise fun i j => LexLe (fkey I r i) (fkey I r j)
  orderPO : ∀ r, r < I.P → (I.orderPO r).Perm (List.range (recvBuffer I r).length)
  orderPO_sorted : ∀ r, r < I.P → (I.orderPO r).Pairwise fun i j => LexLe (rkey I r i) (rkey I r j)

variable {I : Input}

theorem table_length (r : Nat) : (table I r).length = facetOffset (I.types r) (I.types r).length := by
  unfold table; rw [runWrites_length]; simp

theorem table_get (h : Ok I) {r : Nat} (hr : r < I.P) {t c f : Nat} {cl : CellList} (hi : Inst (I.types r) t c f cl) :
    (table I r)[instPos (I.types r) cl t c f]? =
      some (facetRow (maxVerts (I.types r)) (cl.verts c f), cellOffset (I.types r) t + c) := by
  unfold table
  apply runWrites_written
  · simpa using instPos_lt hi
  · exact (h.sched r hr _).mem_iff.mpr ((mem_allWrites _ (h.threads r hr) _ _ _).mpr ⟨t, c, f, cl, hi, rfl, rfl⟩)
  · intro b hb
    obtain ⟨t', c', f', cl', h1, h2, h3⟩ := (mem_allWrites _ (h.threads r hr) _ _ _).mp ((h.sched r hr _).mem_iff.mp hb)
    obtain ⟨rfl, rfl, rfl⟩ := instPos_inj hi h1 h2
    have := hi.1.symm.trans h1.1
    obtain rfl := Option.some.inj this
    exact h3

/-! ### Runs -/

section runs
variable (key : Nat → List Int)

theorem lexLe_antisymm' : ∀ a b : List Int, LexLe a b → LexLe b a → a = b
  | [], [], _, _ => rfl
  | [], _ :: _, _, h => by simp [LexLe] at h
  | _ :: _, [], h, _ => by simp [LexLe] at h
  | a :: as, b :: bs, h1, h2 => by
    simp only [LexLe] at h1 h2
    rcases h1 with h1 | ⟨rfl, h1⟩
    · rcases h2 with h2 | ⟨rfl, h2⟩ <;> omega
    · rcases h2 with h2 | ⟨_, h2⟩
      · omega
      · rw [lexLe_antisymm' as bs h1 h2]

theorem mem_pairs (l : List Nat) (x y : Nat) (hn : l.Nodup) :
    ((x, y) ∈ pairs l ∨ (y, x) ∈ pairs l) ↔ x ∈ l ∧ y ∈ l ∧ x ≠ y := by
  induction l with
  | nil => simp [pairs]
  | cons a l ih =>
    have hn' := List.nodup_cons.mp hn
    have ih := ih hn'.2
    simp only [pairs, List.mem_append, List.mem_map, Prod.mk.injEq, List.mem_cons]
    constructor
    · rintro ((⟨b, hb, rfl, rfl⟩ | h) | (⟨b, hb, rfl, rfl⟩ | h))
      · exact ⟨Or.inl rfl, Or.inr hb, by rintro rfl; exact hn'.1 hb⟩
      · have := ih.mp (Or.inl h); exact ⟨Or.inr this.1, Or.inr this.2.1, this.2.2⟩
      · exact ⟨Or.inr hb, Or.inl rfl, by rintro rfl; exact hn'.1 hb⟩
      · have := ih.mp (Or.inr h); exact ⟨Or.inr this.1, Or.inr this.2.1, this.2.2⟩
    · rintro ⟨rfl | hx, rfl | hy, hne⟩
      · exact absurd rfl hne
      · exact Or.inl (Or.inl ⟨y, hy, rfl, rfl⟩)
      · exact Or.inr (Or.inl ⟨x, hx, rfl, rfl⟩)
      · rcases ih.mpr ⟨hx, hy, hne⟩ with h | h
        · exact Or.inl (Or.inr h)
        · exact Or.inr (Or.inr h)

theorem mem_of_pairs {l : List Nat} {x y : Nat} (h : (x, y) ∈ pairs l) : x ∈ l ∧ y ∈ l := by
  induction l with
  | nil => simp [pairs] at h
  | cons a l ih =>
    simp only [pairs, List.mem_append, List.mem_map, Prod.mk.injEq] at h
    rcases h with ⟨b, hb, rfl, rfl⟩ | h
    · simp [hb]
    · have := ih h; simp [this.1, this.2]

/-- What the loop over runs guarantees. -/
structure RunsOk (order : List Nat) (rs : List (List Nat)) : Prop where
  flat : rs.flatten = order
  same : ∀ l ∈ rs, ∀ x ∈ l, ∀ y ∈ l, key x = key y
  diff : rs.Pairwise fun l l' => ∀ x ∈ l, ∀ y ∈ l', key x ≠ key y

theorem runsAux_ok (fuel : Nat) (order : List Nat) (hf : order.length ≤ fuel)
    (hs : order.Pairwise fun i j => LexLe (key i) (key j)) : RunsOk key order (runsAux key fuel order) := by
  induction fuel generalizing order with
  | zero =>
    obtain rfl : order = [] := List.eq_nil_of_length_eq_zero (by omega)
    exact ⟨rfl, by simp [runsAux], by simp [runsAux]⟩
  | succ fuel ih =>
    cases order with
    | nil => exact ⟨rfl, by simp [runsAux], by simp [runsAux]⟩
    | cons a rest =>
      have hdrop : (a :: rest).dropWhile (fun i => decide (key a = key i)) =
          rest.dropWhile (fun i => decide (key a = key i)) := by simp
      have hlen : (rest.dropWhile (fun i => decide (key a = key i))).length ≤ fuel := by
        have := (List.dropWhile_sublist (fun i => decide (key a = key i)) (l := rest)).length_le
        simp at hf; omega
      have hsub : (rest.dropWhile (fun i => decide (key a = key i))).Pairwise fun i j => LexLe (key i) (key j) :=
        ((List.pairwise_cons.mp hs).2).sublist (List.dropWhile_sublist _)
      have := ih _ hlen hsub
      simp only [runsAux]
      rw [hdrop]
      have hne : ∀ y ∈ rest.dropWhile (fun i => decide (key a = key i)), key y ≠ key a := by
        intro y hy he
        cases hd : rest.dropWhile (fun i => decide (key a = key i)) with
        | nil => rw [hd] at hy; simp at hy
        | cons b l =>
          have hb : ¬ key a = key b := by
            have := List.head?_dropWhile_not (fun i => decide (key a = key i)) rest
            rw [hd] at this
            simpa using this
          rw [hd] at hy hsub
          have hab : LexLe (key a) (key b) := (List.pairwise_cons.mp hs).1 b
            ((List.dropWhile_sublist (fun i => decide (key a = key i)) (l := rest)).mem (by rw [hd]; simp))
          rcases List.mem_cons.mp hy with rfl | hy
          · exact hb he.symm
          · have hby : LexLe (key b) (key y) := (List.pairwise_cons.mp hsub).1 y hy
            rw [he] at hby
            exact hb (lexLe_antisymm' _ _ hab hby)
      refine ⟨?_, ?_, ?_⟩
      · rw [List.flatten_cons, this.flat, ← hdrop]
        exact List.takeWhile_append_dropWhile
      · intro l hl x hx y hy
        rcases List.mem_cons.mp hl with rfl | hl
        · have h1 := List.mem_takeWhile_imp hx
          have h2 := List.mem_takeWhile_imp hy
          simp only [decide_eq_true_eq] at h1 h2
          rw [← h1, ← h2]
        · exact this.same l hl x hx y hy
      · rw [List.pairwise_cons]
        refine ⟨?_, this.diff⟩
        intro l hl x hx y hy he
        have h1 := List.mem_takeWhile_imp hx
        simp only [decide_eq_true_eq] at h1
        refine hne y ?_ (he.symm.trans h1.symm)
        rw [← this.flat]
        exact List.mem_flatten.mpr ⟨l, hl, hy⟩

theorem runs_ok (order : List Nat) (hs : order.Pairwise fun i j => LexLe (key i) (key j)) :
    RunsOk key order (runs key order) := runsAux_ok key _ _ (le_refl _) hs

/-- Pairs of equal facets, in both directions. -/
def bothWays (rs : List (List Nat)) : List (Nat × Nat) :=
  rs.flatMap fun l => (pairs l).flatMap fun p => [(p.1, p.2), (p.2, p.1)]

theorem mem_bothWays {order : List Nat} {rs : List (List Nat)} (h : RunsOk key order rs) (hn : order.Nodup) (x y : Nat) :
    (x, y) ∈ bothWays rs ↔ x ∈ order ∧ y ∈ order ∧ x ≠ y ∧ key x = key y := by
  have hn' : ∀ l ∈ rs, l.Nodup := by
    intro l hl
    rw [← h.flat] at hn
    exact (List.nodup_flatten.mp hn).1 l hl
  unfold bothWays
  simp only [List.mem_flatMap, List.mem_cons, List.not_mem_nil, or_false, Prod.mk.injEq]
  constructor
  · rintro ⟨l, hl, ⟨a, b⟩, hp, hab⟩
    have hm : x ∈ l ∧ y ∈ l ∧ x ≠ y := by
      rw [← mem_pairs l x y (hn' l hl)]
      rcases hab with ⟨rfl, rfl⟩ | ⟨rfl, rfl⟩
      · exact Or.inl hp
      · exact Or.inr hp
    have hin : ∀ z ∈ l, z ∈ order := fun z hz => by rw [← h.flat]; exact List.mem_flatten.mpr ⟨l, hl, hz⟩
    exact ⟨hin x hm.1, hin y hm.2.1, hm.2.2, h.same l hl x hm.1 y hm.2.1⟩
  · rintro ⟨hx, hy, hne, hk⟩
    rw [← h.flat] at hx hy
    obtain ⟨l, hl, hxl⟩ := List.mem_flatten.mp hx
    obtain ⟨l', hl', hyl⟩ := List.mem_flatten.mp hy
    have hll : l = l' := by
      by_contra hcon
      have hd := h.diff
      haveI : Std.Symm (fun l l' : List Nat => l ≠ l' → ∀ x ∈ l, ∀ y ∈ l', key x ≠ key y) :=
        ⟨fun a b hab hne x hx y hy he => hab (Ne.symm hne) y hy x hx he.symm⟩
      have hd' : rs.Pairwise fun l l' => l ≠ l' → ∀ x ∈ l, ∀ y ∈ l', key x ≠ key y := by
        refine hd.imp ?_
        intro a b hab _
        exact hab
      have := List.Pairwise.forall_of_forall (fun a _ hc => absurd rfl hc) hd' hl hl' hcon x hxl y hyl
      exact this hk
    subst hll
    rcases (mem_pairs l x y (hn' l hl)).mpr ⟨hxl, hyl, hne⟩ with hp | hp
    · exact ⟨l, hl, (x, y), hp, Or.inl ⟨rfl, rfl⟩⟩
    · exact ⟨l, hl, (y, x), hp, Or.inr ⟨rfl, rfl⟩⟩

theorem pairs_both_nodup (l : List Nat) (hn : l.Nodup) : ((pairs l).flatMap fun p => [(p.1, p.2), (p.2, p.1)]).Nodup := by
  induction l with
  | nil => simp [pairs]
  | cons a l ih =>
    have hn' := List.nodup_cons.mp hn
    simp only [pairs, List.flatMap_append]
    rw [List.nodup_append]
    refine ⟨?_, ih hn'.2, ?_⟩
    · rw [List.flatMap_map, List.nodup_flatMap]
      refine ⟨?_, ?_⟩
      · intro b hb
        have : a ≠ b := by rintro rfl; exact hn'.1 hb
        simp [this]
      · refine hn'.2.imp_of_mem ?_
        intro b c hb hc hbc z h1 h2
        have hab : a ≠ b := by rintro rfl; exact hn'.1 hb
        have hac : a ≠ c := by rintro rfl; exact hn'.1 hc
        simp only [List.mem_cons, List.not_mem_nil, or_false] at h1 h2
        rcases h1 with rfl | rfl <;> rcases h2 with h2 | h2 <;> simp only [Prod.mk.injEq] at h2 <;> omega
    · intro z hz w hw he
      subst he
      simp only [List.mem_flatMap, List.mem_map, List.mem_cons, List.not_mem_nil, or_false] at hz hw
      obtain ⟨p, ⟨b, hb, rfl⟩, hz⟩ := hz
      obtain ⟨q, hq, hw⟩ := hw
      have hq' := mem_of_pairs (x := q.1) (y := q.2) hq
      rcases hz with rfl | rfl <;> rcases hw with hw | hw <;> simp only [Prod.mk.injEq] at hw
      · exact hn'.1 (hw.1 ▸ hq'.1)
      · exact hn'.1 (hw.1 ▸ hq'.2)
      · exact hn'.1 (hw.2 ▸ hq'.2)
      · exact hn'.1 (hw.2 ▸ hq'.1)

theorem bothWays_nodup {order : List Nat} {rs : List (List Nat)} (h : RunsOk key order rs) (hn : order.Nodup) :
    (bothWays rs).Nodup := by
  have hn2 := hn
  rw [← h.flat] at hn2
  have hn' := List.nodup_flatten.mp hn2
  unfold bothWays
  rw [List.nodup_flatMap]
  refine ⟨fun l hl => pairs_both_nodup l (hn'.1 l hl), ?_⟩
  refine hn'.2.imp ?_
  intro l l' hd z h1 h2
  simp only [List.mem_flatMap, List.mem_cons, List.not_mem_nil, or_false] at h1 h2
  obtain ⟨p, hp, h1⟩ := h1
  obtain ⟨q, hq, h2⟩ := h2
  have hp' := mem_of_pairs (x := p.1) (y := p.2) hp
  have hq' := mem_of_pairs (x := q.1) (y := q.2) hq
  rcases h1 with rfl | rfl <;> rcases h2 with h2 | h2 <;> simp only [Prod.mk.injEq] at h2
  · exact hd hp'.1 (h2.1 ▸ hq'.1)
  · exact hd hp'.1 (h2.1 ▸ hq'.2)
  · exact hd hp'.2 (h2.1 ▸ hq'.1)
  · exact hd hp'.2 (h2.1 ▸ hq'.2)

end runs

/-! ### The local graph -/

theorem fill_rows {α : Type} (key : α → Nat) (val : α → Nat) (l : List α) (n a : Nat) (hk : ∀ x ∈ l, key x < n) (ha : a < n) :
    (((fill key val (excl (cnt key l)) (List.replicate (excl (cnt key l) n) 0) l).2).drop (excl (cnt key l) a)).take
      (excl (cnt key l) (a + 1) - excl (cnt key l) a) = (l.filter fun x => key x == a).map val := by
  rw [fill_eq_buckets key val _ l n hk (by rw [List.length_replicate, excl_cnt_total key l n hk])]
  have hc : excl (cnt key l) = excl fun b => ((l.filter fun x => key x == b).map val).length := by
    funext b; exact excl_congr fun i _ => by rw [List.length_map, cnt_eq_length]
  rw [hc]
  exact Group.slice_flatMap_range (fun b => (l.filter fun x => key x == b).map val) n a ha

theorem table_getD {r i : Nat} (hi : i < (table I r).length) : (table I r)[i]? = some (fkey I r i, fcell I r i) := by
  unfold fkey fcell
  rw [List.getD_eq_getElem?_getD, List.getElem?_eq_getElem hi]
  rfl

theorem cellOffset_lt {ls : List CellList} {t c : Nat} {cl : CellList} (h : ls[t]? = some cl) (hc : c < cl.cells.length) :
    cellOffset ls t + c < cellOffset ls ls.length := by
  induction ls generalizing t with
  | nil => simp at h
  | cons cl' ls ih =>
    rw [List.length_cons, cellOffset_cons]
    cases t with
    | zero =>
      simp only [List.getElem?_cons_zero, Option.some.injEq] at h
      subst h
      have h0 : cellOffset (cl' :: ls) 0 = 0 := rfl
      omega
    | succ t =>
      rw [cellOffset_cons]
      have := ih (t := t) (by simpa using h)
      omega

/-- Rows of the table, as instances. -/
theorem table_inst (h : Ok I) {r : Nat} (hr : r < I.P) {i : Nat} (hi : i < (table I r).length) :
    ∃ t c f cl, Inst (I.types r) t c f cl ∧ i = instPos (I.types r) cl t c f ∧
      fkey I r i = facetRow (maxVerts (I.types r)) (cl.verts c f) ∧ fcell I r i = cellOffset (I.types r) t + c := by
  rw [table_length] at hi
  obtain ⟨t, c, f, cl, h1, rfl⟩ := inst_exists _ _ hi
  have h2 := table_get h hr h1
  rw [table_getD (by rw [table_length]; exact hi)] at h2
  have := Option.some.inj h2
  exact ⟨t, c, f, cl, h1, rfl, congrArg Prod.fst this, congrArg Prod.snd this⟩

theorem fcell_lt (h : Ok I) {r : Nat} (hr : r < I.P) {i : Nat} (hi : i < (table I r).length) : fcell I r i < numCells I r := by
  obtain ⟨t, c, f, cl, h1, -, -, h2⟩ := table_inst h hr hi
  rw [h2]
  exact cellOffset_lt h1.1 h1.2.1

theorem order_nodup (h : Ok I) {r : Nat} (hr : r < I.P) : (I.order r).Nodup := (h.order r hr).nodup_iff.mpr List.nodup_range

theorem mem_order (h : Ok I) {r : Nat} (hr : r < I.P) (i : Nat) : i ∈ I.order r ↔ i < (table I r).length := by
  rw [(h.order r hr).mem_iff, List.mem_range]

theorem localRuns_ok (h : Ok I) {r : Nat} (hr : r < I.P) : RunsOk (fkey I r) (I.order r) (localRuns I r) :=
  runs_ok _ _ (h.order_sorted r hr)

theorem localLinks_eq (r : Nat) :
    localLinks I r = (bothWays (localRuns I r)).map fun p => (fcell I r p.1, fcell I r p.2) := by
  unfold localLinks localEdges bothWays
  rw [List.flatMap_assoc, List.map_flatMap]
  apply List.flatMap_congr
  intro l _
  rw [List.flatMap_map, List.map_flatMap]
  rfl

theorem localLinks_lt (h : Ok I) {r : Nat} (hr : r < I.P) : ∀ x ∈ localLinks I r, x.1 < numCells I r := by
  intro x hx
  rw [localLinks_eq] at hx
  obtain ⟨p, hp, rfl⟩ := List.mem_map.mp hx
  have := (mem_bothWays (fkey I r) (localRuns_ok h hr) (order_nodup h hr) p.1 p.2).mp hp
  exact fcell_lt h hr ((mem_order h hr _).mp this.1)

theorem localRow_eq (h : Ok I) {r : Nat} (hr : r < I.P) {a : Nat} (ha : a < numCells I r) :
    localRow I r a = ((bothWays (localRuns I r)).filter fun p => fcell I r p.1 == a).map fun p => fcell I r p.2 := by
  unfold localRow localData localOffset
  rw [fill_rows Prod.fst Prod.snd (localLinks I r) (numCells I r) a (localLinks_lt h hr) ha, localLinks_eq, List.filter_map,
    List.map_map]
  rfl

/-- Links of the local graph. -/
theorem mem_localRow (h : Ok I) {r : Nat} (hr : r < I.P) {a : Nat} (ha : a < numCells I r) (b : Nat) :
    b ∈ localRow I r a ↔ ∃ i j, i < (table I r).length ∧ j < (table I r).length ∧ i ≠ j ∧ fkey I r i = fkey I r j ∧
      fcell I r i = a ∧ fcell I r j = b := by
  rw [localRow_eq h hr ha]
  simp only [List.mem_map, List.mem_filter, beq_iff_eq]
  constructor
  · rintro ⟨⟨i, j⟩, ⟨hm, rfl⟩, rfl⟩
    obtain ⟨h1, h2, h3, h4⟩ := (mem_bothWays (fkey I r) (localRuns_ok h hr) (order_nodup h hr) i j).mp hm
    exact ⟨i, j, (mem_order h hr _).mp h1, (mem_order h hr _).mp h2, h3, h4, rfl, rfl⟩
  · rintro ⟨i, j, h1, h2, h3, h4, rfl, rfl⟩
    exact ⟨(i, j), ⟨(mem_bothWays (fkey I r) (localRuns_ok h hr) (order_nodup h hr) i j).mpr
      ⟨(mem_order h hr _).mpr h1, (mem_order h hr _).mpr h2, h3, h4⟩, rfl⟩, rfl⟩

end Verif.DualGraph
