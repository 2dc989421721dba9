import Verif.Lemmas.AssemblyZero
/-! Matrix assembly is a sequence of insertions whose sum is the sum of the element tensors. -/
namespace Verif.Assembly
open Verif.Spec.Assemble Finset

variable {R : Type} [CommRing R] {σ : Type}

/-- One insertion: row dofs, column dofs, dense block. -/
structure Call (R : Type) where
  rows : List Nat
  cols : List Nat
  A : Nat → R

def runCalls (ms : MatSet σ R) (s : σ) (cs : List (Call R)) : σ := cs.foldl (fun s c => ms s c.rows c.cols c.A) s

theorem runCalls_append (ms : MatSet σ R) (s : σ) (cs ds : List (Call R)) :
    runCalls ms s (cs ++ ds) = runCalls ms (runCalls ms s cs) ds := List.foldl_append

/-- The dense block of a call as an element. -/
def Call.elem (bs1 : Nat) (c : Call R) : Elem R :=
  { rows := c.rows, cols := c.cols, val := fun r s => c.A (r * (bs1 * c.cols.length) + s) }

/-- Is the entry removed? -/
def removed (lifting : Bool) (bc0 bc1 : List Bool) (p q : Nat) : Prop :=
  lifting = false ∧ (marked bc0 p ∨ marked bc1 q)

open Classical in
/-- The insertions `cs` stand for the elements `es`: they touch only pairs of dofs of some element, and they
add up to the elements without the removed entries. -/
structure Good (bs0 bs1 : Nat) (lifting : Bool) (bc0 bc1 : List Bool) (cs : List (Call R)) (es : List (Elem R)) : Prop where
  cover : ∀ c ∈ cs, ∀ i ∈ c.rows, ∀ j ∈ c.cols, ∃ e ∈ es, i ∈ e.rows ∧ j ∈ e.cols
  sum : ∀ i k j l, k < bs0 → l < bs1 → (lifting = true → marked bc1 (bs1 * j + l)) →
    localOp bs0 bs1 (cs.map (Call.elem bs1)) i k j l =
      if removed lifting bc0 bc1 (bs0 * i + k) (bs1 * j + l) then 0 else localOp bs0 bs1 es i k j l

theorem localOp_append (bs0 bs1 : Nat) (es fs : List (Elem R)) (i k j l : Nat) :
    localOp bs0 bs1 (es ++ fs) i k j l = localOp bs0 bs1 es i k j l + localOp bs0 bs1 fs i k j l := by
  simp [localOp]

theorem localOp_cons (bs0 bs1 : Nat) (e : Elem R) (fs : List (Elem R)) (i k j l : Nat) :
    localOp bs0 bs1 (e :: fs) i k j l = e.entry bs0 bs1 i k j l + localOp bs0 bs1 fs i k j l := by
  simp [localOp]

variable {bs0 bs1 : Nat} {lifting : Bool} {bc0 bc1 : List Bool}

theorem Good.nil : Good (R := R) bs0 bs1 lifting bc0 bc1 [] [] :=
  ⟨by simp, by intros; simp [localOp]⟩

theorem Good.append {cs ds : List (Call R)} {es fs : List (Elem R)} (h1 : Good bs0 bs1 lifting bc0 bc1 cs es)
    (h2 : Good bs0 bs1 lifting bc0 bc1 ds fs) : Good bs0 bs1 lifting bc0 bc1 (cs ++ ds) (es ++ fs) := by
  refine ⟨?_, ?_⟩
  · intro c hc i hi j hj
    rcases List.mem_append.mp hc with hc | hc
    · obtain ⟨e, he, h⟩ := h1.cover c hc i hi j hj
      exact ⟨e, by simp [he], h⟩
    · obtain ⟨e, he, h⟩ := h2.cover c hc i hi j hj
      exact ⟨e, by simp [he], h⟩
  · intro i k j l hk hl hm
    rw [List.map_append, localOp_append, localOp_append, h1.sum i k j l hk hl hm, h2.sum i k j l hk hl hm]
    split <;> simp

/-- `f` performs some insertions that stand for `es`. -/
def Does (bs0 bs1 : Nat) (lifting : Bool) (bc0 bc1 : List Bool) (f : ∀ σ : Type, MatSet σ R → σ → σ) (es : List (Elem R)) : Prop :=
  ∃ cs, (∀ (σ : Type) (ms : MatSet σ R) (s : σ), f σ ms s = runCalls ms s cs) ∧ Good bs0 bs1 lifting bc0 bc1 cs es

theorem does_foldl {α : Type} (l : List α) (f : α → ∀ σ : Type, MatSet σ R → σ → σ) (es : α → List (Elem R))
    (h : ∀ x ∈ l, Does bs0 bs1 lifting bc0 bc1 (f x) (es x)) :
    Does bs0 bs1 lifting bc0 bc1 (fun σ ms s => l.foldl (fun s x => f x σ ms s) s) (l.flatMap es) := by
  induction l with
  | nil => exact ⟨[], fun σ ms s => rfl, Good.nil⟩
  | cons x l ih =>
    obtain ⟨cs, h1, h2⟩ := h x (by simp)
    obtain ⟨ds, h3, h4⟩ := ih (fun y hy => h y (by simp [hy]))
    refine ⟨cs ++ ds, ?_, ?_⟩
    · intro σ ms s
      have := h3 σ ms (f x σ ms s)
      beta_reduce at this ⊢
      rw [List.foldl_cons, this, h1, runCalls_append]
    · rw [List.flatMap_cons]; exact h2.append h4

/-! ## Cells and entities -/

theorem entry_congr (e e' : Elem R) (i k j l : Nat) (hr : e.rows = e'.rows) (hc : e.cols = e'.cols)
    (hv : ∀ a b, e.rows[a]? = some i → e.cols[b]? = some j →
      e.val (bs0 * a + k) (bs1 * b + l) = e'.val (bs0 * a + k) (bs1 * b + l)) :
    e.entry bs0 bs1 i k j l = e'.entry bs0 bs1 i k j l := by
  unfold Elem.entry
  rw [← hr, ← hc]
  apply sum_congr rfl
  intro a _
  apply sum_congr rfl
  intro b _
  split
  · rename_i h; exact hv a b h.1 h.2
  · rfl

theorem entry_zero (e : Elem R) (i k j l : Nat)
    (hv : ∀ a b, e.rows[a]? = some i → e.cols[b]? = some j → e.val (bs0 * a + k) (bs1 * b + l) = 0) :
    e.entry bs0 bs1 i k j l = 0 := by
  unfold Elem.entry
  apply sum_eq_zero
  intro a _
  apply sum_eq_zero
  intro b _
  split
  · rename_i h; exact hv a b h.1 h.2
  · rfl

theorem does_element (dm0 dm1 : Dofmap) (cell0 cell1 : Int) (A : Nat → R) (h0 : dm0.bs = bs0) (h1 : dm1.bs = bs1)
    (hw : ∀ c, (dm1.dofs c).length = dm1.width) :
    Does bs0 bs1 lifting bc0 bc1 (fun σ ms s => element ms lifting dm0 dm1 bc0 bc1 cell0 cell1 A s)
      [{ rows := dm0.dofs cell0.toNat, cols := dm1.dofs cell1.toNat,
         val := fun r s => A (r * (dm1.bs * dm1.width) + s) }] := by
  subst h0 h1
  unfold element
  simp only
  set d0 := dm0.dofs cell0.toNat
  set d1 := dm1.dofs cell1.toNat with hd1
  have hlen : d1.length = dm1.width := hw _
  by_cases hskip : lifting = true ∧ hasBc d1 bc1 dm1.bs = false
  · refine ⟨[], ?_, ?_, ?_⟩
    · intro σ ms s
      beta_reduce
      rw [if_pos (by simp [hskip.1, hskip.2])]; rfl
    · simp
    · intro i k j l hk hl hm
      have hm' := hm hskip.1
      simp only [List.map_nil, removed, hskip.1, Bool.true_eq_false, false_and, if_false]
      rw [localOp_cons]
      rw [entry_zero]
      · simp [localOp]
      · intro a b _ hb
        exfalso
        have : hasBc d1 bc1 dm1.bs = true := (hasBc_iff _ _ _).mpr ⟨j, List.mem_of_getElem? hb, l, hl, hm'⟩
        rw [hskip.2] at this
        exact absurd this (by simp)
  · refine ⟨[⟨d0, d1, if lifting then A else zeroBc dm0.bs dm1.bs bc0 bc1 d0 d1 A⟩], ?_, ?_, ?_⟩
    · intro σ ms s
      beta_reduce
      rw [if_neg (c := (lifting && !hasBc d1 bc1 dm1.bs) = true)]
      · rfl
      · intro h
        apply hskip
        simpa using h
    · intro c hc i hi j hj
      rw [List.mem_singleton] at hc
      subst hc
      exact ⟨_, List.mem_singleton.mpr rfl, hi, hj⟩
    · intro i k j l hk hl hm
      simp only [List.map_cons, List.map_nil, localOp, List.sum_cons, List.sum_nil, add_zero]
      cases hlift : lifting
      · by_cases hrem : marked bc0 (dm0.bs * i + k) ∨ marked bc1 (dm1.bs * j + l)
        · rw [if_pos (show removed false bc0 bc1 _ _ from ⟨rfl, hrem⟩)]
          apply entry_zero
          intro a b ha hb
          simp only [Call.elem, Bool.false_eq_true, if_false] at ha hb ⊢
          rw [zeroBc_get dm0.bs dm1.bs bc0 bc1 d0 d1 A a k b l i j hk hl ha hb, if_pos hrem]
        · rw [if_neg (show ¬ removed false bc0 bc1 _ _ from fun h => hrem h.2)]
          refine entry_congr (Call.elem _ _) _ _ _ _ _ rfl rfl ?_
          intro a b ha hb
          simp only [Call.elem, Bool.false_eq_true, if_false] at ha hb ⊢
          rw [zeroBc_get dm0.bs dm1.bs bc0 bc1 d0 d1 A a k b l i j hk hl ha hb, if_neg hrem, hlen]
      · simp only [removed, Bool.true_eq_false, false_and, if_false]
        refine entry_congr (Call.elem _ _) _ _ _ _ _ rfl rfl ?_
        intro a b ha hb
        simp only [Call.elem, if_true, hlen]

theorem does_cells (dm0 dm1 : Dofmap) (I : Integral R) (h0 : dm0.bs = bs0) (h1 : dm1.bs = bs1)
    (hw : ∀ c, (dm1.dofs c).length = dm1.width) :
    Does bs0 bs1 lifting bc0 bc1 (fun σ ms s => assembleCells ms lifting dm0 dm1 bc0 bc1 I s) (cellElems dm0 dm1 1 I) := by
  have := does_foldl (R := R) (bs0 := bs0) (bs1 := bs1) (lifting := lifting) (bc0 := bc0) (bc1 := bc1)
    (List.range I.dom0.length) (fun c σ ms s =>
    element ms lifting dm0 dm1 bc0 bc1 (I.dom0.getD c 0) (I.dom1.getD c 0) (I.tensor c) s) _
    (fun c _ => does_element dm0 dm1 _ _ _ h0 h1 hw)
  unfold assembleCells
  unfold cellElems
  simp only [Nat.div_one, Nat.one_mul]
  rw [List.map_eq_flatMap]
  exact this

theorem does_entities (dm0 dm1 : Dofmap) (I : Integral R) (h0 : dm0.bs = bs0) (h1 : dm1.bs = bs1)
    (hw : ∀ c, (dm1.dofs c).length = dm1.width) :
    Does bs0 bs1 lifting bc0 bc1 (fun σ ms s => assembleEntities ms lifting dm0 dm1 bc0 bc1 I s) (cellElems dm0 dm1 2 I) := by
  have := does_foldl (R := R) (bs0 := bs0) (bs1 := bs1) (lifting := lifting) (bc0 := bc0) (bc1 := bc1)
    (List.range (I.dom0.length / 2)) (fun c σ ms s =>
    element ms lifting dm0 dm1 bc0 bc1 (I.dom0.getD (2 * c) 0) (I.dom1.getD (2 * c) 0) (I.tensor c) s) _
    (fun c _ => does_element dm0 dm1 _ _ _ h0 h1 hw)
  unfold assembleEntities
  unfold cellElems
  rw [List.map_eq_flatMap]
  exact this

/-! ## Interior facets -/

theorem cellDofs_eq (dm : Dofmap) (c : Int) : cellDofs dm c = dofsOf dm c := by
  unfold cellDofs dofsOf
  by_cases h : 0 ≤ c
  · rw [if_pos h, if_neg (by omega)]
  · rw [if_neg h, if_pos (by omega)]

theorem dofsOf_length (dm : Dofmap) (hw : ∀ c, (dm.dofs c).length = dm.width) (c : Int) :
    (dofsOf dm c).length ≤ dm.width := by
  unfold dofsOf
  split
  · simp
  · rw [hw]

theorem dofsOf_length_of (dm : Dofmap) (hw : ∀ c, (dm.dofs c).length = dm.width) (c : Int) (h : 0 ≤ c) :
    (dofsOf dm c).length = dm.width := by
  unfold dofsOf
  rw [if_neg (by omega), hw]

/-- The joint list holds the dofs of each existing cell in its half. -/
theorem joint_get (buf : List Nat) (w : Nat) (l0 l1 : List Nat) (hb : buf.length = 2 * w) (h0 : l0.length ≤ w)
    (h1 : l1.length ≤ w) (a d : Nat) :
    (l0[a]? = some d → (copyAt (copyAt buf 0 l0) w l1)[a]? = some d) ∧
    (l1[a]? = some d → (copyAt (copyAt buf 0 l0) w l1)[w + a]? = some d) := by
  constructor
  · intro h
    have ha := (List.getElem?_eq_some_iff.mp h).1
    rw [copyAt_get _ _ _ (by rw [copyAt_length]; omega), if_neg (by omega), copyAt_get _ _ _ (by omega), if_pos (by omega)]
    exact h
  · intro h
    have ha := (List.getElem?_eq_some_iff.mp h).1
    rw [copyAt_get _ _ _ (by rw [copyAt_length]; omega), if_pos (by omega), Nat.add_sub_cancel_left]
    exact h

theorem joint_eq (buf : List Nat) (w : Nat) (l0 l1 : List Nat) (hb : buf.length = 2 * w) (h0 : l0.length = w)
    (h1 : l1.length = w) : copyAt (copyAt buf 0 l0) w l1 = l0 ++ l1 := by
  apply List.ext_getElem?
  intro n
  rw [copyAt_get _ _ _ (by rw [copyAt_length]; omega), copyAt_get _ _ _ (by omega)]
  by_cases hn : n < w
  · rw [if_neg (by omega), if_pos (by omega), List.getElem?_append_left (by omega)]; rfl
  · rw [List.getElem?_append_right (by omega), h0]
    by_cases hn2 : n < w + w
    · rw [if_pos (by omega)]
    · rw [if_neg (by omega), if_neg (by omega), List.getElem?_eq_none (by omega), List.getElem?_eq_none (by omega)]

/-- One of the four blocks of an interior facet. -/
def blockElem (bs0 bs1 w0 w1 : Nat) (d0 d1 : List Nat) (s0 s1 : Nat) (A : Nat → R) : Elem R :=
  { rows := d0, cols := d1,
    val := fun r c => A ((s0 * (bs0 * w0) + r) * (2 * (bs1 * w1)) + (s1 * (bs1 * w1) + c)) }

open Classical in
/-- Entry of a masked tensor in one of the four blocks. -/
theorem masked_entry (w0 w1 : Nat) (j0 j1 d0 d1 : List Nat) (s0 s1 : Nat) (A : Nat → R)
    (hj0 : ∀ a d : Nat, d0[a]? = some d → j0[s0 * w0 + a]? = some d)
    (hj1 : ∀ a d : Nat, d1[a]? = some d → j1[s1 * w1 + a]? = some d) (hl1 : j1.length = 2 * w1)
    (i k j l : Nat) (hk : k < bs0) (hl : l < bs1) :
    (blockElem bs0 bs1 w0 w1 d0 d1 s0 s1 (if lifting then A else zeroBc bs0 bs1 bc0 bc1 j0 j1 A)).entry bs0 bs1 i k j l =
      if removed lifting bc0 bc1 (bs0 * i + k) (bs1 * j + l) then 0
      else (blockElem bs0 bs1 w0 w1 d0 d1 s0 s1 A).entry bs0 bs1 i k j l := by
  cases hlift : lifting
  · simp only [Bool.false_eq_true, if_false]
    have key : ∀ a b, d0[a]? = some i → d1[b]? = some j →
        zeroBc bs0 bs1 bc0 bc1 j0 j1 A ((s0 * (bs0 * w0) + (bs0 * a + k)) * (2 * (bs1 * w1)) + (s1 * (bs1 * w1) + (bs1 * b + l))) =
        if marked bc0 (bs0 * i + k) ∨ marked bc1 (bs1 * j + l) then 0
        else A ((s0 * (bs0 * w0) + (bs0 * a + k)) * (2 * (bs1 * w1)) + (s1 * (bs1 * w1) + (bs1 * b + l))) := by
      intro a b ha hb
      have := zeroBc_get bs0 bs1 bc0 bc1 j0 j1 A (s0 * w0 + a) k (s1 * w1 + b) l i j hk hl (hj0 a i ha) (hj1 b j hb)
      rw [hl1] at this
      have e : (bs0 * (s0 * w0 + a) + k) * (bs1 * (2 * w1)) + (bs1 * (s1 * w1 + b) + l) =
        (s0 * (bs0 * w0) + (bs0 * a + k)) * (2 * (bs1 * w1)) + (s1 * (bs1 * w1) + (bs1 * b + l)) := by ring
      rw [e] at this
      exact this
    simp only [removed, true_and]
    by_cases hrem : marked bc0 (bs0 * i + k) ∨ marked bc1 (bs1 * j + l)
    · rw [if_pos hrem]
      apply entry_zero
      intro a b ha hb
      simp only [blockElem] at ha hb ⊢
      rw [key a b ha hb, if_pos hrem]
    · rw [if_neg hrem]
      refine entry_congr _ (blockElem bs0 bs1 w0 w1 d0 d1 s0 s1 A) _ _ _ _ rfl rfl ?_
      intro a b ha hb
      simp only [blockElem] at ha hb ⊢
      rw [key a b ha hb, if_neg hrem]
  · simp [removed]

theorem entry_nil_rows (e : Elem R) (i k j l : Nat) (h : e.rows = [] ∨ e.cols = []) : e.entry bs0 bs1 i k j l = 0 := by
  apply entry_zero
  intro a b ha hb
  rcases h with h | h
  · rw [h] at ha; simp at ha
  · rw [h] at hb; simp at hb

/-- The insertion of one block. -/
theorem insertBlock_call (w0 w1 : Nat) (d0 d1 : List Nat) (s0 s1 : Nat) (A : Nat → R) :
    ∃ cs : List (Call R), (∀ (σ : Type) (ms : MatSet σ R) (s : σ),
      insertBlock ms bs0 bs1 (bs1 * 2 * w1) A d0 d1 (s0 * (bs0 * w0)) (s1 * (bs1 * w1)) s = runCalls ms s cs) ∧
      (∀ c ∈ cs, c.rows = d0 ∧ c.cols = d1) ∧
      ∀ i k j l, k < bs0 → l < bs1 → localOp bs0 bs1 (cs.map (Call.elem bs1)) i k j l =
        (blockElem bs0 bs1 w0 w1 d0 d1 s0 s1 A).entry bs0 bs1 i k j l := by
  unfold insertBlock
  by_cases h : d0 = [] ∨ d1 = []
  · refine ⟨[], ?_, by simp, ?_⟩
    · intro σ ms s
      rw [if_pos (by rcases h with rfl | rfl <;> simp)]; rfl
    · intro i k j l _ _
      rw [entry_nil_rows _ i k j l h]
      simp [localOp]
  · refine ⟨[⟨d0, d1, fun p => A ((s0 * (bs0 * w0) + p / (d1.length * bs1)) * (bs1 * 2 * w1) + s1 * (bs1 * w1) +
      p % (d1.length * bs1))⟩], ?_, by simp, ?_⟩
    · intro σ ms s
      rw [if_neg (by simpa using h)]; rfl
    · intro i k j l hk hl
      simp only [List.map_cons, List.map_nil, localOp, List.sum_cons, List.sum_nil, add_zero]
      refine entry_congr _ (blockElem bs0 bs1 w0 w1 d0 d1 s0 s1 A) _ _ _ _ rfl rfl ?_
      intro a b ha hb
      simp only [Call.elem, blockElem] at ha hb ⊢
      have hbl := (List.getElem?_eq_some_iff.mp hb).1
      have hlt : bs1 * b + l < d1.length * bs1 := by
        calc bs1 * b + l < bs1 * b + bs1 := by omega
          _ = bs1 * (b + 1) := by ring
          _ ≤ bs1 * d1.length := Nat.mul_le_mul_left _ hbl
          _ = d1.length * bs1 := Nat.mul_comm _ _
      have hpos : d1.length * bs1 > 0 := by omega
      have e1 : ((bs0 * a + k) * (bs1 * d1.length) + (bs1 * b + l)) / (d1.length * bs1) = bs0 * a + k := by
        rw [Nat.mul_comm bs1 d1.length, Nat.mul_comm (bs0 * a + k), Nat.mul_add_div hpos, Nat.div_eq_of_lt hlt, Nat.add_zero]
      have e2 : ((bs0 * a + k) * (bs1 * d1.length) + (bs1 * b + l)) % (d1.length * bs1) = bs1 * b + l := by
        rw [Nat.mul_comm bs1 d1.length, Nat.mul_comm (bs0 * a + k), Nat.mul_add_mod, Nat.mod_eq_of_lt hlt]
      rw [e1, e2]
      congr 1
      ring

theorem joint_entry (w0 w1 : Nat) (d00 d01 d10 d11 : List Nat) (A : Nat → R) (h00 : d00.length = w0) (h01 : d01.length = w0)
    (h10 : d10.length = w1) (h11 : d11.length = w1) (i k j l : Nat) :
    (Call.elem bs1 ⟨d00 ++ d01, d10 ++ d11, A⟩).entry bs0 bs1 i k j l =
      (blockElem bs0 bs1 w0 w1 d00 d10 0 0 A).entry bs0 bs1 i k j l +
      ((blockElem bs0 bs1 w0 w1 d00 d11 0 1 A).entry bs0 bs1 i k j l +
      ((blockElem bs0 bs1 w0 w1 d01 d10 1 0 A).entry bs0 bs1 i k j l +
      ((blockElem bs0 bs1 w0 w1 d01 d11 1 1 A).entry bs0 bs1 i k j l + 0))) := by
  have hsplit : ∀ (d : List Nat) (off : Nat) (c : Nat),
      (∑ b ∈ range (w1 + w1), if d[c]? = some i ∧ (d10 ++ d11)[b]? = some j then
        A ((bs0 * (off + c) + k) * (bs1 * (w1 + w1)) + (bs1 * b + l)) else 0) =
      (∑ b ∈ range w1, if d[c]? = some i ∧ d10[b]? = some j then
        A ((bs0 * (off + c) + k) * (bs1 * (w1 + w1)) + (bs1 * b + l)) else 0) +
      (∑ b ∈ range w1, if d[c]? = some i ∧ d11[b]? = some j then
        A ((bs0 * (off + c) + k) * (bs1 * (w1 + w1)) + (bs1 * (w1 + b) + l)) else 0) := by
    intro d off c
    rw [sum_range_add]
    congr 1
    · apply sum_congr rfl
      intro b hb
      rw [List.getElem?_append_left (by rw [h10]; exact mem_range.mp hb)]
    · apply sum_congr rfl
      intro b hb
      rw [List.getElem?_append_right (by omega), h10, Nat.add_sub_cancel_left]
  unfold Elem.entry Call.elem blockElem
  simp only [List.length_append, h00, h01, h10, h11]
  rw [sum_range_add]
  have hA : (∑ a ∈ range w0, ∑ b ∈ range (w1 + w1), if (d00 ++ d01)[a]? = some i ∧ (d10 ++ d11)[b]? = some j then
        A ((bs0 * a + k) * (bs1 * (w1 + w1)) + (bs1 * b + l)) else 0) =
      (∑ a ∈ range w0, ∑ b ∈ range w1, if d00[a]? = some i ∧ d10[b]? = some j then
        A ((0 * (bs0 * w0) + (bs0 * a + k)) * (2 * (bs1 * w1)) + (0 * (bs1 * w1) + (bs1 * b + l))) else 0) +
      (∑ a ∈ range w0, ∑ b ∈ range w1, if d00[a]? = some i ∧ d11[b]? = some j then
        A ((0 * (bs0 * w0) + (bs0 * a + k)) * (2 * (bs1 * w1)) + (1 * (bs1 * w1) + (bs1 * b + l))) else 0) := by
    rw [← sum_add_distrib]
    apply sum_congr rfl
    intro a ha
    have hs := hsplit d00 0 a
    rw [Nat.zero_add] at hs
    rw [List.getElem?_append_left (by rw [h00]; exact mem_range.mp ha)]
    rw [hs]
    congr 1
    · apply sum_congr rfl
      intro b _
      congr 2
      ring
    · apply sum_congr rfl
      intro b _
      congr 2
      ring
  have hB : (∑ a ∈ range w0, ∑ b ∈ range (w1 + w1), if (d00 ++ d01)[w0 + a]? = some i ∧ (d10 ++ d11)[b]? = some j then
        A ((bs0 * (w0 + a) + k) * (bs1 * (w1 + w1)) + (bs1 * b + l)) else 0) =
      (∑ a ∈ range w0, ∑ b ∈ range w1, if d01[a]? = some i ∧ d10[b]? = some j then
        A ((1 * (bs0 * w0) + (bs0 * a + k)) * (2 * (bs1 * w1)) + (0 * (bs1 * w1) + (bs1 * b + l))) else 0) +
      (∑ a ∈ range w0, ∑ b ∈ range w1, if d01[a]? = some i ∧ d11[b]? = some j then
        A ((1 * (bs0 * w0) + (bs0 * a + k)) * (2 * (bs1 * w1)) + (1 * (bs1 * w1) + (bs1 * b + l))) else 0) := by
    rw [← sum_add_distrib]
    apply sum_congr rfl
    intro a ha
    rw [List.getElem?_append_right (by omega), h00, Nat.add_sub_cancel_left]
    rw [hsplit d01 w0 a]
    congr 1
    · apply sum_congr rfl
      intro b _
      congr 2
      ring
    · apply sum_congr rfl
      intro b _
      congr 2
      ring
  rw [hA, hB]
  abel

/-- The four elements of an interior facet. -/
theorem good_four (w0 w1 : Nat) (d00 d01 d10 d11 j0 j1 : List Nat) (A : Nat → R)
    (h00 : ∀ a d : Nat, d00[a]? = some d → j0[0 * w0 + a]? = some d)
    (h01 : ∀ a d : Nat, d01[a]? = some d → j0[1 * w0 + a]? = some d)
    (h10 : ∀ a d : Nat, d10[a]? = some d → j1[0 * w1 + a]? = some d)
    (h11 : ∀ a d : Nat, d11[a]? = some d → j1[1 * w1 + a]? = some d) (hl1 : j1.length = 2 * w1)
    (cs : List (Call R))
    (hcov : ∀ c ∈ cs, ∀ i ∈ c.rows, ∀ j ∈ c.cols, (i ∈ d00 ∨ i ∈ d01) ∧ (j ∈ d10 ∨ j ∈ d11))
    (hsum : ∀ i k j l, k < bs0 → l < bs1 → localOp bs0 bs1 (cs.map (Call.elem bs1)) i k j l =
      localOp bs0 bs1 [blockElem bs0 bs1 w0 w1 d00 d10 0 0 (if lifting then A else zeroBc bs0 bs1 bc0 bc1 j0 j1 A),
        blockElem bs0 bs1 w0 w1 d00 d11 0 1 (if lifting then A else zeroBc bs0 bs1 bc0 bc1 j0 j1 A),
        blockElem bs0 bs1 w0 w1 d01 d10 1 0 (if lifting then A else zeroBc bs0 bs1 bc0 bc1 j0 j1 A),
        blockElem bs0 bs1 w0 w1 d01 d11 1 1 (if lifting then A else zeroBc bs0 bs1 bc0 bc1 j0 j1 A)] i k j l) :
    Good bs0 bs1 lifting bc0 bc1 cs [blockElem bs0 bs1 w0 w1 d00 d10 0 0 A, blockElem bs0 bs1 w0 w1 d00 d11 0 1 A,
      blockElem bs0 bs1 w0 w1 d01 d10 1 0 A, blockElem bs0 bs1 w0 w1 d01 d11 1 1 A] := by
  refine ⟨?_, ?_⟩
  · intro c hc i hi j hj
    obtain ⟨hi', hj'⟩ := hcov c hc i hi j hj
    rcases hi' with hi' | hi' <;> rcases hj' with hj' | hj'
    · exact ⟨blockElem bs0 bs1 w0 w1 d00 d10 0 0 A, by simp, hi', hj'⟩
    · exact ⟨blockElem bs0 bs1 w0 w1 d00 d11 0 1 A, by simp, hi', hj'⟩
    · exact ⟨blockElem bs0 bs1 w0 w1 d01 d10 1 0 A, by simp, hi', hj'⟩
    · exact ⟨blockElem bs0 bs1 w0 w1 d01 d11 1 1 A, by simp, hi', hj'⟩
  · intro i k j l hk hl _
    rw [hsum i k j l hk hl]
    simp only [localOp_cons]
    rw [masked_entry w0 w1 j0 j1 d00 d10 0 0 A h00 h10 hl1 i k j l hk hl,
      masked_entry w0 w1 j0 j1 d00 d11 0 1 A h00 h11 hl1 i k j l hk hl,
      masked_entry w0 w1 j0 j1 d01 d10 1 0 A h01 h10 hl1 i k j l hk hl,
      masked_entry w0 w1 j0 j1 d01 d11 1 1 A h01 h11 hl1 i k j l hk hl]
    split <;> simp [localOp]

/-- Elements of one interior facet. -/
def facetElem (dm0 dm1 : Dofmap) (I : Integral R) (f : Nat) : List (Elem R) :=
  [(0, 0), (0, 1), (1, 0), (1, 1)].map fun s =>
    { rows := dofsOf dm0 (I.dom0.getD (4 * f + 2 * s.1) 0)
      cols := dofsOf dm1 (I.dom1.getD (4 * f + 2 * s.2) 0)
      val := fun r c => I.tensor f ((s.1 * (dm0.bs * dm0.width) + r) * (2 * (dm1.bs * dm1.width)) +
        (s.2 * (dm1.bs * dm1.width) + c)) }

theorem facetElem_eq (dm0 dm1 : Dofmap) (I : Integral R) (f : Nat) :
    facetElem dm0 dm1 I f =
      [blockElem dm0.bs dm1.bs dm0.width dm1.width (cellDofs dm0 (I.dom0.getD (4 * f) 0)) (cellDofs dm1 (I.dom1.getD (4 * f) 0)) 0 0 (I.tensor f),
       blockElem dm0.bs dm1.bs dm0.width dm1.width (cellDofs dm0 (I.dom0.getD (4 * f) 0)) (cellDofs dm1 (I.dom1.getD (4 * f + 2) 0)) 0 1 (I.tensor f),
       blockElem dm0.bs dm1.bs dm0.width dm1.width (cellDofs dm0 (I.dom0.getD (4 * f + 2) 0)) (cellDofs dm1 (I.dom1.getD (4 * f) 0)) 1 0 (I.tensor f),
       blockElem dm0.bs dm1.bs dm0.width dm1.width (cellDofs dm0 (I.dom0.getD (4 * f + 2) 0)) (cellDofs dm1 (I.dom1.getD (4 * f + 2) 0)) 1 1 (I.tensor f)] := by
  simp only [cellDofs_eq]
  rfl

theorem does_interiorStep (dm0 dm1 : Dofmap) (I : Integral R) (h0 : dm0.bs = bs0) (h1 : dm1.bs = bs1)
    (hw0 : ∀ c, (dm0.dofs c).length = dm0.width) (hw1 : ∀ c, (dm1.dofs c).length = dm1.width) (f : Nat)
    (b0 b1 : List Nat) (hb0 : b0.length = 2 * dm0.width) (hb1 : b1.length = 2 * dm1.width) :
    ∃ cs j0 j1, j0.length = 2 * dm0.width ∧ j1.length = 2 * dm1.width ∧
      (∀ (σ : Type) (ms : MatSet σ R) (s : σ), interiorStep ms lifting dm0 dm1 bc0 bc1 I (s, b0, b1) f =
        (runCalls ms s cs, j0, j1)) ∧
      Good bs0 bs1 lifting bc0 bc1 cs (facetElem dm0 dm1 I f) := by
  subst h0 h1
  rw [facetElem_eq]
  unfold interiorStep
  simp only
  set c00 := I.dom0.getD (4 * f) 0
  set c01 := I.dom0.getD (4 * f + 2) 0
  set c10 := I.dom1.getD (4 * f) 0
  set c11 := I.dom1.getD (4 * f + 2) 0
  set d00 := cellDofs dm0 c00 with hd00
  set d01 := cellDofs dm0 c01 with hd01
  set d10 := cellDofs dm1 c10 with hd10
  set d11 := cellDofs dm1 c11 with hd11
  set j0 := copyAt (copyAt b0 0 d00) dm0.width d01 with hj0
  set j1 := copyAt (copyAt b1 0 d10) dm1.width d11 with hj1
  have l0 : j0.length = 2 * dm0.width := by rw [hj0, copyAt_length, copyAt_length, hb0]
  have l1 : j1.length = 2 * dm1.width := by rw [hj1, copyAt_length, copyAt_length, hb1]
  have e00 : d00.length ≤ dm0.width := by rw [hd00, cellDofs_eq]; exact dofsOf_length dm0 hw0 _
  have e01 : d01.length ≤ dm0.width := by rw [hd01, cellDofs_eq]; exact dofsOf_length dm0 hw0 _
  have e10 : d10.length ≤ dm1.width := by rw [hd10, cellDofs_eq]; exact dofsOf_length dm1 hw1 _
  have e11 : d11.length ≤ dm1.width := by rw [hd11, cellDofs_eq]; exact dofsOf_length dm1 hw1 _
  have g00 : ∀ a d : Nat, d00[a]? = some d → j0[0 * dm0.width + a]? = some d := by
    intro a d h; rw [Nat.zero_mul, Nat.zero_add]; exact (joint_get b0 dm0.width d00 d01 hb0 e00 e01 a d).1 h
  have g01 : ∀ a d : Nat, d01[a]? = some d → j0[1 * dm0.width + a]? = some d := by
    intro a d h; rw [Nat.one_mul]; exact (joint_get b0 dm0.width d00 d01 hb0 e00 e01 a d).2 h
  have g10 : ∀ a d : Nat, d10[a]? = some d → j1[0 * dm1.width + a]? = some d := by
    intro a d h; rw [Nat.zero_mul, Nat.zero_add]; exact (joint_get b1 dm1.width d10 d11 hb1 e10 e11 a d).1 h
  have g11 : ∀ a d : Nat, d11[a]? = some d → j1[1 * dm1.width + a]? = some d := by
    intro a d h; rw [Nat.one_mul]; exact (joint_get b1 dm1.width d10 d11 hb1 e10 e11 a d).2 h
  by_cases hskip : (lifting && !hasBc j1 bc1 dm1.bs) = true
  · refine ⟨[], j0, j1, l0, l1, ?_, ?_, ?_⟩
    · intro σ ms s
      rw [if_pos hskip]; rfl
    · simp
    · intro i k j l hk hl hm
      simp only [Bool.and_eq_true, Bool.not_eq_true'] at hskip
      have hm' := hm hskip.1
      simp only [List.map_nil, removed, hskip.1, Bool.true_eq_false, false_and, if_false]
      have hz : ∀ (d0 d1 : List Nat) (s0 s1 : Nat), (∀ a d : Nat, d1[a]? = some d → j1[s1 * dm1.width + a]? = some d) →
          (blockElem dm0.bs dm1.bs dm0.width dm1.width d0 d1 s0 s1 (I.tensor f)).entry dm0.bs dm1.bs i k j l = 0 := by
        intro d0 d1 s0 s1 hg
        apply entry_zero
        intro a b _ hb
        exfalso
        have : hasBc j1 bc1 dm1.bs = true := (hasBc_iff _ _ _).mpr ⟨j, List.mem_of_getElem? (hg b j hb), l, hl, hm'⟩
        rw [hskip.2] at this
        exact absurd this (by simp)
      simp only [localOp_cons]
      rw [hz d00 d10 0 0 g10, hz d00 d11 0 1 g11, hz d01 d10 1 0 g10, hz d01 d11 1 1 g11]
      simp [localOp]
  · by_cases hall : 0 ≤ c00 ∧ 0 ≤ c01 ∧ 0 ≤ c10 ∧ 0 ≤ c11
    · have f00 : d00.length = dm0.width := by rw [hd00, cellDofs_eq]; exact dofsOf_length_of dm0 hw0 _ hall.1
      have f01 : d01.length = dm0.width := by rw [hd01, cellDofs_eq]; exact dofsOf_length_of dm0 hw0 _ hall.2.1
      have f10 : d10.length = dm1.width := by rw [hd10, cellDofs_eq]; exact dofsOf_length_of dm1 hw1 _ hall.2.2.1
      have f11 : d11.length = dm1.width := by rw [hd11, cellDofs_eq]; exact dofsOf_length_of dm1 hw1 _ hall.2.2.2
      have q0 : j0 = d00 ++ d01 := joint_eq b0 dm0.width d00 d01 hb0 f00 f01
      have q1 : j1 = d10 ++ d11 := joint_eq b1 dm1.width d10 d11 hb1 f10 f11
      refine ⟨[⟨j0, j1, if lifting then I.tensor f else zeroBc dm0.bs dm1.bs bc0 bc1 j0 j1 (I.tensor f)⟩], j0, j1, l0, l1, ?_, ?_⟩
      · intro σ ms s
        rw [if_neg hskip, if_pos hall]; rfl
      · refine good_four dm0.width dm1.width d00 d01 d10 d11 j0 j1 _ g00 g01 g10 g11 l1 _ ?_ ?_
        · intro c hc i hi j hj
          rw [List.mem_singleton] at hc
          subst hc
          rw [q0] at hi
          rw [q1] at hj
          exact ⟨List.mem_append.mp hi, List.mem_append.mp hj⟩
        · intro i k j l hk hl
          simp only [localOp, List.map_cons, List.map_nil, List.sum_cons, List.sum_nil, add_zero]
          have := joint_entry (bs0 := dm0.bs) (bs1 := dm1.bs) dm0.width dm1.width d00 d01 d10 d11
            (if lifting then I.tensor f else zeroBc dm0.bs dm1.bs bc0 bc1 j0 j1 (I.tensor f)) f00 f01 f10 f11 i k j l
          rw [← q0, ← q1, add_zero] at this
          exact this
    · obtain ⟨c1, a1, b1', s1⟩ := insertBlock_call (bs0 := dm0.bs) (bs1 := dm1.bs) dm0.width dm1.width d00 d10 0 0
        (if lifting then I.tensor f else zeroBc dm0.bs dm1.bs bc0 bc1 j0 j1 (I.tensor f))
      obtain ⟨c2, a2, b2, s2⟩ := insertBlock_call (bs0 := dm0.bs) (bs1 := dm1.bs) dm0.width dm1.width d00 d11 0 1
        (if lifting then I.tensor f else zeroBc dm0.bs dm1.bs bc0 bc1 j0 j1 (I.tensor f))
      obtain ⟨c3, a3, b3, s3⟩ := insertBlock_call (bs0 := dm0.bs) (bs1 := dm1.bs) dm0.width dm1.width d01 d10 1 0
        (if lifting then I.tensor f else zeroBc dm0.bs dm1.bs bc0 bc1 j0 j1 (I.tensor f))
      obtain ⟨c4, a4, b4, s4⟩ := insertBlock_call (bs0 := dm0.bs) (bs1 := dm1.bs) dm0.width dm1.width d01 d11 1 1
        (if lifting then I.tensor f else zeroBc dm0.bs dm1.bs bc0 bc1 j0 j1 (I.tensor f))
      simp only [Nat.zero_mul, Nat.one_mul] at a1 a2 a3 a4
      refine ⟨c1 ++ (c2 ++ (c3 ++ c4)), j0, j1, l0, l1, ?_, ?_⟩
      · intro σ ms s
        rw [if_neg hskip, if_neg hall, a1, a2, a3, a4, runCalls_append, runCalls_append, runCalls_append]
      · refine good_four dm0.width dm1.width d00 d01 d10 d11 j0 j1 _ g00 g01 g10 g11 l1 _ ?_ ?_
        · intro c hc i hi j hj
          simp only [List.mem_append] at hc
          rcases hc with hc | hc | hc | hc
          · obtain ⟨h1, h2⟩ := b1' c hc; rw [h1] at hi; rw [h2] at hj; exact ⟨Or.inl hi, Or.inl hj⟩
          · obtain ⟨h1, h2⟩ := b2 c hc; rw [h1] at hi; rw [h2] at hj; exact ⟨Or.inl hi, Or.inr hj⟩
          · obtain ⟨h1, h2⟩ := b3 c hc; rw [h1] at hi; rw [h2] at hj; exact ⟨Or.inr hi, Or.inl hj⟩
          · obtain ⟨h1, h2⟩ := b4 c hc; rw [h1] at hi; rw [h2] at hj; exact ⟨Or.inr hi, Or.inr hj⟩
        · intro i k j l hk hl
          simp only [List.map_append, localOp_append]
          rw [s1 i k j l hk hl, s2 i k j l hk hl, s3 i k j l hk hl, s4 i k j l hk hl]
          simp only [localOp_cons]
          simp [localOp]

theorem does_interior_loop (dm0 dm1 : Dofmap) (h0 : dm0.bs = bs0) (h1 : dm1.bs = bs1)
    (hw0 : ∀ c, (dm0.dofs c).length = dm0.width) (hw1 : ∀ c, (dm1.dofs c).length = dm1.width)
    (xs : List (Integral R × Nat)) :
    ∀ b0 b1 : List Nat, b0.length = 2 * dm0.width → b1.length = 2 * dm1.width →
    ∃ cs j0 j1, j0.length = 2 * dm0.width ∧ j1.length = 2 * dm1.width ∧
      (∀ (σ : Type) (ms : MatSet σ R) (s : σ),
        xs.foldl (fun st x => interiorStep ms lifting dm0 dm1 bc0 bc1 x.1 st x.2) (s, b0, b1) = (runCalls ms s cs, j0, j1)) ∧
      Good bs0 bs1 lifting bc0 bc1 cs (xs.flatMap fun x => facetElem dm0 dm1 x.1 x.2) := by
  induction xs with
  | nil => intro b0 b1 hb0 hb1; exact ⟨[], b0, b1, hb0, hb1, fun σ ms s => rfl, Good.nil⟩
  | cons x xs ih =>
    intro b0 b1 hb0 hb1
    obtain ⟨cs, j0, j1, hj0, hj1, e, g⟩ := does_interiorStep (lifting := lifting) (bc0 := bc0) (bc1 := bc1)
      dm0 dm1 x.1 h0 h1 hw0 hw1 x.2 b0 b1 hb0 hb1
    obtain ⟨ds, k0, k1, hk0, hk1, e', g'⟩ := ih j0 j1 hj0 hj1
    refine ⟨cs ++ ds, k0, k1, hk0, hk1, ?_, ?_⟩
    · intro σ ms s
      rw [List.foldl_cons, e, e', runCalls_append]
    · rw [List.flatMap_cons]
      exact g.append g'

theorem does_interior (dm0 dm1 : Dofmap) (h0 : dm0.bs = bs0) (h1 : dm1.bs = bs1)
    (hw0 : ∀ c, (dm0.dofs c).length = dm0.width) (hw1 : ∀ c, (dm1.dofs c).length = dm1.width)
    (Is : List (Integral R)) :
    Does bs0 bs1 lifting bc0 bc1 (fun σ ms s => (Is.foldl (fun st I => assembleInterior ms lifting dm0 dm1 bc0 bc1 I st)
      (s, List.replicate (2 * dm0.width) 0, List.replicate (2 * dm1.width) 0)).1) (Is.flatMap (facetElems dm0 dm1)) := by
  obtain ⟨cs, j0, j1, _, _, e, g⟩ := does_interior_loop (lifting := lifting) (bc0 := bc0) (bc1 := bc1) dm0 dm1 h0 h1 hw0 hw1
    (Is.flatMap fun I => (List.range (I.dom0.length / 4)).map fun f => (I, f))
    (List.replicate (2 * dm0.width) 0) (List.replicate (2 * dm1.width) 0) (by simp) (by simp)
  refine ⟨cs, ?_, ?_⟩
  · intro σ ms s
    have := e σ ms s
    rw [List.foldl_flatMap] at this
    simp only [List.foldl_map] at this
    exact congrArg Prod.fst this
  · rw [List.flatMap_assoc] at g
    simp only [List.flatMap_map] at g
    exact g

/-! ## The form -/

theorem Does.comp {f g : ∀ σ : Type, MatSet σ R → σ → σ} {es fs : List (Elem R)} (hf : Does bs0 bs1 lifting bc0 bc1 f es)
    (hg : Does bs0 bs1 lifting bc0 bc1 g fs) :
    Does bs0 bs1 lifting bc0 bc1 (fun σ ms s => g σ ms (f σ ms s)) (es ++ fs) := by
  obtain ⟨cs, h1, h2⟩ := hf
  obtain ⟨ds, h3, h4⟩ := hg
  refine ⟨cs ++ ds, ?_, h2.append h4⟩
  intro σ ms s
  beta_reduce
  rw [h1, h3, runCalls_append]

/-- Elements of one cell type. -/
def typeElems (F : Form R) (dm0 dm1 : Nat → Dofmap) (t : Nat) : List (Elem R) :=
  [IType.cell, .interiorFacet, .exteriorFacet, .vertex, .ridge].flatMap fun ty =>
      (F.ints ty t).flatMap fun I => intElems ty (dm0 t) (dm1 t) I

theorem does_type (F : Form R) (dm0 dm1 : Nat → Dofmap) (hd0 : DofmapOk bs0 dm0) (hd1 : DofmapOk bs1 dm1)
    (hF : Accepted F) (t : Nat) (ht : t < F.numTypes) :
    ∃ cs, (∀ (σ : Type) (ms : MatSet σ R) (s : σ), assembleType ms lifting F dm0 dm1 bc0 bc1 s t = some (runCalls ms s cs)) ∧
      Good bs0 bs1 lifting bc0 bc1 cs (typeElems F dm0 dm1 t) := by
  have hc := does_foldl (R := R) (bs0 := bs0) (bs1 := bs1) (lifting := lifting) (bc0 := bc0) (bc1 := bc1)
    (F.ints .cell t) (fun I σ ms s => assembleCells ms lifting (dm0 t) (dm1 t) bc0 bc1 I s) _
    (fun I _ => does_cells _ _ I (hd0 t).1 (hd1 t).1 (hd1 t).2)
  have hi := does_interior (R := R) (lifting := lifting) (bc0 := bc0) (bc1 := bc1) (dm0 t) (dm1 t) (hd0 t).1 (hd1 t).1
    (hd0 t).2 (hd1 t).2 (F.ints .interiorFacet t)
  have ho := does_foldl (R := R) (bs0 := bs0) (bs1 := bs1) (lifting := lifting) (bc0 := bc0) (bc1 := bc1)
    otherTypes (fun ty σ ms s => (F.ints ty t).foldl (fun s I => assembleEntities ms lifting (dm0 t) (dm1 t) bc0 bc1 I s) s) _
    (fun ty _ => does_foldl (F.ints ty t) (fun I σ ms s => assembleEntities ms lifting (dm0 t) (dm1 t) bc0 bc1 I s) _
      (fun I _ => does_entities _ _ I (hd0 t).1 (hd1 t).1 (hd1 t).2))
  obtain ⟨cs, h1, h2⟩ := (hc.comp hi).comp ho
  refine ⟨cs, ?_, ?_⟩
  · intro σ ms s
    rw [← h1]
    unfold assembleType
    simp only
    rw [if_neg, if_neg]
    · rintro ⟨h, ty, hty, hne⟩
      rcases hF with hF | hF
      · omega
      · exact hne (hF t ht ty (by rintro rfl; simp [otherTypes] at hty))
    · rintro ⟨h, hne⟩
      rcases hF with hF | hF
      · omega
      · exact hne (hF t ht _ (by simp))
  · have : typeElems F dm0 dm1 t = ((F.ints .cell t).flatMap (fun I => cellElems (dm0 t) (dm1 t) 1 I) ++
        (F.ints .interiorFacet t).flatMap (facetElems (dm0 t) (dm1 t))) ++
        otherTypes.flatMap (fun ty => (F.ints ty t).flatMap (fun I => cellElems (dm0 t) (dm1 t) 2 I)) := by
      simp [typeElems, otherTypes, intElems]
    rw [this]
    exact h2

theorem does_matrix_loop (F : Form R) (dm0 dm1 : Nat → Dofmap) (hd0 : DofmapOk bs0 dm0) (hd1 : DofmapOk bs1 dm1)
    (hF : Accepted F) (ts : List Nat) (hts : ∀ t ∈ ts, t < F.numTypes) :
    ∃ cs, (∀ (σ : Type) (ms : MatSet σ R) (s : σ),
        ts.foldlM (assembleType ms lifting F dm0 dm1 bc0 bc1) s = some (runCalls ms s cs)) ∧
      Good bs0 bs1 lifting bc0 bc1 cs (ts.flatMap (typeElems F dm0 dm1)) := by
  induction ts with
  | nil => exact ⟨[], fun σ ms s => rfl, Good.nil⟩
  | cons t ts ih =>
    obtain ⟨cs, h1, h2⟩ := does_type (lifting := lifting) (bc0 := bc0) (bc1 := bc1) F dm0 dm1 hd0 hd1 hF t (hts t (by simp))
    obtain ⟨ds, h3, h4⟩ := ih (fun u hu => hts u (by simp [hu]))
    refine ⟨cs ++ ds, ?_, ?_⟩
    · intro σ ms s
      rw [List.foldlM_cons, h1]
      simp only [Option.bind_eq_bind, Option.bind_some]
      rw [h3, runCalls_append]
    · rw [List.flatMap_cons]
      exact h2.append h4

theorem does_matrix (lifting : Bool) (bc0 bc1 : List Bool) (F : Form R) (dm0 dm1 : Nat → Dofmap) (hd0 : DofmapOk bs0 dm0) (hd1 : DofmapOk bs1 dm1)
    (hF : Accepted F) :
    ∃ cs, (∀ (σ : Type) (ms : MatSet σ R) (s : σ), assembleMatrix ms lifting F dm0 dm1 bc0 bc1 s = some (runCalls ms s cs)) ∧
      Good bs0 bs1 lifting bc0 bc1 cs (elems F dm0 dm1) :=
  does_matrix_loop F dm0 dm1 hd0 hd1 hF (List.range F.numTypes) (fun t ht => List.mem_range.mp ht)

end Verif.Assembly
