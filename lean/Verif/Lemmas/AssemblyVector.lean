import Verif.Lemmas.AssemblyGlobal
import Verif.Props.C19_SpMV
/-! Vector assembly and lifting as sums of element tensors. -/
namespace Verif.Assembly
open Verif.Spec.Assemble Verif.Spec Verif.World Finset

variable {R : Type} [CommRing R]

/-! ## Element loops -/

theorem sum_zipIdx_map {β : Type} [AddCommMonoid β] (l : List Nat) (i : Nat) (v : Nat → β) :
    (l.zipIdx.map fun x => if x.1 = i then v x.2 else 0).sum =
      ∑ a ∈ range l.length, if l[a]? = some i then v a else 0 := by
  induction l using List.reverseRecOn with
  | nil => simp
  | append_singleton l x ih =>
    rw [List.zipIdx_append, List.map_append, List.sum_append, ih, List.length_append, List.length_singleton,
      sum_range_succ]
    congr 1
    · apply sum_congr rfl
      intro a ha
      rw [List.getElem?_append_left (mem_range.mp ha)]
    · simp

theorem sum_zipIdx_all {β : Type} [AddCommMonoid β] (l : List Nat) (N : Nat) (hl : ∀ x ∈ l, x < N) (G : Nat → Nat → β) :
    (l.zipIdx.map fun x => G x.1 x.2).sum =
      ∑ j ∈ range N, ∑ a ∈ range l.length, if l[a]? = some j then G j a else 0 := by
  have h : ∀ x ∈ l.zipIdx, G x.1 x.2 = ∑ j ∈ range N, if x.1 = j then G j x.2 else 0 := by
    intro x hx
    rw [sum_ite_eq, if_pos (mem_range.mpr (hl x.1 (List.fst_mem_of_mem_zipIdx hx)))]
  rw [List.map_congr_left h]
  have hc : ∀ L : List (Nat × Nat), (L.map fun x => ∑ j ∈ range N, if x.1 = j then G j x.2 else 0).sum =
      ∑ j ∈ range N, (L.map fun x => if x.1 = j then G j x.2 else 0).sum := by
    intro L
    induction L with
    | nil => simp
    | cons x L ih => simp only [List.map_cons, List.sum_cons]; rw [ih, sum_add_distrib]
  rw [hc]
  apply sum_congr rfl
  intro j _
  exact sum_zipIdx_map l j (G j)

theorem block_eq_iff {bs i k i' k' : Nat} (hk : k < bs) (hk' : k' < bs) : bs * i + k = bs * i' + k' ↔ i = i' ∧ k = k' := by
  constructor
  · intro h
    have h1 := congrArg (· / bs) h
    have h2 := congrArg (· % bs) h
    simp only [Nat.mul_add_mod, Nat.mod_eq_of_lt hk, Nat.mod_eq_of_lt hk', Nat.mul_add_div (show 0 < bs by omega),
      Nat.div_eq_of_lt hk, Nat.div_eq_of_lt hk', Nat.add_zero] at h1 h2
    exact ⟨h1, h2⟩
  · rintro ⟨rfl, rfl⟩; rfl

theorem addBlock_at (bs : Nat) (dofs : List Nat) (off : Nat) (be b : Nat → R) (i k : Nat) (hk : k < bs) :
    addBlock bs dofs off be b (bs * i + k) =
      b (bs * i + k) + ∑ a ∈ range dofs.length, if dofs[a]? = some i then be (bs * (a + off) + k) else 0 := by
  unfold addBlock
  rw [Props.foldl_add_fn _ (fun x n => ∑ k ∈ range bs, if n = bs * x.1 + k then be (bs * (x.2 + off) + k) else 0)]
  · congr 1
    rw [← sum_zipIdx_map dofs i (fun a => be (bs * (a + off) + k))]
    congr 1
    apply List.map_congr_left
    intro x _
    by_cases hx : x.1 = i
    · subst hx
      rw [if_pos rfl, sum_eq_single k]
      · rw [if_pos rfl]
      · intro k' hk' hne
        rw [if_neg]
        intro h
        exact hne ((block_eq_iff hk (mem_range.mp hk')).mp h).2.symm
      · intro h; exact absurd (mem_range.mpr hk) h
    · rw [if_neg hx]
      apply sum_eq_zero
      intro k' hk'
      rw [if_neg]
      intro h
      exact hx ((block_eq_iff hk (mem_range.mp hk')).mp h).1.symm
  · intro y x n
    rw [Props.foldl_add_fn _ (fun k n => if n = bs * x.1 + k then be (bs * (x.2 + off) + k) else 0), Props.sum_map_range]
    intro y k n
    beta_reduce
    split <;> simp

/-- Entry of the vector of one rank in local numbering. -/
def localVec (bs : Nat) (es : List (VElem R)) (i k : Nat) : R := (es.map fun e => e.entry bs i k).sum

theorem localVec_append (bs : Nat) (es fs : List (VElem R)) (i k : Nat) :
    localVec bs (es ++ fs) i k = localVec bs es i k + localVec bs fs i k := by simp [localVec]

/-- `f` adds the elements `es`. -/
def AddsV (bs : Nat) (f : (Nat → R) → Nat → R) (es : List (VElem R)) : Prop :=
  ∀ b i k, k < bs → f b (bs * i + k) = b (bs * i + k) + localVec bs es i k

variable {bs : Nat}

theorem addsV_foldl {α : Type} (l : List α) (f : α → (Nat → R) → Nat → R) (es : α → List (VElem R))
    (h : ∀ x ∈ l, AddsV bs (f x) (es x)) : AddsV bs (fun b => l.foldl (fun b x => f x b) b) (l.flatMap es) := by
  induction l with
  | nil => intro b i k _; simp [localVec]
  | cons x l ih =>
    intro b i k hk
    have := ih (fun y hy => h y (by simp [hy])) (f x b) i k hk
    beta_reduce at this ⊢
    rw [List.foldl_cons, this, h x (by simp) b i k hk, List.flatMap_cons, localVec_append, add_assoc]

theorem addsV_block (dofs : List Nat) (off : Nat) (be : Nat → R) :
    AddsV bs (addBlock bs dofs off be) [⟨dofs, fun r => be (bs * off + r)⟩] := by
  intro b i k hk
  rw [addBlock_at bs dofs off be b i k hk]
  congr 1
  simp only [localVec, VElem.entry, List.map_cons, List.map_nil, List.sum_cons, List.sum_nil, add_zero]
  apply sum_congr rfl
  intro a _
  congr 2
  ring

theorem AddsV.comp {f g : (Nat → R) → Nat → R} {es fs : List (VElem R)} (hf : AddsV bs f es) (hg : AddsV bs g fs) :
    AddsV bs (fun b => g (f b)) (es ++ fs) := by
  intro b i k hk
  beta_reduce
  rw [hg _ i k hk, hf b i k hk, localVec_append, add_assoc]

theorem addsV_integral (ty : IType) (dm : Dofmap) (hd : dm.bs = bs) (I : Integral R) :
    AddsV bs (match ty with
      | .cell => vectorCells dm I
      | .interiorFacet => vectorInterior dm I
      | _ => vectorEntities dm I) (intVElems ty dm I) := by
  have hz : ∀ be : Nat → R, (fun r => be (bs * 0 + r)) = be := by intro be; funext r; simp
  have hent : AddsV bs (vectorEntities dm I) ((List.range (I.dom0.length / 2)).map fun c =>
      ⟨dm.dofs (I.dom0.getD (2 * c) 0).toNat, I.tensor c⟩) := by
    unfold vectorEntities
    rw [List.map_eq_flatMap, hd]
    refine addsV_foldl (List.range (I.dom0.length / 2)) (fun f => addBlock bs (dm.dofs (I.dom0.getD (2 * f) 0).toNat) 0 (I.tensor f)) _ ?_
    intro f _
    have := addsV_block (bs := bs) (dm.dofs (I.dom0.getD (2 * f) 0).toNat) 0 (I.tensor f)
    rwa [hz] at this
  cases ty
  case cell =>
    change AddsV bs (vectorCells dm I) ((List.range I.dom0.length).map fun c => ⟨dm.dofs (I.dom0.getD c 0).toNat, I.tensor c⟩)
    unfold vectorCells
    rw [List.map_eq_flatMap, hd]
    refine addsV_foldl (List.range I.dom0.length) (fun f => addBlock bs (dm.dofs (I.dom0.getD f 0).toNat) 0 (I.tensor f)) _ ?_
    intro f _
    have := addsV_block (bs := bs) (dm.dofs (I.dom0.getD f 0).toNat) 0 (I.tensor f)
    rwa [hz] at this
  case interiorFacet =>
    change AddsV bs (vectorInterior dm I) ((List.range (I.dom0.length / 4)).flatMap _)
    unfold vectorInterior
    refine addsV_foldl (List.range (I.dom0.length / 4)) (fun f b =>
      addBlock dm.bs (cellDofs dm (I.dom0.getD (4 * f + 2) 0)) dm.width (I.tensor f)
        (addBlock dm.bs (cellDofs dm (I.dom0.getD (4 * f) 0)) 0 (I.tensor f) b)) _ ?_
    intro f _
    have h0 := addsV_block (bs := bs) (cellDofs dm (I.dom0.getD (4 * f) 0)) 0 (I.tensor f)
    have h1 := addsV_block (bs := bs) (cellDofs dm (I.dom0.getD (4 * f + 2) 0)) dm.width (I.tensor f)
    have := h0.comp h1
    rw [hd]
    refine Eq.mp ?_ this
    congr 1
    simp [cellDofs_eq]
  all_goals exact hent

theorem foldlM_some {α β : Type} (l : List α) (f : β → α → β) (b : β) :
    l.foldlM (fun b x => some (f b x)) b = some (l.foldl f b) := by
  induction l generalizing b with
  | nil => rfl
  | cons x l ih => simp [ih]

theorem foldlM_index {α β : Type} (l : List α) (f : β → α → β) (b : β) :
    (List.range l.length).foldlM (fun b i => (l[i]?).map fun x => f b x) b = some (l.foldl f b) := by
  induction l using List.reverseRecOn with
  | nil => rfl
  | append_singleton l x ih =>
    rw [List.length_append, List.length_singleton, List.range_succ, List.foldlM_append]
    have : (List.range l.length).foldlM (fun b i => ((l ++ [x])[i]?).map fun x => f b x) b =
        (List.range l.length).foldlM (fun b i => (l[i]?).map fun x => f b x) b := by
      have : ∀ (is : List Nat) b, (∀ i ∈ is, i < l.length) → is.foldlM (fun b i => ((l ++ [x])[i]?).map fun x => f b x) b =
        is.foldlM (fun b i => (l[i]?).map fun x => f b x) b := by
        intro is
        induction is with
        | nil => intro b _; rfl
        | cons i is ih =>
          intro b hi
          rw [List.foldlM_cons, List.foldlM_cons, List.getElem?_append_left (hi i (by simp))]
          congr 1
          funext b
          exact ih b (fun j hj => hi j (by simp [hj]))
      exact this _ b (by simp)
    rw [this, ih]
    simp

theorem vectorType_ok (L : Form R) (dm : Nat → Dofmap) (hd : ∀ t, (dm t).bs = bs) (hL : VAccepted L) (t : Nat) (ht : t < L.numTypes) :
    ∃ f, (∀ b, vectorType L dm b t = some (f b)) ∧ AddsV bs f
      ([IType.cell, .interiorFacet, .exteriorFacet, .vertex, .ridge].flatMap fun ty =>
        (L.ints ty t).flatMap fun I => intVElems ty (dm t) I) := by
  have hlen : (L.ints .cell 0).length = (L.ints .cell t).length := by
    rcases hL with h | h
    · obtain rfl : t = 0 := by omega
      rfl
    · exact (h t ht).2.symm
  have hoth : ∀ ty, ty ≠ .cell → L.ints ty 0 = L.ints ty t := by
    intro ty hty
    rcases hL with h | h
    · obtain rfl : t = 0 := by omega
      rfl
    · rw [(h t ht).1 ty hty, (h 0 (by omega)).1 ty hty]
  refine ⟨fun b => otherTypes.foldl (fun b ty => (L.ints ty t).foldl (fun b I => vectorEntities (dm t) I b) b)
      ((L.ints .interiorFacet t).foldl (fun b I => vectorInterior (dm t) I b)
        ((L.ints .cell t).foldl (fun b I => vectorCells (dm t) I b) b)), ?_, ?_⟩
  · intro b
    unfold vectorType
    rw [hlen, foldlM_index (L.ints .cell t) (fun b I => vectorCells (dm t) I b) b, Option.map_some,
      hoth .interiorFacet (by simp)]
    congr 1
    simp only [otherTypes, List.foldl_cons, List.foldl_nil]
    rw [hoth .exteriorFacet (by simp), hoth .vertex (by simp), hoth .ridge (by simp)]
  · have hi : ∀ ty, AddsV bs (fun b => (L.ints ty t).foldl (fun b I => (match ty with
      | .cell => vectorCells (dm t) I
      | .interiorFacet => vectorInterior (dm t) I
      | _ => vectorEntities (dm t) I) b) b) ((L.ints ty t).flatMap fun I => intVElems ty (dm t) I) :=
      fun ty => addsV_foldl (L.ints ty t) _ _ (fun I _ => addsV_integral ty (dm t) (hd t) I)
    have := ((((hi .cell).comp (hi .interiorFacet)).comp (hi .exteriorFacet)).comp (hi .vertex)).comp (hi .ridge)
    refine Eq.mp ?_ this
    congr 1
    simp

theorem assembleVector_ok (L : Form R) (dm : Nat → Dofmap) (hd : ∀ t, (dm t).bs = bs) (hL : VAccepted L) (b : Nat → R) :
    ∃ b', assembleVector L dm b = some b' ∧
      ∀ i k, k < bs → b' (bs * i + k) = b (bs * i + k) + localVec bs (velems L dm) i k := by
  have key : ∀ ts : List Nat, (∀ t ∈ ts, t < L.numTypes) → ∀ b, ∃ b', ts.foldlM (vectorType L dm) b = some b' ∧
      ∀ i k, k < bs → b' (bs * i + k) = b (bs * i + k) + localVec bs (ts.flatMap fun t =>
        [IType.cell, .interiorFacet, .exteriorFacet, .vertex, .ridge].flatMap fun ty =>
        (L.ints ty t).flatMap fun I => intVElems ty (dm t) I) i k := by
    intro ts
    induction ts with
    | nil => intro _ b; exact ⟨b, rfl, by intros; simp [localVec]⟩
    | cons t ts ih =>
      intro h b
      obtain ⟨f, h1, h2⟩ := vectorType_ok L dm hd hL t (h t (by simp))
      obtain ⟨b', h3, h4⟩ := ih (fun u hu => h u (by simp [hu])) (f b)
      refine ⟨b', by rw [List.foldlM_cons, h1]; exact h3, ?_⟩
      intro i k hk
      rw [h4 i k hk, h2 b i k hk, add_assoc, ← localVec_append]
      rfl
  exact key (List.range L.numTypes) (fun t ht => List.mem_range.mp ht) b

end Verif.Assembly
