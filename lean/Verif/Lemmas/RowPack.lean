import Verif.Lemmas.Pack
import Verif.Lemmas.Exchange
import Verif.Model.MatrixScatter
/-!
# Packing blocks of records per neighbour
-/
namespace Verif.RowPack
open Verif.Std Verif.Offsets Verif.Group Verif.MatScatter

variable {α β γ : Type}

theorem fill_map (key : α → Nat) (val : α → β) (g : γ → α) (cur : Nat → Nat) (buf : List β) (l : List γ) :
    fill key val cur buf (l.map g) = fill (fun x => key (g x)) (fun x => val (g x)) cur buf l := by
  unfold fill
  rw [List.foldl_map]
  rfl

theorem grp_blocks (key : α → Nat) (items : List α) (f : α → List β) (d : Nat) :
    (grp (fun x : α × β => key x.1) (items.flatMap fun x => (f x).map fun y => (x, y)) d).map Prod.snd =
      (grp key items d).flatMap f := by
  unfold grp
  induction items with
  | nil => rfl
  | cons a l ih =>
    rw [List.flatMap_cons, List.filter_append, List.map_append, ih]
    by_cases h : key a = d
    · rw [List.filter_cons_of_pos (by simp [h]), List.flatMap_cons, List.filter_eq_self.mpr]
      · simp [Function.comp_def]
      · intro x hx
        obtain ⟨y, _, rfl⟩ := List.mem_map.mp hx
        simp [h]
    · rw [List.filter_cons_of_neg (by simp [h]), List.filter_eq_nil_iff.mpr]
      · simp
      · intro x hx
        obtain ⟨y, _, rfl⟩ := List.mem_map.mp hx
        simp [h]

/-- Blocks of records written through cursors: the buffer lists the blocks of each neighbour. -/
theorem pack_blocks (D : List Nat) (hD : D.Nodup) (items : List α) (key pos : α → Nat) (f : α → List β)
    (hk : ∀ x ∈ items, key x ∈ D) (hpos : ∀ x ∈ items, pos x = D.idxOf (key x)) (sizes : List Nat)
    (hs : sizes = D.map fun d => ((grp key items d).flatMap f).length) (b0 : β) :
    (fill Prod.fst Prod.snd (fun b => (sizes.take b).sum) (List.replicate sizes.sum b0)
      (items.flatMap fun x => (f x).map fun y => (pos x, y))).2 = D.flatMap fun d => (grp key items d).flatMap f := by
  have h1 : (items.flatMap fun x => (f x).map fun y => (pos x, y)) =
      (items.flatMap fun x => (f x).map fun y => (x, y)).map fun z : α × β => (pos z.1, z.2) := by
    rw [List.map_flatMap]
    apply List.flatMap_congr
    intro x _
    simp [Function.comp_def]
  have hm : ∀ z ∈ (items.flatMap fun x => (f x).map fun y => (x, y)), z.1 ∈ items := by
    intro z hz
    obtain ⟨x, hx, hz⟩ := List.mem_flatMap.mp hz
    obtain ⟨y, _, rfl⟩ := List.mem_map.mp hz
    exact hx
  have hs' : sizes = D.map fun d =>
      (grp (fun x : α × β => key x.1) (items.flatMap fun x => (f x).map fun y => (x, y)) d).length := by
    rw [hs]
    apply List.map_congr_left
    intro d _
    rw [← grp_blocks, List.length_map]
  rw [h1, fill_map]
  rw [pack_eq D hD _ (fun x : α × β => key x.1) _ Prod.snd (fun z hz => hk _ (hm z hz)) (fun z hz => hpos _ (hm z hz))
    sizes hs']
  · apply List.flatMap_congr
    intro d _
    rw [← grp_blocks]
  · rw [List.length_replicate, hs']
    exact sum_grp _ D hD _ (fun z hz => hk _ (hm z hz))

/-- Writing a block element by element through its cursor is one copy. -/
theorem fill_block (k : Nat) (l : List β) (cur : Nat → Nat) (buf : List β) :
    fill Prod.fst Prod.snd cur buf (l.map fun y => (k, y)) =
      (fun b => if b = k then cur b + l.length else cur b, copyAt buf (cur k) l) := by
  induction l using List.reverseRecOn with
  | nil => simp [fill, copyAt]
  | append_singleton l y ih =>
    rw [List.map_append, List.map_singleton, fill_append_singleton, ih]
    simp only [fillStep, copyAt, List.zipIdx_append, List.foldl_append, List.length_append, List.length_singleton]
    refine Prod.ext ?_ ?_
    · funext b
      simp only
      split <;> omega
    · simp

/-- Copying whole blocks through cursors is the element-wise fill. -/
theorem copy_fill (items : List α) (pos : α → Nat) (f : α → List β)
    (step : (Nat → Nat) × List β → α → (Nat → Nat) × List β)
    (hstep : ∀ s, ∀ x ∈ items, step s x =
      (fun b => if b = pos x then s.1 b + (f x).length else s.1 b, copyAt s.2 (s.1 (pos x)) (f x)))
    (s : (Nat → Nat) × List β) :
    items.foldl step s = fill Prod.fst Prod.snd s.1 s.2 (items.flatMap fun x => (f x).map fun y => (pos x, y)) := by
  induction items generalizing s with
  | nil => rfl
  | cons a l ih =>
    rw [List.foldl_cons, ih (fun s x hx => hstep s x (by simp [hx])), List.flatMap_cons]
    have : ∀ (l₁ l₂ : List (Nat × β)), fill Prod.fst Prod.snd s.1 s.2 (l₁ ++ l₂) =
        fill Prod.fst Prod.snd (fill Prod.fst Prod.snd s.1 s.2 l₁).1 (fill Prod.fst Prod.snd s.1 s.2 l₁).2 l₂ := by
      intro l₁ l₂; unfold fill; rw [List.foldl_append]
    rw [this, fill_block, hstep s a (by simp)]

/-- The counting loop `count[pos(x)] += n(x)`. -/
theorem count_getElem? (items : List α) (pos n : α → Nat) (v : List Nat) (b : Nat) :
    (items.foldl (fun c x => c.modify (pos x) (· + n x)) v)[b]? =
      v[b]?.map fun m => m + ((items.filter fun x => pos x == b).map n).sum := by
  induction items generalizing v with
  | nil => simp
  | cons a l ih =>
    rw [List.foldl_cons, ih, List.getElem?_modify]
    by_cases h : pos a = b
    · rw [List.filter_cons_of_pos (by simp [h])]
      cases v[b]? with
      | none => simp
      | some m => simp [h]; omega
    · rw [List.filter_cons_of_neg (by simp [h])]
      cases v[b]? with
      | none => simp
      | some m => simp [h]

theorem length_flatMap_eq_sum (l : List α) (f : α → List β) : (l.flatMap f).length = (l.map fun x => (f x).length).sum := by
  rw [List.length_flatMap]

/-- The counts of the counting loop are the block sizes per neighbour. -/
theorem count_blocks (D : List Nat) (hD : D.Nodup) (items : List α) (key pos n : α → Nat) (f : α → List β)
    (hk : ∀ x ∈ items, key x ∈ D) (hpos : ∀ x ∈ items, pos x = D.idxOf (key x)) (hn : ∀ x ∈ items, n x = (f x).length) :
    items.foldl (fun c x => c.modify (pos x) (· + n x)) (List.replicate D.length 0) =
      D.map fun d => ((grp key items d).flatMap f).length := by
  apply List.ext_getElem?
  intro b
  rw [count_getElem?, List.getElem?_map, List.getElem?_replicate]
  by_cases hb : b < D.length
  · rw [if_pos hb, List.getElem?_eq_getElem hb]
    simp only [Option.map_some, Option.some.injEq, Nat.zero_add]
    rw [length_flatMap_eq_sum]
    have : (items.filter fun x => pos x == b) = grp key items D[b] := by
      unfold grp
      apply List.filter_congr
      intro e he
      rw [Bool.eq_iff_iff]
      simp only [beq_iff_eq, decide_eq_true_eq]
      rw [hpos e he]
      constructor
      · intro h
        have h1 := List.getElem?_idxOf (hk e he)
        rw [h, List.getElem?_eq_getElem hb] at h1
        exact (Option.some.inj h1).symm
      · intro h
        rw [h, hD.idxOf_getElem]
    rw [this]
    congr 1
    apply List.map_congr_left
    intro x hx
    exact hn x ((mem_grp _ _ _ _).mp hx).1
  · rw [if_neg hb, List.getElem?_eq_none (by omega)]; rfl

end Verif.RowPack
