import Verif.Model.BlockSystem
import Verif.Spec.BlockSystem
import Verif.Lemmas.BucketFill
import Mathlib.Data.List.Forall2
/-!
# Block systems: lemmas
-/
namespace Verif.BlockSystem
open Verif.Spec.BlockSystem Verif.StackMaps Verif.Offsets

variable {T : Type}

/-! ## Slices -/

theorem slice_mid (pre mid post : List T) : slice pre.length (pre.length + mid.length) (pre ++ mid ++ post) = mid := by
  unfold slice
  rw [List.append_assoc, List.drop_left, Nat.add_sub_cancel_left, List.take_left]

theorem broadcast_same (n : Nat) (src : List T) (h : src.length = n) : broadcast n src = some src := by
  unfold broadcast
  rw [if_pos h]

theorem assignSlice_mid (pre mid post src : List T) (h : src.length = mid.length) :
    assignSlice pre.length (pre.length + mid.length) src (pre ++ mid ++ post) = some (pre ++ src ++ post) := by
  unfold assignSlice
  rw [slice_mid, broadcast_same _ _ h, Nat.max_eq_right (Nat.le_add_right _ _)]
  simp only [Option.bind_eq_bind, Option.bind_some]
  rw [List.append_assoc pre mid, List.take_left, ← List.append_assoc, ← List.length_append, List.drop_left]

theorem addSlice_mid [Add T] (pre mid post src : List T) (h : src.length = mid.length) :
    addSlice pre.length (pre.length + mid.length) src (pre ++ mid ++ post) =
      some (pre ++ List.zipWith (· + ·) mid src ++ post) := by
  unfold addSlice
  rw [slice_mid, broadcast_same _ _ h, Nat.max_eq_right (Nat.le_add_right _ _)]
  simp only [Option.bind_eq_bind, Option.bind_some]
  rw [List.append_assoc pre mid, List.take_left, ← List.append_assoc, ← List.length_append, List.drop_left]

/-! ## Offsets -/

/-- Start and end of consecutive pieces. -/
def intervalsFrom : Nat → List Nat → List (Nat × Nat)
  | _, [] => []
  | s, x :: l => (s, s + x) :: intervalsFrom (s + x) l

theorem accumulate_ne_nil (s : Nat) (l : List Nat) : accumulate s l ≠ [] := by
  cases l <;> simp [accumulate]

theorem accumulate_head (s : Nat) (l : List Nat) : ∃ t, accumulate s l = s :: t := by
  cases l with
  | nil => exact ⟨_, rfl⟩
  | cons x l => exact ⟨_, rfl⟩

theorem intervals_accumulate (s : Nat) (l : List Nat) : intervals (accumulate s l) = intervalsFrom s l := by
  induction l generalizing s with
  | nil => rfl
  | cons x l ih =>
    obtain ⟨t, ht⟩ := accumulate_head (s + x) l
    have h := ih (s + x)
    rw [ht] at h
    show intervals (s :: accumulate (s + x) l) = _
    rw [ht]
    unfold intervals at h ⊢
    rw [List.dropLast_cons_of_ne_nil (by simp)]
    simp only [List.tail_cons] at h ⊢
    rw [List.zip_cons_cons, h]
    rfl

theorem accumulate_last (s : Nat) (l : List Nat) : (accumulate s l).getLastD 0 = s + l.sum := by
  induction l generalizing s with
  | nil => simp [accumulate]
  | cons x l ih =>
    obtain ⟨t, ht⟩ := accumulate_head (s + x) l
    have h := ih (s + x)
    rw [ht] at h
    show (s :: accumulate (s + x) l).getLastD 0 = _
    rw [ht]
    rw [List.sum_cons, ← Nat.add_assoc, ← h]
    simp [List.getLastD]

theorem intervalsFrom_length (s : Nat) (l : List Nat) : (intervalsFrom s l).length = l.length := by
  induction l generalizing s with
  | nil => rfl
  | cons x l ih => simp [intervalsFrom, ih]

/-- Sizes of the parts. -/
def sizes (ps : List (List T × List T)) : List Field := ps.map fun p => ⟨p.1.length, p.2.length⟩

theorem own_sum (ps : List (List T × List T)) : ((sizes ps).map Field.own).sum = (ps.flatMap Prod.fst).length := by
  simp [sizes, List.length_flatMap, Function.comp_def]

theorem gh_sum (ps : List (List T × List T)) : ((sizes ps).map Field.gh).sum = (ps.flatMap Prod.snd).length := by
  simp [sizes, List.length_flatMap, Function.comp_def]

/-- Where the parts lie, owned parts from `o`, ghost parts from `g`. -/
def rangesFrom : Nat → Nat → List (List T × List T) → List ((Nat × Nat) × (Nat × Nat))
  | _, _, [] => []
  | o, g, p :: ps => ((o, o + p.1.length), (g, g + p.2.length)) :: rangesFrom (o + p.1.length) (g + p.2.length) ps

theorem zip_intervalsFrom (o g : Nat) (ps : List (List T × List T)) :
    (intervalsFrom o ((sizes ps).map Field.own)).zip (intervalsFrom g ((sizes ps).map Field.gh)) = rangesFrom o g ps := by
  induction ps generalizing o g with
  | nil => rfl
  | cons p ps ih => simp only [sizes, List.map_cons, intervalsFrom, List.zip_cons_cons, rangesFrom]; rw [← ih]; rfl

theorem ranges_blocks (ps : List (List T × List T)) :
    ranges (blocks (sizes ps)) = rangesFrom 0 (ps.flatMap Prod.fst).length ps := by
  unfold ranges blocks
  simp only []
  rw [intervals_accumulate, intervals_accumulate, accumulate_last, Nat.zero_add, own_sum]
  exact zip_intervalsFrom _ _ _

theorem rangesFrom_length (o g : Nat) (ps : List (List T × List T)) : (rangesFrom o g ps).length = ps.length := by
  induction ps generalizing o g with
  | nil => rfl
  | cons p ps ih => simp [rangesFrom, ih]

/-! ## The stack with one field singled out -/

theorem stack_own (done rest : List (List T × List T)) (p : List T × List T) :
    stack (done ++ p :: rest) = done.flatMap Prod.fst ++ p.1 ++
      (rest.flatMap Prod.fst ++ (done ++ p :: rest).flatMap Prod.snd) := by
  simp [stack, List.append_assoc]

theorem stack_gh (done rest : List (List T × List T)) (p : List T × List T) :
    stack (done ++ p :: rest) = ((done ++ p :: rest).flatMap Prod.fst ++ done.flatMap Prod.snd) ++ p.2 ++
      rest.flatMap Prod.snd := by
  simp [stack, List.append_assoc]

/-- Where the parts of the field after `done` lie. -/
def place (done rest : List (List T × List T)) (p : List T × List T) : (Nat × Nat) × (Nat × Nat) :=
  (((done.flatMap Prod.fst).length, (done.flatMap Prod.fst).length + p.1.length),
   (((done ++ p :: rest).flatMap Prod.fst).length + (done.flatMap Prod.snd).length,
    ((done ++ p :: rest).flatMap Prod.fst).length + (done.flatMap Prod.snd).length + p.2.length))

theorem gather_stack (done rest : List (List T × List T)) (p : List T × List T) :
    gather (stack (done ++ p :: rest)) (place done rest p) = whole p := by
  unfold gather place whole
  simp only []
  congr 1
  · rw [stack_own]; exact slice_mid _ _ _
  · rw [stack_gh, ← List.length_append]; exact slice_mid _ _ _

theorem assign_own (done rest : List (List T × List T)) (p : List T × List T) (src : List T) (h : src.length = p.1.length) :
    assignSlice (place done rest p).1.1 (place done rest p).1.2 src (stack (done ++ p :: rest)) =
      some (stack (done ++ (src, p.2) :: rest)) := by
  rw [stack_own, stack_own]
  unfold place
  simp only []
  rw [assignSlice_mid _ _ _ _ h]
  simp

theorem assign_gh (done rest : List (List T × List T)) (p : List T × List T) (src : List T) (h : src.length = p.2.length) :
    assignSlice (place done rest p).2.1 (place done rest p).2.2 src (stack (done ++ p :: rest)) =
      some (stack (done ++ (p.1, src) :: rest)) := by
  rw [stack_gh, stack_gh]
  unfold place
  simp only []
  rw [← List.length_append, assignSlice_mid _ _ _ _ h]
  simp

theorem add_own [Add T] (done rest : List (List T × List T)) (p : List T × List T) (src : List T) (h : src.length = p.1.length) :
    addSlice (place done rest p).1.1 (place done rest p).1.2 src (stack (done ++ p :: rest)) =
      some (stack (done ++ (List.zipWith (· + ·) p.1 src, p.2) :: rest)) := by
  rw [stack_own, stack_own]
  unfold place
  simp only []
  rw [addSlice_mid _ _ _ _ h]
  simp

theorem add_gh [Add T] (done rest : List (List T × List T)) (p : List T × List T) (src : List T) (h : src.length = p.2.length) :
    addSlice (place done rest p).2.1 (place done rest p).2.2 src (stack (done ++ p :: rest)) =
      some (stack (done ++ (p.1, List.zipWith (· + ·) p.2 src) :: rest)) := by
  rw [stack_gh, stack_gh]
  unfold place
  simp only []
  rw [← List.length_append, addSlice_mid _ _ _ _ h]
  simp

theorem place_congr (done rest : List (List T × List T)) (p q : List T × List T)
    (h1 : q.1.length = p.1.length) (h2 : q.2.length = p.2.length) : place done rest q = place done rest p := by
  unfold place
  simp [h1, h2]

/-- A loop over the fields whose body changes one field at a time. -/
theorem fields_loop {α : Type} (F : List T → α × ((Nat × Nat) × (Nat × Nat)) → Option (List T))
    (Q : α × (List T × List T) → List T × List T → Prop) (ok : α × (List T × List T) → Prop)
    (hF : ∀ done rest p f, ok (f, p) → ∃ p', F (stack (done ++ p :: rest)) (f, place done rest p) =
      some (stack (done ++ p' :: rest)) ∧ p'.1.length = p.1.length ∧ p'.2.length = p.2.length ∧ Q (f, p) p')
    (fs : List α) (ps done : List (List T × List T)) (hl : fs.length = ps.length) (hok : ∀ x ∈ fs.zip ps, ok x) :
    ∃ ps', (fs.zip (rangesFrom (done.flatMap Prod.fst).length
        (((done ++ ps).flatMap Prod.fst).length + (done.flatMap Prod.snd).length) ps)).foldlM F (stack (done ++ ps)) =
        some (stack (done ++ ps')) ∧ SameSizes ps' ps ∧ List.Forall₂ Q (fs.zip ps) ps' := by
  induction fs generalizing ps done with
  | nil =>
    cases ps with
    | nil => exact ⟨[], rfl, rfl, List.Forall₂.nil⟩
    | cons p ps => cases hl
  | cons f fs ih =>
    cases ps with
    | nil => cases hl
    | cons p ps =>
      obtain ⟨p', h1, h2, h3, h4⟩ := hF done ps p f (hok _ (by simp))
      obtain ⟨ps', h5, h6, h7⟩ := ih ps (done ++ [p']) (by simpa using hl) (fun x hx => hok x (by simp [hx]))
      refine ⟨p' :: ps', ?_, ?_, List.Forall₂.cons h4 h7⟩
      · rw [rangesFrom, List.zip_cons_cons, List.foldlM_cons]
        have hp : ((((done.flatMap Prod.fst).length, (done.flatMap Prod.fst).length + p.1.length),
            (((done ++ p :: ps).flatMap Prod.fst).length + (done.flatMap Prod.snd).length,
              ((done ++ p :: ps).flatMap Prod.fst).length + (done.flatMap Prod.snd).length + p.2.length)) :
              (Nat × Nat) × (Nat × Nat)) = place done ps p := rfl
        rw [hp, h1]
        show List.foldlM F (stack (done ++ p' :: ps)) _ = _
        rw [show done ++ p' :: ps = (done ++ [p']) ++ ps by simp, show done ++ p' :: ps' = (done ++ [p']) ++ ps' by simp]
        rw [← h5]
        congr 2
        congr 1
        · simp [h2]
        · simp [h2, h3]; omega
      · unfold SameSizes at h6 ⊢
        rw [List.map_cons, List.map_cons, h6, h2, h3]

/-- A loop over the owned parts only. -/
theorem owned_loop {α : Type} (F : List T → α × (Nat × Nat) → Option (List T))
    (Q : α × List T → List T → Prop) (ok : α × List T → Prop)
    (hF : ∀ pre post p f, ok (f, p) → ∃ p', F (pre ++ p ++ post) (f, (pre.length, pre.length + p.length)) =
      some (pre ++ p' ++ post) ∧ p'.length = p.length ∧ Q (f, p) p')
    (fs : List α) (ps : List (List T)) (pre : List T) (hl : fs.length = ps.length) (hok : ∀ x ∈ fs.zip ps, ok x) :
    ∃ ps', (fs.zip (intervalsFrom pre.length (ps.map List.length))).foldlM F (pre ++ ps.flatten) =
        some (pre ++ ps'.flatten) ∧ ps'.map List.length = ps.map List.length ∧ List.Forall₂ Q (fs.zip ps) ps' := by
  induction fs generalizing ps pre with
  | nil =>
    cases ps with
    | nil => exact ⟨[], rfl, rfl, List.Forall₂.nil⟩
    | cons p ps => cases hl
  | cons f fs ih =>
    cases ps with
    | nil => cases hl
    | cons p ps =>
      obtain ⟨p', h1, h2, h3⟩ := hF pre ps.flatten p f (hok _ (by simp))
      obtain ⟨ps', h5, h6, h7⟩ := ih ps (pre ++ p') (by simpa using hl) (fun x hx => hok x (by simp [hx]))
      refine ⟨p' :: ps', ?_, ?_, List.Forall₂.cons h3 h7⟩
      · rw [List.map_cons, intervalsFrom, List.zip_cons_cons, List.foldlM_cons, List.flatten_cons, List.flatten_cons,
          ← List.append_assoc, ← List.append_assoc, h1]
        show List.foldlM F (pre ++ p' ++ ps.flatten) _ = _
        rw [← h5]
        congr 2
        simp [h2]
      · rw [List.map_cons, List.map_cons, h6, h2]

/-! ## Copying -/

theorem write_loop (l : List (List T)) (pre post : List T) (hl : post.length = l.flatten.length) :
    l.foldlM writeStep (pre ++ post, pre.length) = some (pre ++ l.flatten, (pre ++ l.flatten).length) := by
  induction l generalizing pre post with
  | nil =>
    have : post = [] := List.eq_nil_of_length_eq_zero (by simpa using hl)
    subst this
    simp
  | cons x l ih =>
    rw [List.foldlM_cons]
    have hs : writeStep (pre ++ post, pre.length) x =
        some (pre ++ x ++ post.drop x.length, (pre ++ x).length) := by
      unfold writeStep
      simp only []
      have hx : (post.take x.length).length = x.length := by
        rw [List.length_take]; simp at hl; omega
      have h := assignSlice_mid pre (post.take x.length) (post.drop x.length) x hx.symm
      rw [List.append_assoc pre, List.take_append_drop, hx] at h
      rw [h]
      simp
    rw [hs]
    show List.foldlM writeStep (pre ++ x ++ post.drop x.length, (pre ++ x).length) l = _
    rw [ih (pre ++ x) (post.drop x.length) (by simp at hl ⊢; omega)]
    simp

theorem read_loop (ys xs : List (List T)) (pre post : List T) (acc : List (List T))
    (hl : xs.map List.length = ys.map List.length) :
    xs.foldlM (readStep (pre ++ ys.flatten ++ post)) (acc, pre.length) =
      some (acc ++ ys, pre.length + ys.flatten.length) := by
  induction ys generalizing xs pre acc with
  | nil =>
    have : xs = [] := by simpa using hl
    subst this
    simp
  | cons y ys ih =>
    cases xs with
    | nil => simp at hl
    | cons x xs =>
      simp only [List.map_cons, List.cons.injEq] at hl
      rw [List.foldlM_cons]
      have hs : readStep (pre ++ (y :: ys).flatten ++ post) (acc, pre.length) x =
          some (acc ++ [y], (pre ++ y).length) := by
        unfold readStep
        simp only []
        have h1 := slice_mid pre y (ys.flatten ++ post)
        have h2 := assignSlice_mid [] x [] y hl.1.symm
        simp only [List.nil_append, List.append_nil, List.length_nil, Nat.zero_add] at h2
        rw [hl.1, show pre ++ (y :: ys).flatten ++ post = pre ++ y ++ (ys.flatten ++ post) by simp, h1, ← hl.1, h2]
        simp [hl.1]
      rw [hs]
      show List.foldlM _ (acc ++ [y], (pre ++ y).length) xs = _
      rw [show pre ++ (y :: ys).flatten ++ post = (pre ++ y) ++ ys.flatten ++ post by simp, ih xs (pre ++ y) (acc ++ [y]) hl.2]
      simp [Nat.add_assoc]

theorem foldl_own (fs : List Field) (n : Nat) : fs.foldl (fun n f => n + f.own) n = n + (fs.map Field.own).sum := by
  induction fs generalizing n with
  | nil => simp
  | cons f fs ih => rw [List.foldl_cons, ih, List.map_cons, List.sum_cons, Nat.add_assoc]

theorem copyOut_mid (pre mid post : List T) : copyOut (pre ++ mid ++ post) pre.length mid.length = some mid := by
  unfold copyOut
  rw [if_pos (by simp [List.length_append]), slice_mid]

theorem copyIn_mid (pre mid post src : List T) (h : src.length = mid.length) :
    copyIn pre.length src (pre ++ mid ++ post) = some (pre ++ src ++ post) := by
  unfold copyIn
  rw [if_pos (by simp [List.length_append, h]), List.append_assoc pre mid, List.take_left, h, ← List.append_assoc,
    ← List.length_append, List.drop_left]

theorem get_loop (ps done : List (List T × List T)) (acc : List (List T)) :
    (sizes ps).foldlM (getStep (stack (done ++ ps))) (acc, (done.flatMap Prod.fst).length,
      ((done ++ ps).flatMap Prod.fst).length + (done.flatMap Prod.snd).length) =
      some (acc ++ ps.map whole, ((done ++ ps).flatMap Prod.fst).length,
        ((done ++ ps).flatMap Prod.fst).length + ((done ++ ps).flatMap Prod.snd).length) := by
  induction ps generalizing done acc with
  | nil => simp [sizes]
  | cons p ps ih =>
    rw [show sizes (p :: ps) = ⟨p.1.length, p.2.length⟩ :: sizes ps from rfl, List.foldlM_cons]
    have hs : getStep (stack (done ++ p :: ps)) (acc, (done.flatMap Prod.fst).length,
        ((done ++ p :: ps).flatMap Prod.fst).length + (done.flatMap Prod.snd).length) ⟨p.1.length, p.2.length⟩ =
        some (acc ++ [whole p], ((done ++ [p]).flatMap Prod.fst).length,
          ((done ++ [p] ++ ps).flatMap Prod.fst).length + ((done ++ [p]).flatMap Prod.snd).length) := by
      unfold getStep
      simp only []
      have h1 := copyOut_mid (done.flatMap Prod.fst) p.1 (ps.flatMap Prod.fst ++ (done ++ p :: ps).flatMap Prod.snd)
      have h2 := copyOut_mid ((done ++ p :: ps).flatMap Prod.fst ++ done.flatMap Prod.snd) p.2 (ps.flatMap Prod.snd)
      rw [← stack_own] at h1
      rw [← stack_gh, List.length_append] at h2
      rw [h1, h2]
      simp only [Option.bind_eq_bind, Option.bind_some, whole]
      simp
      omega
    rw [hs]
    show List.foldlM _ (acc ++ [whole p], _, _) (sizes ps) = _
    rw [show done ++ p :: ps = done ++ [p] ++ ps by simp, ih]
    simp

theorem scatter_loop (ps qs done : List (List T × List T)) (hs : SameSizes qs ps) :
    ((ps.map whole).zip (sizes ps)).foldlM scatterStep (stack (done ++ qs), (done.flatMap Prod.fst).length,
      ((done ++ qs).flatMap Prod.fst).length + (done.flatMap Prod.snd).length) =
      some (stack (done ++ ps), ((done ++ ps).flatMap Prod.fst).length,
        ((done ++ ps).flatMap Prod.fst).length + ((done ++ ps).flatMap Prod.snd).length) := by
  induction ps generalizing qs done with
  | nil =>
    have : qs = [] := by simpa [SameSizes] using hs
    subst this
    simp [sizes]
  | cons p ps ih =>
    cases qs with
    | nil => simp [SameSizes] at hs
    | cons q qs =>
      simp only [SameSizes, List.map_cons, List.cons.injEq, Prod.mk.injEq] at hs
      obtain ⟨⟨hs1, hs2⟩, hs3⟩ := hs
      rw [show sizes (p :: ps) = ⟨p.1.length, p.2.length⟩ :: sizes ps from rfl, List.map_cons, List.zip_cons_cons,
        List.foldlM_cons]
      have hstep : scatterStep (stack (done ++ q :: qs), (done.flatMap Prod.fst).length,
          ((done ++ q :: qs).flatMap Prod.fst).length + (done.flatMap Prod.snd).length) (whole p, ⟨p.1.length, p.2.length⟩) =
          some (stack (done ++ p :: qs), ((done ++ [p]).flatMap Prod.fst).length,
            ((done ++ [p] ++ qs).flatMap Prod.fst).length + ((done ++ [p]).flatMap Prod.snd).length) := by
        unfold scatterStep
        simp only []
        have h1 := copyOut_mid [] p.1 p.2
        have h2 := copyOut_mid p.1 p.2 []
        have h3 := copyIn_mid (done.flatMap Prod.fst) q.1 (qs.flatMap Prod.fst ++ (done ++ q :: qs).flatMap Prod.snd) p.1 hs1.symm
        have h4 := copyIn_mid ((done ++ (p.1, q.2) :: qs).flatMap Prod.fst ++ done.flatMap Prod.snd) q.2 (qs.flatMap Prod.snd) p.2 hs2.symm
        rw [← stack_own] at h3
        rw [← stack_gh done qs (p.1, q.2), List.length_append] at h4
        simp only [List.nil_append, List.length_nil, List.append_nil] at h1 h2
        unfold whole
        rw [h1, h2]
        simp only [Option.bind_eq_bind, Option.bind_some]
        rw [h3]
        simp only [Option.bind_some]
        rw [show done.flatMap Prod.fst ++ p.1 ++ (qs.flatMap Prod.fst ++ (done ++ q :: qs).flatMap Prod.snd) =
            stack (done ++ (p.1, q.2) :: qs) by rw [stack_own]; simp]
        rw [show ((done ++ q :: qs).flatMap Prod.fst).length = ((done ++ (p.1, q.2) :: qs).flatMap Prod.fst).length by
          simp [hs1], h4]
        simp only [Option.bind_some]
        congr 2
        · rw [stack_gh]; simp
        · simp; omega
      rw [hstep]
      show List.foldlM scatterStep (stack (done ++ p :: qs), _, _) _ = _
      rw [show done ++ p :: qs = done ++ [p] ++ qs by simp, show done ++ p :: ps = done ++ [p] ++ ps by simp]
      exact ih qs (done ++ [p]) hs3

end Verif.BlockSystem
