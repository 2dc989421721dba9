import Verif.Lemmas.BlockSystem
import Verif.Props.C30_StackMaps
import Mathlib.Algebra.BigOperators.Group.List.Basic
/-!
# Block systems: numbering and matrices
-/
namespace Verif.BlockSystem
open Verif.Spec.BlockSystem Verif.StackMaps Verif.Offsets Verif.Props

/-! ## Numbering -/

/-- The numbers of the owned and ghost entries of field `m` on rank `r`. -/
def numberParts (s : Maps) (r m : Nat) : List (Option Nat) × List (Option Nat) :=
  ((List.range (s.bs m * (s.w m).size r)).map (fun i => some (i + s.processOffset r + s.localOffset r m)), s.ghostsNew m r)

theorem range_excl (c : Nat → Nat) (M : Nat) :
    List.range (excl c M) = (List.range M).flatMap fun m => (List.range (c m)).map (excl c m + ·) := by
  induction M with
  | zero => rfl
  | succ M ih =>
    rw [excl_succ, List.range_add, ih, List.range_succ, List.flatMap_append]
    simp

theorem ghostsNew_length (s : Maps) (m r : Nat) : (s.ghostsNew m r).length = s.bs m * ((s.w m).ghosts r).length := by
  unfold Maps.ghostsNew
  have : ∀ (l : List (Nat × Nat)) (a : List (Option Nat)),
      (l.foldl (fun a e => a.set e.1 (some e.2)) a).length = a.length := by
    intro l
    induction l with
    | nil => intro a; rfl
    | cons x l ih => intro a; rw [List.foldl_cons, ih, List.length_set]
  rw [this, List.length_replicate]

theorem vectorNumbers_eq (s : Maps) (r : Nat) :
    vectorNumbers s r = stack ((List.range s.M).map (numberParts s r)) := by
  unfold vectorNumbers stack
  rw [List.flatMap_map, List.flatMap_map]
  congr 1
  · rw [← processOffset_eq]
    unfold Maps.localOffset
    rw [range_excl, List.map_flatMap]
    apply List.flatMap_congr
    intro m _
    rw [List.map_map]
    apply List.map_congr_left
    intro i _
    simp only [Function.comp_apply, Option.some.injEq]
    unfold Maps.localOffset
    omega

theorem fieldsAt_sizes (s : Maps) (r : Nat) : fieldsAt s r = sizes ((List.range s.M).map (numberParts s r)) := by
  unfold fieldsAt sizes
  rw [List.map_map]
  apply List.map_congr_left
  intro m _
  simp [numberParts, ghostsNew_length]

/-- Number of entries of field `m`. -/
def fieldLen (s : Maps) (r m : Nat) : Nat := s.bs m * (s.w m).size r + s.bs m * ((s.w m).ghosts r).length

theorem numberParts_length (s : Maps) (r m : Nat) :
    ((numberParts s r m).1 ++ (numberParts s r m).2).length = fieldLen s r m := by
  simp [numberParts, ghostsNew_length, fieldLen]

theorem matrixNumbers_eq (s : Maps) (r : Nat) :
    matrixNumbers s r = (List.range s.M).flatMap fun m => (numberParts s r m).1 ++ (numberParts s r m).2 := rfl

theorem indexSets_range (c g : Nat → Nat) (M : Nat) :
    ((List.range M).map fun m => (⟨c m, g m⟩ : Field)).foldl indexSetStep ([], 0) =
      ((List.range M).map fun m => (List.range (c m + g m)).map (excl (fun m => c m + g m) m + ·),
        excl (fun m => c m + g m) M) := by
  induction M with
  | zero => rfl
  | succ M ih =>
    rw [List.range_succ, List.map_append, List.foldl_append, ih, excl_succ]
    simp [indexSetStep]

theorem subNumbers_eq (s : Maps) (r m : Nat) (hm : m < s.M) :
    subNumbers s r m = (numberParts s r m).1 ++ (numberParts s r m).2 := by
  unfold subNumbers indexSets fieldsAt
  rw [indexSets_range]
  simp only []
  rw [List.getD_eq_getElem?_getD, List.getElem?_map, List.getElem?_range hm]
  simp only [Option.map_some, Option.getD_some, List.map_map]
  apply List.ext_getElem?
  intro k
  rw [List.getElem?_map]
  by_cases hk : k < fieldLen s r m
  · rw [List.getElem?_range (show k < s.bs m * (s.w m).size r + s.bs m * ((s.w m).ghosts r).length from hk)]
    simp only [Option.map_some, Function.comp_apply]
    rw [matrixNumbers_eq]
    have h := getElem?_flatMap_range (fun m => (numberParts s r m).1 ++ (numberParts s r m).2) hm (k := k)
      (by rw [numberParts_length]; exact hk)
    have he : excl (fun b => ((numberParts s r b).1 ++ (numberParts s r b).2).length) m =
        excl (fun m => s.bs m * (s.w m).size r + s.bs m * ((s.w m).ghosts r).length) m :=
      excl_congr (fun i _ => numberParts_length s r i)
    rw [he] at h
    rw [h]
    obtain ⟨x, hx⟩ : ∃ x, ((numberParts s r m).1 ++ (numberParts s r m).2)[k]? = some x :=
      ⟨_, List.getElem?_eq_getElem (by rw [numberParts_length]; exact hk)⟩
    rw [hx]; rfl
  · rw [List.getElem?_eq_none (by simpa [fieldLen] using hk), List.getElem?_eq_none (by
      rw [numberParts_length]; omega)]
    rfl

theorem singleNumbers_length (s : Maps) (r m : Nat) : (singleNumbers s r m).length = fieldLen s r m := by
  unfold singleNumbers fieldLen
  rw [Exchange.length_flatMap_const _ _ (s.bs m) (by intros; simp)]
  simp
  ring

theorem flatMap_const_get {α β : Type} (l : List α) (f : α → List β) (b : Nat) (hf : ∀ x ∈ l, (f x).length = b)
    (i k : Nat) (x : α) (hi : l[i]? = some x) (hk : k < b) : (l.flatMap f)[b * i + k]? = (f x)[k]? := by
  induction l generalizing i with
  | nil => simp at hi
  | cons y l ih =>
    rw [List.flatMap_cons]
    have hy : (f y).length = b := hf y (by simp)
    cases i with
    | zero =>
      simp only [List.getElem?_cons_zero, Option.some.injEq] at hi
      subst hi
      rw [Nat.mul_zero, Nat.zero_add, List.getElem?_append_left (by omega)]
    | succ i =>
      rw [List.getElem?_append_right (by rw [hy, Nat.mul_succ]; omega), hy]
      rw [show b * (i + 1) + k - b = b * i + k by rw [Nat.mul_succ]; omega]
      exact ih (fun x hx => hf x (by simp [hx])) i (by simpa using hi)

/-- Local index `j` of field `m` on rank `r` has a number in the block system and one in a system
of its own, and both belong to the same entry. -/
theorem numbers_get (s : Maps) (h : MapsOk s) (r m j : Nat) (hr : r < s.P) (hm : m < s.M) (hj : j < fieldLen s r m) :
    ∃ e n, (singleNumbers s r m)[j]? = some (some e) ∧ (subNumbers s r m)[j]? = some (some n) ∧
      (stacked s)[n]? = some (m, e / s.bs m, e % s.bs m) := by
  have hb : 0 < s.bs m := by
    by_contra hb
    have : s.bs m = 0 := by omega
    simp [fieldLen, this] at hj
  obtain ⟨l, k, hk, rfl⟩ : ∃ l k, k < s.bs m ∧ j = s.bs m * l + k :=
    ⟨j / s.bs m, j % s.bs m, Nat.mod_lt _ hb, (Nat.div_add_mod _ _).symm⟩
  have hl : l < (s.w m).size r + ((s.w m).ghosts r).length := by
    by_contra hl
    have := Nat.mul_le_mul_left (s.bs m) (Nat.le_of_not_lt hl)
    rw [Nat.mul_add] at this
    unfold fieldLen at hj
    omega
  have hsing : ∀ g, ((List.range ((s.w m).size r)).map ((s.w m).r0 r + ·) ++ (s.w m).ghosts r)[l]? = some g →
      (singleNumbers s r m)[s.bs m * l + k]? = some (some (s.bs m * g + k)) := by
    intro g hg
    unfold singleNumbers
    rw [flatMap_const_get _ _ (s.bs m) (by intros; simp) l k g hg hk]
    simp [hk]
  have hdm : ∀ g, (s.bs m * g + k) / s.bs m = g ∧ (s.bs m * g + k) % s.bs m = k := by
    intro g
    constructor
    · rw [Nat.add_comm, Nat.add_mul_div_left _ _ hb, Nat.div_eq_of_lt hk, Nat.zero_add]
    · rw [Nat.mul_add_mod, Nat.mod_eq_of_lt hk]
  rw [subNumbers_eq s r m hm]
  by_cases ho : l < (s.w m).size r
  · refine ⟨s.bs m * ((s.w m).r0 r + l) + k, s.bs m * l + k + s.processOffset r + s.localOffset r m, ?_, ?_, ?_⟩
    · apply hsing
      rw [List.getElem?_append_left (by simpa using ho)]
      simp [ho]
    · have hlt : s.bs m * l + k < s.bs m * (s.w m).size r := by
        have := Nat.mul_le_mul_left (s.bs m) (show l + 1 ≤ (s.w m).size r from ho)
        rw [Nat.mul_succ] at this
        omega
      rw [List.getElem?_append_left (by simpa [numberParts] using hlt)]
      simp [numberParts, hlt]
    · rw [(hdm _).1, (hdm _).2]
      rw [← (C30_owned_numbers s).1 r m l k hr hm ho hk]
      congr 1; omega
  · obtain ⟨p, rfl⟩ : ∃ p, l = (s.w m).size r + p := ⟨l - (s.w m).size r, by omega⟩
    have hp : p < ((s.w m).ghosts r).length := by omega
    obtain ⟨g, hg⟩ : ∃ g, ((s.w m).ghosts r)[p]? = some g := ⟨_, List.getElem?_eq_getElem hp⟩
    obtain ⟨o, hoo⟩ : ∃ o, ((s.w m).owners r)[p]? = some o := by
      have := (h.valid m hm).len r (by rw [h.size m hm]; exact hr)
      exact ⟨_, List.getElem?_eq_getElem (by omega)⟩
    obtain ⟨n, h1, h2, _⟩ := C30_ghost_numbers s h m r p k o g hm hr hoo hg hk
    refine ⟨s.bs m * g + k, n, ?_, ?_, ?_⟩
    · apply hsing
      rw [List.getElem?_append_right (by simp)]
      simpa using hg
    · rw [List.getElem?_append_right (by simp [numberParts, Nat.mul_add]; omega)]
      rw [show s.bs m * ((s.w m).size r + p) + k - (numberParts s r m).1.length = s.bs m * p + k by
        simp [numberParts, Nat.mul_add]; omega]
      exact h1
    · rw [(hdm _).1, (hdm _).2]; exact h2

theorem subNumbers_length (s : Maps) (r m : Nat) (hm : m < s.M) : (subNumbers s r m).length = fieldLen s r m := by
  rw [subNumbers_eq s r m hm, numberParts_length]

/-- Numbers and entries determine each other. -/
theorem stacked_inj (s : Maps) {n n' : Nat} {x : Nat × Nat × Nat} (h : (stacked s)[n]? = some x)
    (h' : (stacked s)[n']? = some x) : n = n' := by
  obtain ⟨a, ha⟩ := List.getElem?_eq_some_iff.mp h
  obtain ⟨b, hb⟩ := List.getElem?_eq_some_iff.mp h'
  exact (List.Nodup.getElem_inj_iff (stacked_nodup s)).mp (ha.trans hb.symm)

/-! ## Matrices -/

variable {T : Type}

theorem addEntries_apply [AddCommMonoid T] (es : List (Nat × Nat × T)) (A : Nat → Nat → T) (a b : Nat) :
    es.foldl addEntry A a b = A a b + ((es.filter fun e => decide (a = e.1 ∧ b = e.2.1)).map fun e => e.2.2).sum := by
  induction es generalizing A with
  | nil => simp
  | cons e es ih =>
    rw [List.foldl_cons, ih]
    by_cases h : a = e.1 ∧ b = e.2.1
    · rw [List.filter_cons_of_pos (by simpa using h), List.map_cons, List.sum_cons, ← add_assoc]
      congr 1
      unfold addEntry
      rw [if_pos h]
    · rw [List.filter_cons_of_neg (by simpa using h)]
      congr 1
      unfold addEntry
      rw [if_neg h]

/-- The same entry in two numberings. -/
def Same (s0 s1 : Maps) (i j : Nat) (x y : Nat × Nat × T) : Prop :=
  (stacked s0)[y.1]? = some (i, x.1 / s0.bs i, x.1 % s0.bs i) ∧
  (stacked s1)[y.2.1]? = some (j, x.2.1 / s1.bs j, x.2.1 % s1.bs j) ∧ x.2.2 = y.2.2

/-- Entries of a form in a matrix of its own and in the block matrix. -/
theorem entries_same (s0 s1 : Maps) (h0 : MapsOk s0) (h1 : MapsOk s1) (r i j : Nat) (hr0 : r < s0.P) (hr1 : r < s1.P)
    (hi : i < s0.M) (hj : j < s1.M) (vals : List T) (ts : List (Nat × Nat × Nat)) :
    (∃ es es', ts.mapM (entry (singleNumbers s0 r i) (singleNumbers s1 r j) vals) = some es ∧
      ts.mapM (entry (subNumbers s0 r i) (subNumbers s1 r j) vals) = some es' ∧ List.Forall₂ (Same s0 s1 i j) es es') ∨
    (ts.mapM (entry (singleNumbers s0 r i) (singleNumbers s1 r j) vals) = none ∧
      ts.mapM (entry (subNumbers s0 r i) (subNumbers s1 r j) vals) = none) := by
  induction ts with
  | nil => exact .inl ⟨[], [], rfl, rfl, .nil⟩
  | cons t ts ih =>
    simp only [List.mapM_cons, Option.bind_eq_bind, Option.pure_def]
    by_cases ha : t.1 < fieldLen s0 r i
    · by_cases hb : t.2.1 < fieldLen s1 r j
      · obtain ⟨e0, n0, p1, p2, p3⟩ := numbers_get s0 h0 r i t.1 hr0 hi ha
        obtain ⟨e1, n1, q1, q2, q3⟩ := numbers_get s1 h1 r j t.2.1 hr1 hj hb
        simp only [entry, p1, p2, q1, q2, Option.join_some, Option.bind_eq_bind, Option.bind_some]
        cases hv : vals[t.2.2]? with
        | none => exact .inr ⟨rfl, rfl⟩
        | some v =>
          simp only [Option.bind_some]
          rcases ih with ⟨es, es', k1, k2, k3⟩ | ⟨k1, k2⟩
          · refine .inl ⟨(e0, e1, v) :: es, (n0, n1, v) :: es', ?_, ?_, .cons ⟨p3, q3, rfl⟩ k3⟩
            · rw [k1]; rfl
            · rw [k2]; rfl
          · refine .inr ⟨?_, ?_⟩
            · rw [k1]; rfl
            · rw [k2]; rfl
      · refine .inr ⟨?_, ?_⟩
        · have : (singleNumbers s1 r j)[t.2.1]? = none := List.getElem?_eq_none (by rw [singleNumbers_length]; omega)
          simp [entry, this]
        · have : (subNumbers s1 r j)[t.2.1]? = none := List.getElem?_eq_none (by rw [subNumbers_length _ _ _ hj]; omega)
          simp [entry, this]
    · refine .inr ⟨?_, ?_⟩
      · have : (singleNumbers s0 r i)[t.1]? = none := List.getElem?_eq_none (by rw [singleNumbers_length]; omega)
        simp [entry, this]
      · have : (subNumbers s0 r i)[t.1]? = none := List.getElem?_eq_none (by rw [subNumbers_length _ _ _ hi]; omega)
        simp [entry, this]

/-- What the entries of one form add at one place: the same in both matrices, and nothing in other
blocks. -/
theorem same_sum [AddCommMonoid T] (s0 s1 : Maps) (i j i' j' e0 e1 n0 n1 : Nat)
    (hn0 : (stacked s0)[n0]? = some (i', e0 / s0.bs i', e0 % s0.bs i'))
    (hn1 : (stacked s1)[n1]? = some (j', e1 / s1.bs j', e1 % s1.bs j'))
    (es es' : List (Nat × Nat × T)) (h : List.Forall₂ (Same s0 s1 i j) es es') :
    ((es'.filter fun e => decide (n0 = e.1 ∧ n1 = e.2.1)).map fun e => e.2.2).sum =
      if i = i' ∧ j = j' then ((es.filter fun e => decide (e0 = e.1 ∧ e1 = e.2.1)).map fun e => e.2.2).sum else 0 := by
  induction h with
  | nil => simp
  | @cons x y es es' hxy _ ih =>
    obtain ⟨a, b, c⟩ := hxy
    by_cases hij : i = i' ∧ j = j'
    · obtain ⟨rfl, rfl⟩ := hij
      rw [if_pos ⟨rfl, rfl⟩] at ih ⊢
      by_cases hx : e0 = x.1 ∧ e1 = x.2.1
      · have hy : n0 = y.1 ∧ n1 = y.2.1 :=
          ⟨stacked_inj s0 hn0 (by rw [hx.1]; exact a), stacked_inj s1 hn1 (by rw [hx.2]; exact b)⟩
        rw [List.filter_cons_of_pos (by simpa using hy), List.filter_cons_of_pos (by simpa using hx), List.map_cons,
          List.map_cons, List.sum_cons, List.sum_cons, ih, c]
      · have hy : ¬ (n0 = y.1 ∧ n1 = y.2.1) := by
          rintro ⟨rfl, rfl⟩
          rw [hn0] at a
          rw [hn1] at b
          simp only [Option.some.injEq, Prod.mk.injEq, true_and] at a b
          apply hx
          constructor
          · rw [← Nat.div_add_mod e0 (s0.bs i), ← Nat.div_add_mod x.1 (s0.bs i), a.1, a.2]
          · rw [← Nat.div_add_mod e1 (s1.bs j), ← Nat.div_add_mod x.2.1 (s1.bs j), b.1, b.2]
        rw [List.filter_cons_of_neg (by simpa using hy), List.filter_cons_of_neg (by simpa using hx), ih]
    · rw [if_neg hij] at ih ⊢
      have hy : ¬ (n0 = y.1 ∧ n1 = y.2.1) := by
        rintro ⟨rfl, rfl⟩
        rw [hn0] at a
        rw [hn1] at b
        simp only [Option.some.injEq, Prod.mk.injEq] at a b
        exact hij ⟨a.1.symm, b.1.symm⟩
      rw [List.filter_cons_of_neg (by simpa using hy), ih]

/-- One form on one rank: the block matrix gains what the matrix of the form gains. -/
theorem form_same [AddCommMonoid T] (s0 s1 : Maps) (h0 : MapsOk s0) (h1 : MapsOk s1) (r i j : Nat) (hr0 : r < s0.P)
    (hr1 : r < s1.P) (hi : i < s0.M) (hj : j < s1.M) (bs0 bs1 : Nat) (cs : List (Contribution T)) :
    (∃ D : Nat → Nat → T, ∀ A B : Nat → Nat → T,
      ∃ A', assembleForm bs0 bs1 (subNumbers s0 r i) (subNumbers s1 r j) A cs = some A' ∧
      assembleForm bs0 bs1 (singleNumbers s0 r i) (singleNumbers s1 r j) B cs = some (fun e0 e1 => B e0 e1 + D e0 e1) ∧
      ∀ i' j' e0 e1 n0 n1, (stacked s0)[n0]? = some (i', e0 / s0.bs i', e0 % s0.bs i') →
        (stacked s1)[n1]? = some (j', e1 / s1.bs j', e1 % s1.bs j') →
        A' n0 n1 = A n0 n1 + if i = i' ∧ j = j' then D e0 e1 else 0) ∨
    (∀ A B : Nat → Nat → T, assembleForm bs0 bs1 (subNumbers s0 r i) (subNumbers s1 r j) A cs = none ∧
      assembleForm bs0 bs1 (singleNumbers s0 r i) (singleNumbers s1 r j) B cs = none) := by
  induction cs with
  | nil =>
    refine .inl ⟨fun _ _ => 0, fun A B => ⟨A, rfl, ?_, by intros; simp⟩⟩
    simp [assembleForm]
  | cons c cs ih =>
    unfold assembleForm at ih ⊢
    simp only [List.foldlM_cons]
    unfold added
    rcases entries_same s0 s1 h0 h1 r i j hr0 hr1 hi hj c.vals (positions (expand bs0 c.rows) (expand bs1 c.cols)) with
      ⟨es, es', k1, k2, k3⟩ | ⟨k1, k2⟩
    · rw [k1, k2]
      simp only [Option.bind_eq_bind, Option.bind_some]
      rcases ih with ⟨D, hD⟩ | hno
      · refine .inl ⟨fun e0 e1 => ((es.filter fun e => decide (e0 = e.1 ∧ e1 = e.2.1)).map fun e => e.2.2).sum + D e0 e1, ?_⟩
        intro A B
        obtain ⟨A', m1, m2, m4⟩ := hD (es'.foldl addEntry A) (es.foldl addEntry B)
        refine ⟨A', m1, ?_, ?_⟩
        · refine m2.trans ?_
          congr 1
          funext e0 e1
          rw [addEntries_apply, add_assoc]
        · intro i' j' e0 e1 n0 n1 hn0 hn1
          rw [m4 i' j' e0 e1 n0 n1 hn0 hn1, addEntries_apply, same_sum s0 s1 i j i' j' e0 e1 n0 n1 hn0 hn1 es es' k3, add_assoc]
          by_cases hij : i = i' ∧ j = j'
          · rw [if_pos hij, if_pos hij, if_pos hij]
          · rw [if_neg hij, if_neg hij, if_neg hij, add_zero]
      · exact .inr fun A B => hno _ _
    · rw [k1, k2]
      exact .inr fun A B => ⟨rfl, rfl⟩

/-- The sum over several ranks and blocks: `W` says how much each form adds in a matrix of its own. -/
theorem blocks_sum [AddCommMonoid T] (s0 s1 : Maps) (h0 : MapsOk s0) (h1 : MapsOk s1)
    (contains : Nat → Nat → Bool) (bcs : List Bc) (a : Nat → Nat → Option (BlockForm T)) (xs : List (Nat × Nat × Nat))
    (hx : ∀ x ∈ xs, x.1 < s0.P ∧ x.1 < s1.P ∧ x.2.1 < s0.M ∧ x.2.2 < s1.M) (W : Nat × Nat × Nat → Nat → Nat → T)
    (hW : ∀ x ∈ xs, ∀ f, a x.2.1 x.2.2 = some f →
      assembleForm f.bs0 f.bs1 (singleNumbers s0 x.1 x.2.1) (singleNumbers s1 x.1 x.2.2) (fun _ _ => 0) (f.elements x.1) =
        some (W x))
    (hN : ∀ x ∈ xs, a x.2.1 x.2.2 = none → W x = fun _ _ => 0)
    (hR : ∀ x ∈ xs, a x.2.1 x.2.2 = none → x.2.1 = x.2.2 → bcs.any (refused contains a s1.M x.2.1) = false) (A : Nat → Nat → T) :
    ∃ A', xs.foldlM (assembleBlock s0 s1 contains bcs a) A = some A' ∧
      ∀ i j e0 e1 n0 n1, (stacked s0)[n0]? = some (i, e0 / s0.bs i, e0 % s0.bs i) →
        (stacked s1)[n1]? = some (j, e1 / s1.bs j, e1 % s1.bs j) →
        A' n0 n1 = A n0 n1 + ((xs.filter fun x => decide (x.2.1 = i ∧ x.2.2 = j)).map fun x => W x e0 e1).sum := by
  induction xs generalizing A with
  | nil => exact ⟨A, rfl, by intros; simp⟩
  | cons x xs ih =>
    obtain ⟨hr0, hr1, hi, hj⟩ := hx x (by simp)
    have hstep : ∃ A1, assembleBlock s0 s1 contains bcs a A x = some A1 ∧
        ∀ i j e0 e1 n0 n1, (stacked s0)[n0]? = some (i, e0 / s0.bs i, e0 % s0.bs i) →
          (stacked s1)[n1]? = some (j, e1 / s1.bs j, e1 % s1.bs j) →
          A1 n0 n1 = A n0 n1 + if x.2.1 = i ∧ x.2.2 = j then W x e0 e1 else 0 := by
      unfold assembleBlock
      cases hf : a x.2.1 x.2.2 with
      | none =>
        refine ⟨A, ?_, ?_⟩
        · simp only []
          rw [if_neg (fun ⟨p, q⟩ => by rw [hR x (by simp) hf p] at q; cases q)]
        intro i j e0 e1 n0 n1 _ _
        rw [hN x (by simp) hf]
        simp
      | some f =>
        have hw := hW x (by simp) f hf
        rcases form_same s0 s1 h0 h1 x.1 x.2.1 x.2.2 hr0 hr1 hi hj f.bs0 f.bs1 (f.elements x.1) with ⟨D, hD⟩ | hno
        · obtain ⟨A1, m1, m2, m4⟩ := hD A (fun _ _ => 0)
          rw [m2] at hw
          refine ⟨A1, m1, ?_⟩
          intro i j e0 e1 n0 n1 hn0 hn1
          rw [m4 i j e0 e1 n0 n1 hn0 hn1]
          have : W x e0 e1 = D e0 e1 := by
            rw [← Option.some.inj hw]
            exact zero_add _
          rw [this]
        · rw [(hno A (fun _ _ => 0)).2] at hw; cases hw
    obtain ⟨A1, k1, k2⟩ := hstep
    obtain ⟨A', k3, k4⟩ := ih (fun y hy => hx y (by simp [hy])) (fun y hy => hW y (by simp [hy]))
      (fun y hy => hN y (by simp [hy])) (fun y hy => hR y (by simp [hy])) A1
    refine ⟨A', ?_, ?_⟩
    · rw [List.foldlM_cons, k1]; exact k3
    · intro i j e0 e1 n0 n1 hn0 hn1
      rw [k4 i j e0 e1 n0 n1 hn0 hn1, k2 i j e0 e1 n0 n1 hn0 hn1, add_assoc]
      by_cases hij : x.2.1 = i ∧ x.2.2 = j
      · rw [if_pos hij, List.filter_cons_of_pos (by simpa using hij), List.map_cons, List.sum_cons]
      · rw [if_neg hij, List.filter_cons_of_neg (by simpa using hij), zero_add]

/-! ## Diagonal entries -/

/-- `(n0, n1)` is one of the places that `insert_diagonal` sets in the blocks `xs`. -/
def Placed (s0 s1 : Maps) (contains : Nat → Nat → Bool) (bcs : List Bc) (a : Nat → Nat → Option (BlockForm T))
    (xs : List (Nat × Nat × Nat)) (n0 n1 : Nat) : Prop :=
  ∃ x ∈ xs, ∃ f, a x.2.1 x.2.2 = some f ∧ f.space0 = f.space1 ∧ ∃ d ∈ diagonalRows contains bcs f x.1,
    (subNumbers s0 x.1 x.2.1)[d]? = some (some n0) ∧ (subNumbers s1 x.1 x.2.2)[d]? = some (some n1)

theorem setDiagonal_loop (num0 num1 : List (Option Nat)) (diag : T) (ds : List Nat)
    (hd : ∀ d ∈ ds, (∃ n, num0[d]? = some (some n)) ∧ ∃ n, num1[d]? = some (some n)) (A : Nat → Nat → T) :
    ∃ A', ds.foldlM (setDiagonal num0 num1 diag) A = some A' ∧ ∀ n0 n1,
      ((∃ d ∈ ds, num0[d]? = some (some n0) ∧ num1[d]? = some (some n1)) → A' n0 n1 = diag) ∧
      ((¬ ∃ d ∈ ds, num0[d]? = some (some n0) ∧ num1[d]? = some (some n1)) → A' n0 n1 = A n0 n1) := by
  induction ds generalizing A with
  | nil => exact ⟨A, rfl, fun n0 n1 => ⟨by simp, fun _ => rfl⟩⟩
  | cons d ds ih =>
    obtain ⟨⟨m0, h0⟩, ⟨m1, h1⟩⟩ := hd d (by simp)
    obtain ⟨A', k1, k2⟩ := ih (fun x hx => hd x (by simp [hx])) (fun a b => if a = m0 ∧ b = m1 then diag else A a b)
    refine ⟨A', ?_, ?_⟩
    · rw [List.foldlM_cons]
      unfold setDiagonal at k1 ⊢
      rw [h0, h1]
      exact k1
    · intro n0 n1
      by_cases hin : ∃ d ∈ ds, num0[d]? = some (some n0) ∧ num1[d]? = some (some n1)
      · refine ⟨fun _ => (k2 n0 n1).1 hin, fun hno => ?_⟩
        obtain ⟨x, hx, hx'⟩ := hin
        exact absurd ⟨x, by simp [hx], hx'⟩ hno
      · have hA := (k2 n0 n1).2 hin
        by_cases heq : n0 = m0 ∧ n1 = m1
        · obtain ⟨rfl, rfl⟩ := heq
          rw [if_pos ⟨rfl, rfl⟩] at hA
          exact ⟨fun _ => hA, fun hno => absurd ⟨d, by simp, h0, h1⟩ hno⟩
        · rw [if_neg heq] at hA
          refine ⟨?_, fun _ => hA⟩
          rintro ⟨x, hx, hx0, hx1⟩
          rcases List.mem_cons.mp hx with rfl | hx
          · rw [h0] at hx0
            rw [h1] at hx1
            simp only [Option.some.injEq] at hx0 hx1
            exact absurd ⟨hx0.symm, hx1.symm⟩ heq
          · exact absurd ⟨x, hx, hx0, hx1⟩ hin

theorem diagonal_loop (s0 s1 : Maps) (h0 : MapsOk s0) (h1 : MapsOk s1) (contains : Nat → Nat → Bool) (bcs : List Bc) (diag : T)
    (a : Nat → Nat → Option (BlockForm T)) (xs : List (Nat × Nat × Nat))
    (hx : ∀ x ∈ xs, x.1 < s0.P ∧ x.1 < s1.P ∧ x.2.1 < s0.M ∧ x.2.2 < s1.M)
    (hd : ∀ x ∈ xs, ∀ f, a x.2.1 x.2.2 = some f → f.space0 = f.space1 → ∀ d ∈ diagonalRows contains bcs f x.1,
      d < fieldLen s0 x.1 x.2.1 ∧ d < fieldLen s1 x.1 x.2.2) (A : Nat → Nat → T) :
    ∃ A', xs.foldlM (diagonalBlock s0 s1 contains bcs diag a) A = some A' ∧ ∀ n0 n1,
      (Placed s0 s1 contains bcs a xs n0 n1 → A' n0 n1 = diag) ∧
      (¬ Placed s0 s1 contains bcs a xs n0 n1 → A' n0 n1 = A n0 n1) := by
  induction xs generalizing A with
  | nil => exact ⟨A, rfl, fun n0 n1 => ⟨by simp [Placed], fun _ => rfl⟩⟩
  | cons x xs ih =>
    obtain ⟨hr0, hr1, hi, hj⟩ := hx x (by simp)
    have hstep : ∃ A1, diagonalBlock s0 s1 contains bcs diag a A x = some A1 ∧ ∀ n0 n1,
        (Placed s0 s1 contains bcs a [x] n0 n1 → A1 n0 n1 = diag) ∧
        (¬ Placed s0 s1 contains bcs a [x] n0 n1 → A1 n0 n1 = A n0 n1) := by
      unfold diagonalBlock
      cases hf : a x.2.1 x.2.2 with
      | none =>
        refine ⟨A, rfl, fun n0 n1 => ⟨?_, fun _ => rfl⟩⟩
        rintro ⟨y, hy, f, hyf, _⟩
        obtain rfl := List.mem_singleton.mp hy
        rw [hf] at hyf; cases hyf
      | some f =>
        by_cases hs : f.space0 = f.space1
        · simp only []
          rw [if_pos hs]
          obtain ⟨A1, k1, k2⟩ := setDiagonal_loop (subNumbers s0 x.1 x.2.1) (subNumbers s1 x.1 x.2.2) diag
            (diagonalRows contains bcs f x.1) (fun d hdm => by
              obtain ⟨q0, q1⟩ := hd x (by simp) f hf hs d hdm
              obtain ⟨_, n0, _, e0, _⟩ := numbers_get s0 h0 x.1 x.2.1 d hr0 hi q0
              obtain ⟨_, n1, _, e1, _⟩ := numbers_get s1 h1 x.1 x.2.2 d hr1 hj q1
              exact ⟨⟨n0, e0⟩, ⟨n1, e1⟩⟩) A
          refine ⟨A1, k1, fun n0 n1 => ⟨?_, ?_⟩⟩
          · rintro ⟨y, hy, g, hyg, _, hrest⟩
            obtain rfl := List.mem_singleton.mp hy
            rw [hf] at hyg
            obtain rfl := Option.some.inj hyg
            exact (k2 n0 n1).1 hrest
          · intro hno
            exact (k2 n0 n1).2 (fun hrest => hno ⟨x, by simp, f, hf, hs, hrest⟩)
        · simp only []
          rw [if_neg hs]
          refine ⟨A, rfl, fun n0 n1 => ⟨?_, fun _ => rfl⟩⟩
          rintro ⟨y, hy, g, hyg, hgs, _⟩
          obtain rfl := List.mem_singleton.mp hy
          rw [hf] at hyg
          obtain rfl := Option.some.inj hyg
          exact absurd hgs hs
    obtain ⟨A1, k1, k2⟩ := hstep
    obtain ⟨A', k3, k4⟩ := ih (fun y hy => hx y (by simp [hy])) (fun y hy => hd y (by simp [hy])) A1
    refine ⟨A', ?_, ?_⟩
    · rw [List.foldlM_cons, k1]; exact k3
    · intro n0 n1
      have hsplit : Placed s0 s1 contains bcs a (x :: xs) n0 n1 ↔
          Placed s0 s1 contains bcs a [x] n0 n1 ∨ Placed s0 s1 contains bcs a xs n0 n1 := by
        unfold Placed
        constructor
        · rintro ⟨y, hy, h⟩
          rcases List.mem_cons.mp hy with rfl | hy
          · exact .inl ⟨_, by simp, h⟩
          · exact .inr ⟨y, hy, h⟩
        · rintro (⟨y, hy, h⟩ | ⟨y, hy, h⟩)
          · exact ⟨y, by simp [List.mem_singleton.mp hy], h⟩
          · exact ⟨y, by simp [hy], h⟩
      rw [hsplit]
      by_cases hin : Placed s0 s1 contains bcs a xs n0 n1
      · exact ⟨fun _ => (k4 n0 n1).1 hin, fun hno => absurd (.inr hin) hno⟩
      · rw [(k4 n0 n1).2 hin]
        exact ⟨fun h => (k2 n0 n1).1 (h.resolve_right hin), fun hno => (k2 n0 n1).2 (fun h => hno (.inl h))⟩

end Verif.BlockSystem
