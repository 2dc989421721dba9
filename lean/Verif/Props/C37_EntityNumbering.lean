import Verif.Model.EntityNumbering
import Verif.Props.C01_C02_LocalRange
import Verif.Props.C04_SortByPerm
import Verif.Props.C36_EntityList
import Verif.Lemmas.Exchange
import Mathlib.Data.Finset.Card
import Mathlib.Data.Finset.Range
import Mathlib.Data.List.Nodup
import Mathlib.Data.List.TakeWhile
/-!
# C37: numbering of entities on one process
-/
namespace Verif.Props
open Verif.EntityList Verif.EntityNumbering Verif.Spec Verif.LocalRange

/-! ### Array writes -/

section
variable {α : Type}

theorem runWrites_length (a : List α) (ws : List (Nat × α)) : (runWrites a ws).length = a.length := by
  unfold runWrites
  induction ws generalizing a with
  | nil => rfl
  | cons w ws ih => rw [List.foldl_cons, ih]; simp

theorem runWrites_untouched (a : List α) (ws : List (Nat × α)) (i : Nat) (h : ∀ b, (i, b) ∉ ws) :
    (runWrites a ws)[i]? = a[i]? := by
  unfold runWrites
  induction ws generalizing a with
  | nil => rfl
  | cons w ws ih =>
    rw [List.foldl_cons, ih _ (fun b hb => h b (by simp [hb])), List.getElem?_set_ne]
    intro he
    exact h w.2 (by simp [← he])

theorem runWrites_written (a : List α) (ws : List (Nat × α)) (i : Nat) (b : α) (hi : i < a.length) (hm : (i, b) ∈ ws)
    (hf : ∀ b', (i, b') ∈ ws → b' = b) : (runWrites a ws)[i]? = some b := by
  induction ws generalizing a with
  | nil => simp at hm
  | cons w ws ih =>
    show (runWrites (a.set w.1 w.2) ws)[i]? = some b
    by_cases hA : ∃ b', (i, b') ∈ ws
    · obtain ⟨b', hb'⟩ := hA
      have : b' = b := hf b' (by simp [hb'])
      subst this
      exact ih _ (by simpa using hi) hb' (fun b'' hb'' => hf b'' (by simp [hb'']))
    · push Not at hA
      rw [runWrites_untouched _ _ _ hA]
      rcases List.mem_cons.mp hm with h | h
      · subst h; simp [hi]
      · exact absurd h (hA b)

theorem runWrites_append (a : List α) (u v : List (Nat × α)) : runWrites a (u ++ v) = runWrites (runWrites a u) v := by
  unfold runWrites; rw [List.foldl_append]
end

/-! ### Rows of all entity instances -/

/-- Rows of the entities of the cells of one type, cell by cell. -/
def typeRows (g : Int → Int) (cl : CellList) : List (List Int × List Int) :=
  (List.range cl.cells.length).flatMap fun c => (List.range cl.ents.length).map fun e => row g (cl.verts c e)

/-- Rows of all entities: cell types, cells, entities in order. -/
def allRows (g : Int → Int) (ls : List CellList) : List (List Int × List Int) := ls.flatMap (typeRows g)

theorem flatMap_const_get {β : Type} (f : Nat → List β) (m n : Nat) (hf : ∀ c, c < n → (f c).length = m) (c e : Nat) (hc : c < n) (he : e < m) :
    ((List.range n).flatMap f)[c * m + e]? = (f c)[e]? := by
  induction n with
  | zero => omega
  | succ n ih =>
    have hlen : ((List.range n).flatMap f).length = n * m := by
      rw [Exchange.length_flatMap_const _ _ m]
      · simp
      · intro a ha; exact hf a (by rw [List.mem_range] at ha; omega)
    rw [List.range_succ, List.flatMap_append]
    by_cases h : c < n
    · rw [List.getElem?_append_left, ih (fun a ha => hf a (by omega)) h]
      rw [hlen]
      have : (c + 1) * m ≤ n * m := Nat.mul_le_mul_right _ h
      rw [Nat.succ_mul] at this; omega
    · have : c = n := by omega
      subst this
      rw [List.getElem?_append_right (by omega), hlen]
      simp

theorem typeRows_length (g : Int → Int) (cl : CellList) : (typeRows g cl).length = cl.count := by
  unfold typeRows CellList.count
  rw [Exchange.length_flatMap_const _ _ cl.ents.length (by simp)]
  simp

theorem typeRows_get (g : Int → Int) (cl : CellList) (c e : Nat) (hc : c < cl.cells.length) (he : e < cl.ents.length) :
    (typeRows g cl)[c * cl.ents.length + e]? = some (row g (cl.verts c e)) := by
  unfold typeRows
  rw [flatMap_const_get _ cl.ents.length _ (by simp) c e hc he]
  simp [he]

theorem offset_succ (ls : List CellList) (k : Nat) (cl : CellList) (h : ls[k]? = some cl) :
    offset ls (k + 1) = offset ls k + cl.count := by
  unfold offset
  rw [List.take_add_one, h]
  simp

theorem offset_mono (ls : List CellList) {k k' : Nat} (h : k ≤ k') : offset ls k ≤ offset ls k' := by
  unfold offset
  obtain ⟨d, rfl⟩ := Nat.exists_eq_add_of_le h
  rw [List.take_add, List.map_append, List.sum_append]
  omega

theorem offset_cons (cl : CellList) (ls : List CellList) (k : Nat) :
    offset (cl :: ls) (k + 1) = cl.count + offset ls k := by
  unfold offset; simp

theorem allRows_length (g : Int → Int) (ls : List CellList) : (allRows g ls).length = offset ls ls.length := by
  unfold allRows
  induction ls with
  | nil => simp [offset]
  | cons cl ls ih =>
    rw [List.flatMap_cons, List.length_append, ih, typeRows_length, List.length_cons, offset_cons]

theorem allRows_get (g : Int → Int) (ls : List CellList) (k : Nat) (cl : CellList) (h : ls[k]? = some cl) (c e : Nat)
    (hc : c < cl.cells.length) (he : e < cl.ents.length) :
    (allRows g ls)[offset ls k + c * cl.ents.length + e]? = some (row g (cl.verts c e)) := by
  unfold allRows
  induction ls generalizing k with
  | nil => simp at h
  | cons cl' ls ih =>
    rw [List.flatMap_cons]
    have hlt : c * cl.ents.length + e < cl.count := by
      unfold CellList.count
      have := Nat.mul_le_mul_right cl.ents.length (show c + 1 ≤ _ from hc)
      rw [Nat.succ_mul] at this; omega
    cases k with
    | zero =>
      simp only [List.getElem?_cons_zero, Option.some.injEq] at h
      subst h
      rw [List.getElem?_append_left]
      · have : offset (cl' :: ls) 0 = 0 := rfl
        rw [this, Nat.zero_add]; exact typeRows_get g cl' c e hc he
      · have : offset (cl' :: ls) 0 = 0 := rfl
        rw [typeRows_length, this]; omega
    | succ k =>
      rw [List.getElem?_cons_succ] at h
      rw [offset_cons, List.getElem?_append_right (by rw [typeRows_length]; omega), typeRows_length]
      have := ih k h
      rw [← this]
      congr 1; omega

theorem instance_of_pos (ls : List CellList) (i : Nat) (hi : i < offset ls ls.length) :
    ∃ k cl c e, ls[k]? = some cl ∧ c < cl.cells.length ∧ e < cl.ents.length ∧ i = offset ls k + c * cl.ents.length + e := by
  induction ls generalizing i with
  | nil => simp [offset] at hi
  | cons cl ls ih =>
    rw [List.length_cons, offset_cons] at hi
    by_cases h : i < cl.count
    · have hm : 0 < cl.ents.length := by
        rcases Nat.eq_zero_or_pos cl.ents.length with h0 | h0
        · simp [CellList.count, h0] at h
        · exact h0
      refine ⟨0, cl, i / cl.ents.length, i % cl.ents.length, rfl, ?_, Nat.mod_lt _ hm, ?_⟩
      · exact Nat.div_lt_of_lt_mul (by unfold CellList.count at h; rw [Nat.mul_comm]; exact h)
      · have : offset (cl :: ls) 0 = 0 := rfl
        rw [this, Nat.zero_add, Nat.mul_comm]; exact (Nat.div_add_mod _ _).symm
    · obtain ⟨k, cl', c, e, h1, h2, h3, h4⟩ := ih (i - cl.count) (by omega)
      refine ⟨k + 1, cl', c, e, h1, h2, h3, ?_⟩
      rw [offset_cons]; omega

theorem mem_typeWrites (g : Int → Int) (threads : Nat) (ht : 0 < threads) (cl : CellList) (base : Nat) (i : Nat) (v : List Int × List Int) :
    (i, v) ∈ typeWrites g threads cl base ↔ ∃ c e, c < cl.cells.length ∧ e < cl.ents.length ∧
      i = base + c * cl.ents.length + e ∧ v = row g (cl.verts c e) := by
  have htile := C01_local_range_tiles cl.cells.length threads ht
  unfold typeWrites threadWrites
  simp only [List.mem_flatMap, List.mem_map, List.mem_range, Prod.mk.injEq]
  constructor
  · rintro ⟨t, h1, c, h2, e, h3, rfl, rfl⟩
    refine ⟨(localRange t cl.cells.length threads).1 + c, e, ?_, h3, by rw [Nat.add_mul]; omega, rfl⟩
    have hle : ∀ t, t < threads → (localRange t cl.cells.length threads).2 ≤ cl.cells.length := by
      intro t ht'
      obtain ⟨d, hd⟩ := Nat.exists_eq_add_of_le (show t + 1 ≤ threads from ht')
      induction d generalizing t with
      | zero => rw [htile.stop t (by omega)]
      | succ d ih =>
        have := ih (t + 1) (by omega) (by omega)
        have h4 := htile.glued t (by omega)
        have h5 := htile.ordered (t + 1) (by omega)
        omega
    have := hle t h1
    omega
  · rintro ⟨c, e, h1, h2, rfl, rfl⟩
    obtain ⟨t, ⟨h3, h4⟩, _⟩ := C01_exactly_one_rank cl.cells.length threads c ht h1
    refine ⟨t, h3, c - (localRange t cl.cells.length threads).1, by unfold InRange at h4; omega, e, h2, ?_, ?_⟩
    · rw [Nat.add_assoc base, ← Nat.add_mul]
      unfold InRange at h4
      rw [show (localRange t cl.cells.length threads).1 + (c - (localRange t cl.cells.length threads).1) = c by omega]
    · unfold InRange at h4
      rw [show (localRange t cl.cells.length threads).1 + (c - (localRange t cl.cells.length threads).1) = c by omega]

/-- C37: whatever the number of threads and however their writes interleave, the arrays hold the row of every
entity of every cell, in the order of cell types, cells and entities. -/
theorem C37_threads (g : Int → Int) (threads : Nat) (ht : 0 < threads) (ls : List CellList)
    (sched : Nat → List (Nat × (List Int × List Int)))
    (hs : ∀ k cl, ls[k]? = some cl → (sched k).Perm (typeWrites g threads cl (offset ls k))) :
    (List.range ls.length).foldl (fun a k => runWrites a (sched k)) (List.replicate (offset ls ls.length) ([], [])) =
      ls.flatMap fun cl => (List.range cl.cells.length).flatMap fun c => (List.range cl.ents.length).map fun e =>
        row g (cl.verts c e) := by
  show _ = allRows g ls
  have hfold : ∀ (l : List Nat) (a : List (List Int × List Int)),
      l.foldl (fun a k => runWrites a (sched k)) a = runWrites a (l.flatMap sched) := by
    intro l
    induction l with
    | nil => intro a; rfl
    | cons k l ih => intro a; rw [List.foldl_cons, ih, List.flatMap_cons, runWrites_append]
  rw [hfold]
  have hmem : ∀ i v, (i, v) ∈ (List.range ls.length).flatMap sched → (allRows g ls)[i]? = some v := by
    intro i v h
    obtain ⟨k, hk, h⟩ := List.mem_flatMap.mp h
    rw [List.mem_range] at hk
    have hcl := List.getElem?_eq_getElem hk
    obtain ⟨c, e, h1, h2, rfl, rfl⟩ := (mem_typeWrites g threads ht _ _ _ _).mp ((hs k _ hcl).mem_iff.mp h)
    exact allRows_get g ls k _ hcl c e h1 h2
  apply List.ext_getElem?
  intro i
  by_cases hi : i < offset ls ls.length
  · obtain ⟨k, cl, c, e, h1, h2, h3, h4⟩ := instance_of_pos ls i hi
    have hget := allRows_get g ls k cl h1 c e h2 h3
    rw [← h4] at hget
    rw [hget]
    apply runWrites_written
    · simpa using hi
    · refine List.mem_flatMap.mpr ⟨k, List.mem_range.mpr (List.getElem?_eq_some_iff.mp h1).1, ?_⟩
      exact (hs k cl h1).mem_iff.mpr ((mem_typeWrites g threads ht _ _ _ _).mpr ⟨c, e, h2, h3, h4, rfl⟩)
    · intro b' hb'
      have := hmem i b' hb'
      rw [hget] at this
      exact (Option.some.inj this).symm
  · rw [List.getElem?_eq_none (by rw [runWrites_length]; simpa using hi),
      List.getElem?_eq_none (by rw [allRows_length]; omega)]

/-! ### The numbering loop -/

theorem foldl_set_get (run : List Nat) (c : Nat) (a : List Nat) (i : Nat) :
    (run.foldl (fun a i => a.set i c) a)[i]? = if i ∈ run ∧ i < a.length then some c else a[i]? := by
  induction run generalizing a with
  | nil => simp
  | cons j run ih =>
    rw [List.foldl_cons, ih, List.length_set]
    by_cases h : i ∈ run ∧ i < a.length
    · rw [if_pos h, if_pos ⟨by simp [h.1], h.2⟩]
    · rw [if_neg h]
      by_cases h2 : i = j
      · subst h2
        by_cases h3 : i < a.length
        · rw [if_pos ⟨by simp, h3⟩]; simp [h3]
        · rw [if_neg (by tauto), List.getElem?_eq_none (by simpa using h3), List.getElem?_eq_none (by omega)]
      · rw [List.getElem?_set_ne (Ne.symm h2), if_neg]
        rintro ⟨h4, h5⟩
        rcases List.mem_cons.mp h4 with h4 | h4
        · exact h2 h4
        · exact h ⟨h4, h5⟩

theorem foldl_set_length (run : List Nat) (c : Nat) (a : List Nat) : (run.foldl (fun a i => a.set i c) a).length = a.length := by
  induction run generalizing a with
  | nil => rfl
  | cons j run ih => rw [List.foldl_cons, ih]; simp

/-- The numbers given to the positions `D` start at `lo`, end before `hi`, and follow the keys. -/
structure Numbered (key : Nat → List Int) (D : List Nat) (f : Nat → Nat) (lo hi : Nat) : Prop where
  range : ∀ i ∈ D, lo ≤ f i ∧ f i < hi
  same : ∀ i ∈ D, ∀ j ∈ D, f i = f j ↔ key i = key j
  mono : ∀ i ∈ D, ∀ j ∈ D, LexLe (key i) (key j) → key i ≠ key j → f i < f j
  onto : ∀ c, lo ≤ c → c < hi → ∃ i ∈ D, f i = c
  le : lo ≤ hi

theorem numberLoop_spec (key : Nat → List Int) (fuel : Nat) (order : List Nat) (count : Nat) (index : List Nat)
    (hf : order.length ≤ fuel) (hs : order.Pairwise fun i j => LexLe (key i) (key j))
    (hlt : ∀ i ∈ order, i < index.length) :
    (numberLoop key fuel order count index).1.length = index.length ∧
    (∀ i, i ∉ order → (numberLoop key fuel order count index).1[i]? = index[i]?) ∧
    Numbered key order (fun i => (numberLoop key fuel order count index).1.getD i 0) count
      (numberLoop key fuel order count index).2 := by
  induction fuel generalizing order count index with
  | zero =>
    have : order = [] := List.eq_nil_of_length_eq_zero (by omega)
    subst this
    refine ⟨rfl, fun _ _ => rfl, ?_⟩
    constructor
    · simp
    · simp
    · simp
    · intro c h1 h2; simp only [numberLoop] at h2; omega
    · exact le_refl _
  | succ fuel ih =>
    cases order with
    | nil =>
      refine ⟨rfl, fun _ _ => rfl, ?_⟩
      constructor
      · simp
      · simp
      · simp
      · intro c h1 h2; simp only [numberLoop] at h2; omega
      · exact le_refl _
    | cons i0 rest =>
      unfold numberLoop
      simp only []
      set run := (i0 :: rest).takeWhile fun i => decide (key i0 = key i) with hrun
      set after := (i0 :: rest).dropWhile fun i => decide (key i0 = key i) with hafter
      have hsplit : run ++ after = i0 :: rest := List.takeWhile_append_dropWhile
      have hi0 : i0 ∈ run := by rw [hrun, List.takeWhile_cons]; simp
      have hrunkey : ∀ i ∈ run, key i0 = key i := by
        intro i hi
        have := List.mem_takeWhile_imp hi
        exact of_decide_eq_true this
      have hsp := hs
      rw [← hsplit, List.pairwise_append] at hsp
      obtain ⟨_, hsa, hcross⟩ := hsp
      have hafterkey : ∀ j ∈ after, key i0 ≠ key j := by
        intro j hj he
        cases hA : after with
        | nil => rw [hA] at hj; simp at hj
        | cons x tl =>
          have hx : ¬ (key i0 = key x) := by
            have h := List.head?_dropWhile_not (fun i => decide (key i0 = key i)) (i0 :: rest)
            rw [← hafter, hA] at h
            simpa using h
          have hix : LexLe (key i0) (key x) := hcross i0 hi0 x (by rw [hA]; simp)
          have hxj : LexLe (key x) (key j) := by
            rw [hA] at hj hsa
            rcases List.mem_cons.mp hj with rfl | hj
            · exact absurd he hx
            · exact (List.pairwise_cons.mp hsa).1 j hj
          rw [← he] at hxj
          exact hx (lexLe_antisymm _ _ hix hxj)
      have hlen : after.length ≤ fuel := by
        have h := congrArg List.length hsplit
        rw [List.length_append] at h
        have : 0 < run.length := List.length_pos_of_mem hi0
        simp only [List.length_cons] at h hf
        omega
      have hlt' : ∀ i ∈ after, i < (run.foldl (fun a i => a.set i count) index).length := by
        intro i hi; rw [foldl_set_length]; exact hlt i (by rw [← hsplit]; simp [hi])
      obtain ⟨e1, e2, e3⟩ := ih after (count + 1) (run.foldl (fun a i => a.set i count) index) hlen hsa hlt'
      generalize hres : numberLoop key fuel after (count + 1) (run.foldl (fun a i => a.set i count) index) = res at *
      have hrunval : ∀ i ∈ run, res.1.getD i 0 = count := by
        intro i hi
        have hna : i ∉ after := fun h => hafterkey i h (hrunkey i hi)
        rw [List.getD_eq_getElem?_getD, e2 i hna, foldl_set_get, if_pos ⟨hi, hlt i (by rw [← hsplit]; simp [hi])⟩]
        rfl
      have hcases : ∀ i, i ∈ i0 :: rest ↔ i ∈ run ∨ i ∈ after := by
        intro i; rw [← hsplit, List.mem_append]
      refine ⟨by rw [e1, foldl_set_length], ?_, ?_⟩
      · intro i hi
        rw [hcases] at hi
        rw [e2 i (by tauto), foldl_set_get, if_neg (by tauto)]
      · constructor
        · intro i hi
          rcases (hcases i).mp hi with h | h
          · simp only [hrunval i h]; have := e3.le; omega
          · have := e3.range i h; omega
        · intro i hi j hj
          rcases (hcases i).mp hi with h | h <;> rcases (hcases j).mp hj with h' | h'
          · simp only [hrunval i h, hrunval j h']
            exact ⟨fun _ => (hrunkey i h).symm.trans (hrunkey j h'), fun _ => trivial⟩
          · simp only [hrunval i h]
            have h1 := e3.range j h'
            refine ⟨fun h2 => by omega, fun h2 => absurd ((hrunkey i h).trans h2) (hafterkey j h')⟩
          · simp only [hrunval j h']
            have h1 := e3.range i h
            refine ⟨fun h2 => by omega, fun h2 => absurd ((hrunkey j h').trans h2.symm) (hafterkey i h)⟩
          · exact e3.same i h j h'
        · intro i hi j hj hle hne
          rcases (hcases i).mp hi with h | h <;> rcases (hcases j).mp hj with h' | h'
          · exact absurd ((hrunkey i h).symm.trans (hrunkey j h')) hne
          · simp only [hrunval i h]; have := e3.range j h'; omega
          · exact absurd (lexLe_antisymm _ _ hle (by
              have := hcross j h' i h; exact this)) hne
          · exact e3.mono i h j h' hle hne
        · intro c h1 h2
          by_cases hc : c = count
          · exact ⟨i0, by simp, by rw [hc]; exact hrunval i0 hi0⟩
          · obtain ⟨i, h3, h4⟩ := e3.onto c (by omega) h2
            exact ⟨i, (hcases i).mpr (Or.inr h3), h4⟩
        · have := e3.le; omega

/-- C37: for any order of the rows that sorts the keys, the loop numbers the rows from 0 without gaps, gives two
rows the same number exactly when their keys agree, and numbers the keys in lexicographic order. -/
theorem C37_numbering (keys : List (List Int)) (order : List Nat) (hp : order.Perm (List.range keys.length))
    (hs : order.Pairwise fun i j => LexLe (keys.getD i []) (keys.getD j [])) :
    (number keys order).1.length = keys.length ∧
    (∀ i, i < keys.length → (number keys order).1.getD i 0 < (number keys order).2) ∧
    (∀ c, c < (number keys order).2 → ∃ i, i < keys.length ∧ (number keys order).1.getD i 0 = c) ∧
    (∀ i j, i < keys.length → j < keys.length →
      ((number keys order).1.getD i 0 = (number keys order).1.getD j 0 ↔ keys.getD i [] = keys.getD j [])) ∧
    (∀ i j, i < keys.length → j < keys.length → LexLe (keys.getD i []) (keys.getD j []) →
      (number keys order).1.getD i 0 ≤ (number keys order).1.getD j 0) := by
  have hmem : ∀ i, i ∈ order ↔ i < keys.length := fun i => by rw [hp.mem_iff, List.mem_range]
  obtain ⟨h1, _, h3⟩ := numberLoop_spec (fun i => keys.getD i []) order.length order 0 (List.replicate keys.length 0)
    (le_refl _) hs (fun i hi => by simpa using (hmem i).mp hi)
  refine ⟨by rw [number, h1]; simp, fun i hi => (h3.range i ((hmem i).mpr hi)).2, ?_, ?_, ?_⟩
  · intro c hc
    obtain ⟨i, hi, he⟩ := h3.onto c (Nat.zero_le _) hc
    exact ⟨i, (hmem i).mp hi, he⟩
  · intro i j hi hj; exact h3.same i ((hmem i).mpr hi) j ((hmem j).mpr hj)
  · intro i j hi hj hle
    by_cases he : keys.getD i [] = keys.getD j []
    · exact le_of_eq ((h3.same i ((hmem i).mpr hi) j ((hmem j).mpr hj)).mpr he)
    · exact le_of_lt (h3.mono i ((hmem i).mpr hi) j ((hmem j).mpr hj) hle he)

theorem lexLe_total : ∀ a b : List Int, LexLe a b ∨ LexLe b a
  | [], _ => Or.inl trivial
  | _ :: _, [] => Or.inr trivial
  | a :: as, b :: bs => by
    rcases lt_trichotomy a b with h | h | h
    · exact Or.inl (Or.inl h)
    · rcases lexLe_total as bs with h' | h'
      · exact Or.inl (Or.inr ⟨h, h'⟩)
      · exact Or.inr (Or.inr ⟨h.symm, h'⟩)
    · exact Or.inr (Or.inl h)

open Classical in
theorem number_value (keys : List (List Int)) (order : List Nat) (hp : order.Perm (List.range keys.length))
    (hs : order.Pairwise fun i j => LexLe (keys.getD i []) (keys.getD j [])) :
    (number keys order).2 = ((Finset.range keys.length).image fun j => keys.getD j []).card ∧
    ∀ i, i < keys.length → (number keys order).1.getD i 0 =
      (((Finset.range keys.length).filter fun j => ¬ LexLe (keys.getD i []) (keys.getD j [])).image fun j => keys.getD j []).card := by
  obtain ⟨_, h2, h3, h4, h5⟩ := C37_numbering keys order hp hs
  generalize number keys order = r at *
  have hcard : ∀ (S : Finset Nat), (∀ j ∈ S, j < keys.length) →
      (S.image fun j => keys.getD j []).card = (S.image fun j => r.1.getD j 0).card := by
    intro S hS
    apply Finset.card_bij (fun (k : List Int) _ => r.1.getD (keys.idxOf k) 0)
    · intro k hk
      obtain ⟨j, hj, rfl⟩ := Finset.mem_image.mp hk
      refine Finset.mem_image.mpr ⟨j, hj, ?_⟩
      have hm : keys.getD j [] ∈ keys := by
        rw [List.getD_eq_getElem _ _ (hS j hj)]; exact List.getElem_mem _
      have hlt := List.idxOf_lt_length_of_mem hm
      refine (h4 j _ (hS j hj) hlt).mpr ?_
      rw [List.getD_eq_getElem keys [] hlt, List.getElem_idxOf]
    · intro k hk k' hk' he
      obtain ⟨j, hj, rfl⟩ := Finset.mem_image.mp hk
      obtain ⟨j', hj', rfl⟩ := Finset.mem_image.mp hk'
      have hm : keys.getD j [] ∈ keys := by
        rw [List.getD_eq_getElem _ _ (hS j hj)]; exact List.getElem_mem _
      have hm' : keys.getD j' [] ∈ keys := by
        rw [List.getD_eq_getElem _ _ (hS j' hj')]; exact List.getElem_mem _
      have hlt := List.idxOf_lt_length_of_mem hm
      have hlt' := List.idxOf_lt_length_of_mem hm'
      have := (h4 _ _ hlt hlt').mp he
      rw [List.getD_eq_getElem keys [] hlt, List.getElem_idxOf, List.getD_eq_getElem keys [] hlt', List.getElem_idxOf] at this
      exact this
    · intro c hc
      obtain ⟨j, hj, rfl⟩ := Finset.mem_image.mp hc
      refine ⟨keys.getD j [], Finset.mem_image.mpr ⟨j, hj, rfl⟩, ?_⟩
      have hm : keys.getD j [] ∈ keys := by
        rw [List.getD_eq_getElem _ _ (hS j hj)]; exact List.getElem_mem _
      have hlt := List.idxOf_lt_length_of_mem hm
      refine (h4 _ j hlt (hS j hj)).mpr ?_
      rw [List.getD_eq_getElem keys [] hlt, List.getElem_idxOf]
  constructor
  · rw [hcard _ (fun j hj => Finset.mem_range.mp hj)]
    have : ((Finset.range keys.length).image fun j => r.1.getD j 0) = Finset.range r.2 := by
      ext c
      rw [Finset.mem_image, Finset.mem_range]
      constructor
      · rintro ⟨j, hj, rfl⟩; exact h2 j (Finset.mem_range.mp hj)
      · intro hc
        obtain ⟨i, hi, he⟩ := h3 c hc
        exact ⟨i, Finset.mem_range.mpr hi, he⟩
    rw [this, Finset.card_range]
  · intro i hi
    rw [hcard _ (fun j hj => Finset.mem_range.mp (Finset.mem_filter.mp hj).1)]
    have : (((Finset.range keys.length).filter fun j => ¬ LexLe (keys.getD i []) (keys.getD j [])).image fun j => r.1.getD j 0) =
        Finset.range (r.1.getD i 0) := by
      ext c
      rw [Finset.mem_image, Finset.mem_range]
      constructor
      · rintro ⟨j, hj, rfl⟩
        obtain ⟨hj1, hj2⟩ := Finset.mem_filter.mp hj
        have hj1 := Finset.mem_range.mp hj1
        have hle := (lexLe_total (keys.getD i []) (keys.getD j [])).resolve_left hj2
        refine lt_of_le_of_ne (h5 j i hj1 hi hle) ?_
        intro he
        have := (h4 j i hj1 hi).mp he
        rw [this] at hj2 hle
        exact hj2 hle
      · intro hc
        obtain ⟨j, hj, he⟩ := h3 c (lt_trans hc (h2 i hi))
        refine ⟨j, Finset.mem_filter.mpr ⟨Finset.mem_range.mpr hj, ?_⟩, he⟩
        intro hle
        have := h5 i j hi hj hle
        omega
    rw [this, Finset.card_range]

/-- C37: the numbering does not depend on the order that the sort chooses among rows with equal keys, hence not on
the number of threads. -/
theorem C37_order_irrelevant (keys : List (List Int)) (order order' : List Nat)
    (hp : order.Perm (List.range keys.length)) (hp' : order'.Perm (List.range keys.length))
    (hs : order.Pairwise fun i j => LexLe (keys.getD i []) (keys.getD j []))
    (hs' : order'.Pairwise fun i j => LexLe (keys.getD i []) (keys.getD j [])) :
    number keys order = number keys order' := by
  obtain ⟨a1, a2⟩ := number_value keys order hp hs
  obtain ⟨b1, b2⟩ := number_value keys order' hp' hs'
  have hl := (C37_numbering keys order hp hs).1
  have hl' := (C37_numbering keys order' hp' hs').1
  refine Prod.ext ?_ (a1.trans b1.symm)
  apply List.ext_getElem (hl.trans hl'.symm)
  intro i h1 h2
  have e1 := a2 i (by omega)
  have e2 := b2 i (by omega)
  rw [List.getD_eq_getElem _ _ h1] at e1
  rw [List.getD_eq_getElem _ _ h2] at e2
  rw [e1, e2]

/-- C37: on one thread, `sort_by_perm` applied to the key columns returns such an order. -/
theorem C37_single_thread_order (b : Nat) (hb : 0 < b) (hbw : b < 32) (n : Nat) (hn : 0 < n) (keys : List (List Int))
    (hrow : ∀ k ∈ keys, k.length = n ∧ ∀ x ∈ k, -2 ^ 31 ≤ x ∧ x < 2 ^ 31) (hsz : keys.length ≤ 2 ^ 32) :
    ∃ order, SortByPerm.sortByPermCols b ((List.range n).map fun c => keys.map fun k => BitVec.ofInt 32 (k.getD c 0)) = some order ∧
      order.Perm (List.range keys.length) ∧ order.Pairwise fun i j => LexLe (keys.getD i []) (keys.getD j []) := by
  obtain ⟨m, rfl⟩ : ∃ m, n = m + 1 := ⟨n - 1, by omega⟩
  rw [List.range_succ_eq_map, List.map_cons]
  obtain ⟨order, h1, h2⟩ := C04_sort_by_perm_columns b hb hbw (keys.map fun k => BitVec.ofInt 32 (k.getD 0 0))
    ((List.map Nat.succ (List.range m)).map fun c => keys.map fun k => BitVec.ofInt 32 (k.getD c 0)) (by simpa using hsz)
  have hkey : ∀ i, i < keys.length → columnsRow ((keys.map fun k => BitVec.ofInt 32 (k.getD 0 0)) ::
      (List.map Nat.succ (List.range m)).map fun c => keys.map fun k => BitVec.ofInt 32 (k.getD c 0)) i = ⟨keys.getD i []⟩ := by
    intro i hi
    unfold columnsRow
    congr 1
    rw [← List.map_cons (f := fun c => keys.map fun k => BitVec.ofInt 32 (k.getD c 0)) (a := 0), ← List.range_succ_eq_map, List.map_map]
    obtain ⟨hlen, hx⟩ := hrow _ (List.getElem_mem hi)
    apply List.ext_getElem
    · rw [List.getD_eq_getElem _ _ hi, hlen]; simp
    · intro c hc1 hc2
      rw [List.getElem_map, List.getElem_range]
      simp only [Function.comp]
      rw [List.getD_eq_getElem _ _ (by simpa using hi), List.getElem_map, BitVec.toInt_ofInt]
      simp only [List.getD_eq_getElem _ _ hi] at hc2 ⊢
      rw [List.getD_eq_getElem _ _ hc2]
      obtain ⟨h3, h4⟩ := hx _ (List.getElem_mem hc2)
      rw [Int.bmod_eq_of_le] <;> simp at * <;> omega
  refine ⟨order, h1, by simpa using h2.perm, ?_⟩
  refine List.Pairwise.imp_of_mem ?_ h2.sorted
  intro i j hi hj hle
  have hi' : i < keys.length := by simpa using h2.perm.mem_iff.mp hi
  have hj' : j < keys.length := by simpa using h2.perm.mem_iff.mp hj
  rw [hkey i hi', hkey j hj'] at hle
  exact hle

/-! ### Ghost status and connectivity -/

open Classical in
theorem ghostStatus_get (ls : List CellList) (index : List Nat) (count : Nat) (c : Nat) (hc : c < count) :
    (ghostStatus ls index count)[c]? = some (if ∃ k cl i, ls[k]? = some cl ∧ i < cl.owned * cl.ents.length ∧
      index.getD (i + offset ls k) 0 = c then 0 else 1) := by
  unfold ghostStatus
  have hinner : ∀ (s : List Nat) (k : Nat) (cl : CellList),
      (List.range (cl.owned * cl.ents.length)).foldl (fun s i => s.set (index.getD (i + offset ls k) 0) 0) s =
      ((List.range (cl.owned * cl.ents.length)).map fun i => index.getD (i + offset ls k) 0).foldl (fun s i => s.set i 0) s := by
    intro s k cl; rw [List.foldl_map]
  have key : ∀ n, n ≤ ls.length →
      ((List.range n).foldl (fun s k => match ls[k]? with
        | some cl => (List.range (cl.owned * cl.ents.length)).foldl (fun s i => s.set (index.getD (i + offset ls k) 0) 0) s
        | none => s) (List.replicate count 1)).length = count ∧
      ((List.range n).foldl (fun s k => match ls[k]? with
        | some cl => (List.range (cl.owned * cl.ents.length)).foldl (fun s i => s.set (index.getD (i + offset ls k) 0) 0) s
        | none => s) (List.replicate count 1))[c]? = some (if ∃ k cl i, k < n ∧ ls[k]? = some cl ∧
          i < cl.owned * cl.ents.length ∧ index.getD (i + offset ls k) 0 = c then 0 else 1) := by
    intro n hn
    induction n with
    | zero =>
      refine ⟨by simp, ?_⟩
      rw [if_neg (by simp)]
      simp [hc]
    | succ n ih =>
      obtain ⟨h1, h2⟩ := ih (by omega)
      rw [List.range_succ, List.foldl_append]
      generalize (List.range n).foldl (fun s k => match ls[k]? with
        | some cl => (List.range (cl.owned * cl.ents.length)).foldl (fun s i => s.set (index.getD (i + offset ls k) 0) 0) s
        | none => s) (List.replicate count 1) = s at *
      have hcl := List.getElem?_eq_getElem (show n < ls.length by omega)
      simp only [List.foldl_cons, List.foldl_nil, hcl, hinner]
      rw [foldl_set_length, foldl_set_get, h2]
      refine ⟨h1, ?_⟩
      by_cases h : ∃ k cl i, k < n + 1 ∧ ls[k]? = some cl ∧ i < cl.owned * cl.ents.length ∧ index.getD (i + offset ls k) 0 = c
      · rw [if_pos h]
        split
        · rfl
        · rename_i hno
          rw [if_pos]
          obtain ⟨k, cl, i, e1, e2, e3, e4⟩ := h
          by_cases hk : k = n
          · subst hk
            exfalso
            rw [hcl] at e2
            cases e2
            exact hno ⟨List.mem_map.mpr ⟨i, List.mem_range.mpr e3, e4⟩, by omega⟩
          · exact ⟨k, cl, i, by omega, e2, e3, e4⟩
      · rw [if_neg h, if_neg, if_neg]
        · rintro ⟨k, cl, i, e1, e2⟩; exact h ⟨k, cl, i, by omega, e2⟩
        · rintro ⟨h3, _⟩
          obtain ⟨i, h4, h5⟩ := List.mem_map.mp h3
          exact h ⟨n, _, i, by omega, hcl, List.mem_range.mp h4, h5⟩
  refine Eq.trans (key ls.length (le_refl _)).2 ?_
  congr 1
  have : (∃ k cl i, k < ls.length ∧ ls[k]? = some cl ∧ i < cl.owned * cl.ents.length ∧ index.getD (i + offset ls k) 0 = c) ↔
      (∃ k cl i, ls[k]? = some cl ∧ i < cl.owned * cl.ents.length ∧ index.getD (i + offset ls k) 0 = c) := by
    constructor
    · rintro ⟨k, cl, i, _, h⟩; exact ⟨k, cl, i, h⟩
    · rintro ⟨k, cl, i, h, h'⟩; exact ⟨k, cl, i, (List.getElem?_eq_some_iff.mp h).1, h, h'⟩
  simp only [this]

/-- Entity `e` of cell `c` of the `k`-th cell type exists and has vertices `ev`. -/
def IsInstance (ls : List CellList) (k c e : Nat) (ev : List Int) : Prop :=
  ∃ cl, ls[k]? = some cl ∧ c < cl.cells.length ∧ e < cl.ents.length ∧ ev = cl.verts c e

/-- What the mesh must satisfy: entities have 2, 3 or 4 vertices with different global numbers, entities with the
same vertices list them as the same face, owned cells are among the cells. -/
structure MeshOk (g : Int → Int) (ls : List CellList) : Prop where
  ok : ∀ k c e ev, IsInstance ls k c e ev → EntityOk g ev
  conform : ∀ k c e ev k' c' e' ev', IsInstance ls k c e ev → IsInstance ls k' c' e' ev' → ev.Perm ev' → SameFace ev ev'
  owned : ∀ cl ∈ ls, cl.owned ≤ cl.cells.length

theorem row_ok (g : Int → Int) (ev : List Int) (h : EntityOk g ev) :
    SameFace ev (row g ev).1 ∧ LowToHigh ((row g ev).1.map g) ∧ (row g ev).2.Perm ev ∧ (row g ev).2.Pairwise (· ≤ ·) := by
  obtain ⟨el, ks, h1, h2⟩ := (C36_row g ev).1 h
  unfold row
  rw [h1]
  exact h2

/-- Position of entity `e` of cell `c` of the `k`-th cell type among all entities of cells. -/
def instPos (ls : List CellList) (k c e : Nat) : Nat := offset ls k + c * (ls.getD k ⟨[], [], 0⟩).ents.length + e

theorem instance_row (g : Int → Int) (ls : List CellList) (k c e : Nat) (ev : List Int) (h : IsInstance ls k c e ev) :
    (allRows g ls)[instPos ls k c e]? = some (row g ev) := by
  obtain ⟨cl, h1, h2, h3, rfl⟩ := h
  unfold instPos
  rw [List.getD_eq_getElem?_getD, h1]
  exact allRows_get g ls k cl h1 c e h2 h3

theorem instance_exists (ls : List CellList) (i : Nat) (hi : i < offset ls ls.length) :
    ∃ k c e ev, IsInstance ls k c e ev ∧ i = instPos ls k c e := by
  obtain ⟨k, cl, c, e, h1, h2, h3, h4⟩ := instance_of_pos ls i hi
  refine ⟨k, c, e, _, ⟨cl, h1, h2, h3, rfl⟩, ?_⟩
  unfold instPos
  rw [List.getD_eq_getElem?_getD, h1]
  exact h4

/-- `entity_list_sorted`: the keys of all rows. -/
def allKeys (g : Int → Int) (ls : List CellList) : List (List Int) := (allRows g ls).map Prod.snd

theorem allKeys_length (g : Int → Int) (ls : List CellList) : (allKeys g ls).length = offset ls ls.length := by
  unfold allKeys; rw [List.length_map, allRows_length]

theorem instance_key (g : Int → Int) (ls : List CellList) (k c e : Nat) (ev : List Int) (h : IsInstance ls k c e ev) :
    instPos ls k c e < (allKeys g ls).length ∧ (allKeys g ls).getD (instPos ls k c e) [] = (row g ev).2 := by
  have h1 := instance_row g ls k c e ev h
  have h2 := (List.getElem?_eq_some_iff.mp h1).1
  refine ⟨by unfold allKeys; simpa using h2, ?_⟩
  unfold allKeys
  rw [List.getD_eq_getElem?_getD, List.getElem?_map, h1]; rfl

theorem instance_key_iff (g : Int → Int) (ls : List CellList) (hm : MeshOk g ls) (k c e : Nat) (ev : List Int) (k' c' e' : Nat)
    (ev' : List Int) (h : IsInstance ls k c e ev) (h' : IsInstance ls k' c' e' ev') :
    (allKeys g ls).getD (instPos ls k c e) [] = (allKeys g ls).getD (instPos ls k' c' e') [] ↔ ev.Perm ev' := by
  rw [(instance_key g ls k c e ev h).2, (instance_key g ls k' c' e' ev' h').2]
  obtain ⟨_, _, p1, o1⟩ := row_ok g ev (hm.ok _ _ _ _ h)
  obtain ⟨_, _, p2, o2⟩ := row_ok g ev' (hm.ok _ _ _ _ h')
  constructor
  · intro he; rw [he] at p1; exact p1.symm.trans p2
  · intro hp; exact sorted_unique_list _ _ (p1.trans (hp.trans p2.symm)) o1 o2

/-- C37: an entity is marked 0 exactly when it is an entity of an owned cell, and 1 otherwise. -/
theorem C37_ghost_status (g : Int → Int) (ls : List CellList) (hm : MeshOk g ls) (order : List Nat)
    (hp : order.Perm (List.range (allKeys g ls).length))
    (hs : order.Pairwise fun i j => LexLe ((allKeys g ls).getD i []) ((allKeys g ls).getD j [])) (k c e : Nat) (ev : List Int)
    (h : IsInstance ls k c e ev) :
    (ghostStatus ls (number (allKeys g ls) order).1 (number (allKeys g ls) order).2).getD
        ((number (allKeys g ls) order).1.getD (instPos ls k c e) 0) 2 = 0 ∧
      (∃ k' c' e' ev', IsInstance ls k' c' e' ev' ∧ ev.Perm ev' ∧ ∃ cl, ls[k']? = some cl ∧ c' < cl.owned) ∨
    (ghostStatus ls (number (allKeys g ls) order).1 (number (allKeys g ls) order).2).getD
        ((number (allKeys g ls) order).1.getD (instPos ls k c e) 0) 2 = 1 ∧
      ¬ (∃ k' c' e' ev', IsInstance ls k' c' e' ev' ∧ ev.Perm ev' ∧ ∃ cl, ls[k']? = some cl ∧ c' < cl.owned) := by
  classical
  obtain ⟨_, h2, _, h4, _⟩ := C37_numbering _ order hp hs
  generalize number (allKeys g ls) order = r at *
  have hpos := (instance_key g ls k c e ev h).1
  have hget := ghostStatus_get ls r.1 r.2 _ (h2 _ hpos)
  rw [List.getD_eq_getElem?_getD, hget, Option.getD_some]
  have hiff : (∃ k' cl i, ls[k']? = some cl ∧ i < cl.owned * cl.ents.length ∧
      r.1.getD (i + offset ls k') 0 = r.1.getD (instPos ls k c e) 0) ↔
      (∃ k' c' e' ev', IsInstance ls k' c' e' ev' ∧ ev.Perm ev' ∧ ∃ cl, ls[k']? = some cl ∧ c' < cl.owned) := by
    constructor
    · rintro ⟨k', cl, i, e1, e2, e3⟩
      have hm0 : 0 < cl.ents.length := by
        rcases Nat.eq_zero_or_pos cl.ents.length with h0 | h0
        · rw [h0] at e2; simp at e2
        · exact h0
      have hq : i / cl.ents.length < cl.owned := Nat.div_lt_of_lt_mul (by rw [Nat.mul_comm]; exact e2)
      have hI : IsInstance ls k' (i / cl.ents.length) (i % cl.ents.length) (cl.verts (i / cl.ents.length) (i % cl.ents.length)) :=
        ⟨cl, e1, lt_of_lt_of_le hq (hm.owned cl (List.mem_of_getElem? e1)), Nat.mod_lt _ hm0, rfl⟩
      refine ⟨k', _, _, _, hI, ?_, cl, e1, hq⟩
      have hpe : i + offset ls k' = instPos ls k' (i / cl.ents.length) (i % cl.ents.length) := by
        unfold instPos
        rw [List.getD_eq_getElem?_getD, e1, Option.getD_some, Nat.add_assoc, Nat.mul_comm, Nat.div_add_mod, Nat.add_comm]
      rw [hpe] at e3
      have := (h4 _ _ (instance_key g ls _ _ _ _ hI).1 hpos).mp e3
      exact ((instance_key_iff g ls hm _ _ _ _ _ _ _ _ hI h).mp this).symm
    · rintro ⟨k', c', e', ev', hI, hperm, cl, e1, e2⟩
      obtain ⟨cl', e1', e3, e4, e5⟩ := id hI
      rw [e1] at e1'
      cases e1'
      refine ⟨k', cl, c' * cl.ents.length + e', e1, ?_, ?_⟩
      · have := Nat.mul_le_mul_right cl.ents.length (show c' + 1 ≤ _ from e2)
        rw [Nat.succ_mul] at this; omega
      · have hpe : c' * cl.ents.length + e' + offset ls k' = instPos ls k' c' e' := by
          unfold instPos
          rw [List.getD_eq_getElem?_getD, e1, Option.getD_some]; omega
        rw [hpe]
        exact (h4 _ _ (instance_key g ls _ _ _ _ hI).1 hpos).mpr
          ((instance_key_iff g ls hm _ _ _ _ _ _ _ _ hI h).mpr hperm.symm)
  by_cases hx : ∃ k' c' e' ev', IsInstance ls k' c' e' ev' ∧ ev.Perm ev' ∧ ∃ cl, ls[k']? = some cl ∧ c' < cl.owned
  · rw [if_pos (hiff.mpr hx)]; exact Or.inl ⟨rfl, hx⟩
  · rw [if_neg (fun h' => hx (hiff.mp h'))]; exact Or.inr ⟨rfl, hx⟩

/-- C37: connectivity.  With the entities renumbered by any bijection `f` (that of `get_local_indexing`), the
entities listed for a cell are numbered below the number of entities, two cells list the same number exactly for
entities with the same vertices, every number is listed, and the vertices stored for it are those of the cell's
entity, in the global orientation. -/
theorem C37_connectivity (g : Int → Int) (ls : List CellList) (hm : MeshOk g ls) (order : List Nat)
    (hp : order.Perm (List.range (allKeys g ls).length))
    (hs : order.Pairwise fun i j => LexLe ((allKeys g ls).getD i []) ((allKeys g ls).getD j []))
    (f : Nat → Nat) (hf : ∀ a, a < (number (allKeys g ls) order).2 → f a < (number (allKeys g ls) order).2)
    (hinj : ∀ a b, a < (number (allKeys g ls) order).2 → b < (number (allKeys g ls) order).2 → f a = f b → a = b)
    (hsurj : ∀ b, b < (number (allKeys g ls) order).2 → ∃ a, a < (number (allKeys g ls) order).2 ∧ f a = b) :
    (∀ k c e ev, IsInstance ls k c e ev →
      ∃ x, (cellEntities ls ((number (allKeys g ls) order).1.map f) k c)[e]? = some x ∧
        x < (number (allKeys g ls) order).2 ∧
        ∃ el, (entityVertices ((allRows g ls).map Prod.fst) ((number (allKeys g ls) order).1.map f)
            (number (allKeys g ls) order).2)[x]? = some el ∧ SameFace ev el ∧ LowToHigh (el.map g)) ∧
    (∀ k c e ev k' c' e' ev', IsInstance ls k c e ev → IsInstance ls k' c' e' ev' →
      ((cellEntities ls ((number (allKeys g ls) order).1.map f) k c)[e]? =
        (cellEntities ls ((number (allKeys g ls) order).1.map f) k' c')[e']? ↔ ev.Perm ev')) ∧
    (∀ x, x < (number (allKeys g ls) order).2 → ∃ k c e ev, IsInstance ls k c e ev ∧
      (cellEntities ls ((number (allKeys g ls) order).1.map f) k c)[e]? = some x) := by
  obtain ⟨h1, h2, h3, h4, _⟩ := C37_numbering _ order hp hs
  generalize number (allKeys g ls) order = r at *
  have hlen : r.1.length = offset ls ls.length := by rw [h1, allKeys_length]
  have hce : ∀ k c e ev, IsInstance ls k c e ev →
      (cellEntities ls (r.1.map f) k c)[e]? = some (f (r.1.getD (instPos ls k c e) 0)) := by
    intro k c e ev hI
    have hpos := (instance_key g ls k c e ev hI).1
    obtain ⟨cl, e1, e2, e3, e4⟩ := hI
    have hpe : instPos ls k c e = offset ls k + c * cl.ents.length + e := by
      unfold instPos; rw [List.getD_eq_getElem?_getD, e1, Option.getD_some]
    unfold cellEntities
    simp only [e1]
    have hcount : c * cl.ents.length + e < cl.count := by
      unfold CellList.count
      have := Nat.mul_le_mul_right cl.ents.length (show c + 1 ≤ _ from e2)
      rw [Nat.succ_mul] at this; omega
    rw [List.getElem?_take, if_pos e3, List.getElem?_drop, List.getElem?_drop, List.getElem?_take,
      if_pos (by rw [offset_succ ls k cl e1]; omega), List.getElem?_map, ← Nat.add_assoc, ← hpe,
      List.getElem?_eq_getElem (by omega), List.getD_eq_getElem _ _ (by omega)]
    rfl
  refine ⟨?_, ?_, ?_⟩
  · intro k c e ev hI
    obtain ⟨hpos, hk⟩ := instance_key g ls k c e ev hI
    refine ⟨_, hce k c e ev hI, hf _ (h2 _ hpos), (row g ev).1, ?_, ?_⟩
    · unfold entityVertices
      have hrow := instance_row g ls k c e ev hI
      apply runWrites_written
      · simpa using hf _ (h2 _ hpos)
      · refine List.mem_of_getElem? (i := instPos ls k c e) ?_
        rw [List.getElem?_zip_eq_some]
        refine ⟨?_, by rw [List.getElem?_map, hrow]; rfl⟩
        rw [List.getElem?_map, List.getElem?_eq_getElem (by omega), List.getD_eq_getElem _ _ (by omega)]; rfl
      · intro b' hb'
        obtain ⟨i, hi⟩ := List.getElem?_of_mem hb'
        rw [List.getElem?_zip_eq_some, List.getElem?_map, List.getElem?_map] at hi
        obtain ⟨hi1, hi2⟩ := hi
        obtain ⟨a, ha, hfa⟩ := Option.map_eq_some_iff.mp hi1
        obtain ⟨rw', hrw, hb⟩ := Option.map_eq_some_iff.mp hi2
        have hil : i < r.1.length := (List.getElem?_eq_some_iff.mp ha).1
        obtain ⟨k', c', e', ev', hI', rfl⟩ := instance_exists ls i (by omega)
        have hpos' := (instance_key g ls k' c' e' ev' hI').1
        rw [instance_row g ls _ _ _ _ hI'] at hrw
        cases hrw
        have ha' : r.1.getD (instPos ls k' c' e') 0 = a := by rw [List.getD_eq_getElem?_getD, ha]; rfl
        rw [← ha'] at hfa
        have := hinj _ _ (h2 _ hpos') (h2 _ hpos) hfa
        have := (h4 _ _ hpos' hpos).mp this
        have hperm := (instance_key_iff g ls hm _ _ _ _ _ _ _ _ hI' hI).mp this
        have hsame := hm.conform _ _ _ _ _ _ _ _ hI' hI hperm
        obtain ⟨el, ks, el', ks', r1, r2, _, r3⟩ := C36_key g ev' ev (hm.ok _ _ _ _ hI') (hm.ok _ _ _ _ hI)
        have hel := r3 hsame
        simp only [row, r1, r2] at hb ⊢
        rw [← hb]; exact hel
    · obtain ⟨q1, q2, _⟩ := row_ok g ev (hm.ok _ _ _ _ hI)
      exact ⟨q1, q2⟩
  · intro k c e ev k' c' e' ev' hI hI'
    rw [hce _ _ _ _ hI, hce _ _ _ _ hI', Option.some.injEq, ← instance_key_iff g ls hm _ _ _ _ _ _ _ _ hI hI']
    have hpos := (instance_key g ls k c e ev hI).1
    have hpos' := (instance_key g ls k' c' e' ev' hI').1
    rw [← h4 _ _ hpos hpos']
    exact ⟨fun h => hinj _ _ (h2 _ hpos) (h2 _ hpos') h, fun h => by rw [h]⟩
  · intro x hx
    obtain ⟨a, ha, rfl⟩ := hsurj x hx
    obtain ⟨i, hi, rfl⟩ := h3 a ha
    rw [allKeys_length] at hi
    obtain ⟨k, c, e, ev, hI, rfl⟩ := instance_exists ls i hi
    exact ⟨k, c, e, ev, hI, hce _ _ _ _ hI⟩

/-! A case meeting the hypotheses: two triangles sharing an edge, the second a ghost cell; three threads. -/

def exCells : List CellList := [⟨[[0, 1, 2], [3, 2, 1]], [[1, 2], [0, 2], [0, 1]], 1⟩]

example : allKeys (fun x => 7 - x) exCells = [[1, 2], [0, 2], [0, 1], [1, 2], [1, 3], [2, 3]] ∧
    number (allKeys (fun x => 7 - x) exCells) [2, 1, 3, 0, 4, 5] = ([2, 1, 0, 2, 3, 4], 5) ∧
    ghostStatus exCells [2, 1, 0, 2, 3, 4] 5 = [0, 0, 0, 1, 1] ∧
    ([2, 1, 3, 0, 4, 5].Perm (List.range 6)) ∧
    (List.range 1).foldl (fun a _ => runWrites a (typeWrites (fun x => 7 - x) 3 (exCells.getD 0 ⟨[], [], 0⟩) 0).reverse)
      (List.replicate 6 ([], [])) = allRows (fun x => 7 - x) exCells := by decide +kernel

theorem exCells_ok : MeshOk (fun x => 7 - x) exCells := by
  have hI : ∀ k c e ev, IsInstance exCells k c e ev → ev ∈ ([[1, 2], [0, 2], [0, 1], [2, 1], [3, 1], [3, 2]] : List (List Int)) := by
    rintro k c e ev ⟨cl, h1, h2, h3, rfl⟩
    match k, h1 with
    | 0, h1 =>
      cases h1
      match c, h2 with
      | 0, _ => match e, h3 with
        | 0, _ => decide
        | 1, _ => decide
        | 2, _ => decide
      | 1, _ => match e, h3 with
        | 0, _ => decide
        | 1, _ => decide
        | 2, _ => decide
    | k + 1, h1 => simp [exCells] at h1
  constructor
  · intro k c e ev h
    have := hI k c e ev h
    simp only [List.mem_cons, List.not_mem_nil, or_false] at this
    rcases this with rfl | rfl | rfl | rfl | rfl | rfl <;> exact ⟨by decide, by decide⟩
  · intro k c e ev k' c' e' ev' h h' hp
    have h1 := hI _ _ _ _ h
    have hl1 : ev.length = 2 := by
      simp only [List.mem_cons, List.not_mem_nil, or_false] at h1
      rcases h1 with rfl | rfl | rfl | rfl | rfl | rfl <;> rfl
    have hl : ev.length = 2 ∧ ev'.length = 2 := ⟨hl1, by rw [← hp.length_eq]; exact hl1⟩
    match ev, ev', hl with
    | [a, b], [a', b'], _ =>
      have : [a', b'] = [a, b] ∨ [a', b'] = [b, a] := by
        have h1 : a' ∈ [a, b] := hp.symm.subset (by simp)
        have h2 := hp
        simp only [List.mem_cons, List.not_mem_nil, or_false] at h1
        rcases h1 with rfl | rfl
        · have := (List.perm_cons _).mp h2
          left; simp [List.perm_singleton.mp this.symm]
        · have := (List.Perm.swap _ _ _).trans h2
          have := (List.perm_cons _).mp this
          right; simp [List.perm_singleton.mp this.symm]
      rcases this with h | h <;> rw [h]
      · exact ⟨0, rfl⟩
      · exact ⟨1, rfl⟩
  · intro cl hcl
    simp only [exCells, List.mem_singleton] at hcl
    subst hcl; decide

end Verif.Props
