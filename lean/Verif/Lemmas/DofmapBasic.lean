import Verif.Lemmas.DofNumbering
import Verif.Props.C37_EntityNumbering
import Verif.Props.C29_SubMap
/-!
# Required entities and the basic dofmap
-/
namespace Verif.Dofmap
open Verif.World Verif.Offsets Verif.Std

/-- Number of entities before `s` with the same type: position of an entity in the links of its cell. -/
def slotPos (I : Input) (i d s : Nat) : Nat := (List.range s).countP fun s' => decide (I.etype i d s' = I.etype i d s)

/-- Local dof `l` of cell `c` of type `i` is dof `j` of the local entity `e` of dimension `d` and type number `et`. -/
def Attached (I : Input) (r i c l d et e j : Nat) : Prop :=
  ∃ (s : Nat) (ds : List Nat), ((I.layout i).getD d [])[s]? = some ds ∧ ds[j]? = some l ∧
    (I.types d)[et]? = some (I.etype i d s) ∧ d ≤ I.D ∧
    ((d = I.D ∧ e = c) ∨ (d < I.D ∧ ∃ cn row, I.conn r i d et = some cn ∧ cn[c]? = some row ∧
      row[slotPos I i d s]? = some e))

/-- Number of entities of one dimension and type on a rank, owned and ghosts. -/
def numEnts (I : Input) (r d et : Nat) : Nat := (I.maps d et).size r + ((I.maps d et).ghosts r).length

/-- A consistent topology, and layouts that fit it. -/
structure Ok (I : Input) : Prop where
  valid : ∀ d, d ≤ I.D → ∀ et, et < (I.types d).length → (I.maps d et).P = I.P ∧ (I.maps d et).Valid
  types_nodup : ∀ d, d ≤ I.D → (I.types d).Nodup
  types_cell : (I.types I.D).length = I.nct
  etype_mem : ∀ i, i < I.nct → ∀ d, d ≤ I.D → ∀ s, s < ((I.layout i).getD d []).length → I.etype i d s ∈ I.types d
  etype_cell : ∀ i, i < I.nct → (I.types I.D)[i]? = some (I.etype i I.D 0)
  one_cell : ∀ i, i < I.nct → ((I.layout i).getD I.D []).length ≤ 1
  dof_lt : ∀ i, i < I.nct → ∀ d, d ≤ I.D → ∀ (s : Nat) ds, ((I.layout i).getD d [])[s]? = some ds → ∀ l ∈ ds, l < I.ndofs i
  dof_slot : ∀ i, i < I.nct → ∀ l, l < I.ndofs i → ∃ (d s j : Nat) (ds : List Nat), d ≤ I.D ∧ ((I.layout i).getD d [])[s]? = some ds ∧
    ds[j]? = some l
  dof_unique : ∀ i, i < I.nct → ∀ l, ∀ (d s j : Nat) (ds : List Nat) (d' s' j' : Nat) (ds' : List Nat), d ≤ I.D → d' ≤ I.D →
    ((I.layout i).getD d [])[s]? = some ds → ds[j]? = some l →
    ((I.layout i).getD d' [])[s']? = some ds' → ds'[j']? = some l → d = d' ∧ s = s' ∧ j = j'
  compat : ∀ i, i < I.nct → ∀ i', i' < I.nct → ∀ d, d ≤ I.D → ∀ (s s' : Nat) ds ds',
    ((I.layout i).getD d [])[s]? = some ds → ((I.layout i').getD d [])[s']? = some ds' →
    I.etype i d s = I.etype i' d s' → ds ≠ [] → ds' ≠ [] → ds.length = ds'.length
  conn : ∀ r, r < I.P → ∀ i, i < I.nct → ∀ d, d < I.D → ∀ (et s : Nat), s < ((I.layout i).getD d []).length →
    (I.types d)[et]? = some (I.etype i d s) → ∃ cn, I.conn r i d et = some cn ∧ ∀ c, c < numCells I r i →
      ∃ row, cn[c]? = some row ∧
        row.length = (List.range ((I.layout i).getD d []).length).countP (fun s' => decide (I.etype i d s' = I.etype i d s)) ∧
        ∀ e ∈ row, e < numEnts I r d et
  reorder : ∀ r, r < I.P → ∀ f, I.reorder r = some f → ∀ g, (∀ l ∈ g, ∀ b ∈ l, b < g.length) →
    (∀ a b : Nat, b ∈ g.getD a [] → a ∈ g.getD b []) → (f g).Perm (List.range g.length)
  wait : ∀ r, r < I.P → ∀ R, required I r = some R → (I.wait r).Perm (List.range R.length)

variable {I : Input}

/-! ## Required entities -/

def reqOf (I : Input) (x : Nat × Nat × Nat × List Nat) : Req :=
  ⟨x.2.1, (I.types x.2.1).idxOf (I.etype x.1 x.2.1 x.2.2.1), x.2.2.2.length⟩

def pureStep (I : Input) (s : List Req) (x : Nat × Nat × Nat × List Nat) : List Req :=
  if x.2.2.2 = [] ∨ ∃ q ∈ s, q.d = (reqOf I x).d ∧ q.et = (reqOf I x).et then s else s ++ [reqOf I x]

/-- The required entities. -/
def reqs (I : Input) : List Req := (slots I).foldl (pureStep I) []

theorem mem_slots (x : Nat × Nat × Nat × List Nat) : x ∈ slots I ↔ x.1 < I.nct ∧ x.2.1 ≤ I.D ∧
    ((I.layout x.1).getD x.2.1 [])[x.2.2.1]? = some x.2.2.2 := by
  unfold slots
  simp only [List.mem_flatMap, List.mem_range, List.mem_map]
  constructor
  · rintro ⟨i, hi, d, hd, ⟨ds, s⟩, hp, rfl⟩
    exact ⟨hi, Nat.lt_succ_iff.mp hd, List.mem_zipIdx_iff_getElem?.mp hp⟩
  · rintro ⟨h1, h2, h3⟩
    exact ⟨x.1, h1, x.2.1, by omega, (x.2.2.2, x.2.2.1), List.mem_zipIdx_iff_getElem?.mpr h3, rfl⟩

structure ReqInv (I : Input) (done : List (Nat × Nat × Nat × List Nat)) (s : List Req) : Prop where
  nodup : (s.map fun q => (q.d, q.et)).Nodup
  sound : ∀ q ∈ s, ∃ x ∈ done, x.2.2.2 ≠ [] ∧ q = reqOf I x

theorem pureStep_inv {done : List (Nat × Nat × Nat × List Nat)} {s : List Req} (h : ReqInv I done s)
    (x : Nat × Nat × Nat × List Nat) : ReqInv I (done ++ [x]) (pureStep I s x) := by
  unfold pureStep
  split
  · exact ⟨h.nodup, fun q hq => by obtain ⟨y, h1, h2⟩ := h.sound q hq; exact ⟨y, by simp [h1], h2⟩⟩
  · rename_i hc
    push Not at hc
    refine ⟨?_, ?_⟩
    · rw [List.map_append, List.nodup_append]
      refine ⟨h.nodup, by simp, ?_⟩
      rintro a ha b hb rfl
      obtain ⟨q, hq, rfl⟩ := List.mem_map.mp ha
      simp only [List.map_cons, List.map_nil, List.mem_singleton, Prod.mk.injEq] at hb
      exact hc.2 q hq hb.1 hb.2
    · intro q hq
      rcases List.mem_append.mp hq with hq | hq
      · obtain ⟨y, h1, h2⟩ := h.sound q hq; exact ⟨y, by simp [h1], h2⟩
      · simp only [List.mem_singleton] at hq
        exact ⟨x, by simp, hc.1, hq⟩

theorem types_get (h : Ok I) {i d s : Nat} (hi : i < I.nct) (hd : d ≤ I.D) (hs : s < ((I.layout i).getD d []).length) :
    (I.types d)[(I.types d).idxOf (I.etype i d s)]? = some (I.etype i d s) :=
  List.getElem?_idxOf (h.etype_mem i hi d hd s hs)

theorem reqOf_eq (h : Ok I) {x y : Nat × Nat × Nat × List Nat} (hx : x ∈ slots I) (hy : y ∈ slots I)
    (hx0 : x.2.2.2 ≠ []) (hy0 : y.2.2.2 ≠ []) (hd : (reqOf I x).d = (reqOf I y).d)
    (het : (reqOf I x).et = (reqOf I y).et) : reqOf I x = reqOf I y := by
  obtain ⟨i, d, s, ds⟩ := x
  obtain ⟨i', d', s', ds'⟩ := y
  obtain ⟨h1, h2, h3⟩ := (mem_slots _).mp hx
  obtain ⟨h1', h2', h3'⟩ := (mem_slots _).mp hy
  simp only [reqOf] at *
  subst hd
  have e1 := types_get h h1 h2 (List.getElem?_eq_some_iff.mp h3).1
  have e2 := types_get h h1' h2' (List.getElem?_eq_some_iff.mp h3').1
  rw [het, e2] at e1
  have := Option.some.inj e1
  rw [het, h.compat i h1 i' h1' d h2 s s' ds ds' h3 h3' this.symm hx0 hy0]

theorem scanStep_eq (h : Ok I) {r : Nat} (hr : r < I.P) {done : List (Nat × Nat × Nat × List Nat)} {s : List Req}
    (hinv : ReqInv I done s) (hdone : ∀ y ∈ done, y ∈ slots I) (x : Nat × Nat × Nat × List Nat) (hx : x ∈ slots I) :
    scanStep I r s x = some (pureStep I s x) := by
  unfold scanStep pureStep
  by_cases h0 : x.2.2.2 = []
  · rw [if_pos h0, if_pos (Or.inl h0)]
  · rw [if_neg h0]
    simp only
    cases hf : s.find? fun q => decide (q.d = x.2.1 ∧ q.et = (I.types x.2.1).idxOf (I.etype x.1 x.2.1 x.2.2.1)) with
    | none =>
      rw [List.find?_eq_none] at hf
      rw [if_neg (c := x.2.2.2 = [] ∨ _)]
      · simp only
        rw [if_neg]
        · rfl
        · rintro ⟨hd, hn⟩
          obtain ⟨h1, h2, h3⟩ := (mem_slots x).mp hx
          have hlt := (List.getElem?_eq_some_iff.mp h3).1
          obtain ⟨cn, hcn, _⟩ := h.conn r hr x.1 h1 x.2.1 hd _ x.2.2.1 hlt (types_get h h1 h2 hlt)
          rw [hn] at hcn
          exact absurd hcn (by simp)
      · rintro (hc | ⟨q, hq, hqd, hqe⟩)
        · exact h0 hc
        · exact hf q hq (by simpa using ⟨hqd, hqe⟩)
    | some q =>
      have hq := List.mem_of_find?_eq_some hf
      have hp := List.find?_some hf
      simp only [decide_eq_true_eq] at hp
      obtain ⟨y, hy, hy0, rfl⟩ := hinv.sound q hq
      have : reqOf I y = reqOf I x := reqOf_eq h (hdone y hy) hx hy0 h0 hp.1 hp.2
      rw [if_pos (Or.inr ⟨_, hq, by rw [this], by rw [this]⟩)]
      simp only [this]
      rw [if_neg]
      simp [reqOf]

theorem scan_eq (h : Ok I) {r : Nat} (hr : r < I.P) (l done : List (Nat × Nat × Nat × List Nat)) (s : List Req)
    (hinv : ReqInv I done s) (hdone : ∀ y ∈ done, y ∈ slots I) (hl : ∀ y ∈ l, y ∈ slots I) :
    l.foldlM (scanStep I r) s = some (l.foldl (pureStep I) s) ∧ ReqInv I (done ++ l) (l.foldl (pureStep I) s) := by
  induction l generalizing done s with
  | nil => exact ⟨rfl, by simpa using hinv⟩
  | cons x l ih =>
    rw [List.foldlM_cons, scanStep_eq h hr hinv hdone x (hl x (by simp)), List.foldl_cons]
    have := ih (done ++ [x]) (pureStep I s x) (pureStep_inv hinv x)
      (by intro y hy; rcases List.mem_append.mp hy with hy | hy
          · exact hdone y hy
          · simp only [List.mem_singleton] at hy; rw [hy]; exact hl x (by simp))
      (fun y hy => hl y (by simp [hy]))
    refine ⟨this.1, ?_⟩
    have h2 := this.2
    rwa [List.append_assoc] at h2

theorem required_eq (h : Ok I) {r : Nat} (hr : r < I.P) : required I r = some (reqs I) :=
  (scan_eq h hr (slots I) [] [] ⟨by simp, by simp⟩ (by simp) (fun _ hy => hy)).1

theorem reqs_inv (h : Ok I) (hP : 0 < I.P) : ReqInv I (slots I) (reqs I) := by
  have := (scan_eq h hP (slots I) [] [] ⟨by simp, by simp⟩ (by simp) (fun _ hy => hy)).2
  rw [List.nil_append] at this
  exact this

theorem pureStep_mono (s : List Req) (x : Nat × Nat × Nat × List Nat) (q : Req) (hq : q ∈ s) : q ∈ pureStep I s x := by
  unfold pureStep; split
  · exact hq
  · simp [hq]

theorem pureFold_mono (l : List (Nat × Nat × Nat × List Nat)) (s : List Req) (q : Req) (hq : q ∈ s) :
    q ∈ l.foldl (pureStep I) s := by
  induction l generalizing s with
  | nil => exact hq
  | cons x l ih => exact ih _ (pureStep_mono s x q hq)

theorem reqs_complete (h : Ok I) (hP : 0 < I.P) (x : Nat × Nat × Nat × List Nat) (hx : x ∈ slots I) (h0 : x.2.2.2 ≠ []) :
    reqOf I x ∈ reqs I := by
  have key : ∃ q ∈ reqs I, q.d = (reqOf I x).d ∧ q.et = (reqOf I x).et := by
    obtain ⟨a, b, hab⟩ := List.append_of_mem hx
    unfold reqs
    rw [hab, List.foldl_append, List.foldl_cons]
    have : ∃ q ∈ pureStep I (a.foldl (pureStep I) []) x, q.d = (reqOf I x).d ∧ q.et = (reqOf I x).et := by
      by_cases hc : x.2.2.2 = [] ∨ ∃ q ∈ a.foldl (pureStep I) [], q.d = (reqOf I x).d ∧ q.et = (reqOf I x).et
      · obtain ⟨q, hq, h1⟩ := hc.resolve_left h0
        exact ⟨q, pureStep_mono _ _ _ hq, h1⟩
      · refine ⟨reqOf I x, ?_, rfl, rfl⟩
        have : pureStep I (a.foldl (pureStep I) []) x = a.foldl (pureStep I) [] ++ [reqOf I x] := if_neg hc
        rw [this]; simp
    obtain ⟨q, hq, h1⟩ := this
    exact ⟨q, pureFold_mono b _ q hq, h1⟩
  obtain ⟨q, hq, h1, h2⟩ := key
  obtain ⟨y, hy, hy0, rfl⟩ := (reqs_inv h hP).sound q hq
  rw [← reqOf_eq h hy hx hy0 h0 h1 h2]
  exact hq

/-- The position of a pair of dimension and type among the required ones. -/
theorem req_inj (h : Ok I) (hP : 0 < I.P) {k k' : Nat} (hk : k < (reqs I).length) (hk' : k' < (reqs I).length)
    (hd : (req (reqs I) k).d = (req (reqs I) k').d) (he : (req (reqs I) k).et = (req (reqs I) k').et) : k = k' := by
  have hn := (reqs_inv h hP).nodup
  have h1 : ∀ k, k < (reqs I).length → ((reqs I).map fun q => (q.d, q.et))[k]? =
      some ((req (reqs I) k).d, (req (reqs I) k).et) := by
    intro k hk
    unfold req
    rw [List.getElem?_map, List.getD_eq_getElem?_getD, List.getElem?_eq_getElem hk]; rfl
  apply (List.getElem?_inj (by simpa using hk) hn).mp
  rw [h1 k hk, h1 k' hk', hd, he]

theorem req_mem {k : Nat} (hk : k < (reqs I).length) : req (reqs I) k ∈ reqs I := by
  unfold req
  rw [List.getD_eq_getElem?_getD, List.getElem?_eq_getElem hk]
  exact List.getElem_mem hk

/-- Each required entry comes from an entity of some cell type. -/
theorem req_spec (h : Ok I) (hP : 0 < I.P) {k : Nat} (hk : k < (reqs I).length) :
    ∃ i s ds, i < I.nct ∧ (req (reqs I) k).d ≤ I.D ∧ ((I.layout i).getD (req (reqs I) k).d [])[s]? = some ds ∧
      ds ≠ [] ∧ (I.types (req (reqs I) k).d)[(req (reqs I) k).et]? = some (I.etype i (req (reqs I) k).d s) ∧
      (req (reqs I) k).n = ds.length := by
  obtain ⟨⟨i, d, s, ds⟩, hx, h0, hq⟩ := (reqs_inv h hP).sound _ (req_mem hk)
  obtain ⟨h1, h2, h3⟩ := (mem_slots _).mp hx
  rw [hq]
  exact ⟨i, s, ds, h1, h2, h3, h0, types_get h h1 h2 (List.getElem?_eq_some_iff.mp h3).1, rfl⟩

theorem wk_valid (h : Ok I) (hP : 0 < I.P) {k : Nat} (hk : k < (reqs I).length) :
    (wk I (reqs I) k).P = I.P ∧ (wk I (reqs I) k).Valid := by
  obtain ⟨i, s, ds, _, h2, _, _, h5, _⟩ := req_spec h hP hk
  exact h.valid _ h2 _ (List.getElem?_eq_some_iff.mp h5).1

/-- Entities with dofs have a position among the required ones. -/
theorem req_of_slot (h : Ok I) (hP : 0 < I.P) {i d s : Nat} {ds : List Nat} (hi : i < I.nct) (hd : d ≤ I.D)
    (hs : ((I.layout i).getD d [])[s]? = some ds) (h0 : ds ≠ []) {et : Nat} (het : (I.types d)[et]? = some (I.etype i d s)) :
    ∃ k, k < (reqs I).length ∧ req (reqs I) k = ⟨d, et, ds.length⟩ := by
  have hm := reqs_complete h hP (i, d, s, ds) ((mem_slots _).mpr ⟨hi, hd, hs⟩) h0
  have heq : (I.types d).idxOf (I.etype i d s) = et := by
    obtain ⟨hlt, he⟩ := List.getElem?_eq_some_iff.mp het
    rw [← he]; exact (h.types_nodup d hd).idxOf_getElem et hlt
  unfold reqOf at hm
  simp only [heq] at hm
  obtain ⟨k, hk, hkk⟩ := List.getElem_of_mem hm
  refine ⟨k, hk, ?_⟩
  unfold req
  rw [List.getD_eq_getElem?_getD, List.getElem?_eq_getElem hk]; exact hkk

/-! ## Writes of a cell -/

theorem mem_entityWrites (off t : Nat) (links : List Nat) (w : Nat) (es : List (Nat × List Nat)) (p : Nat × Nat) :
    p ∈ entityWrites off t links w es ↔ ∃ (s : Nat) (ds : List Nat) (j : Nat), es[s]? = some (t, ds) ∧ ds[j]? = some p.1 ∧
      p.2 = off + ds.length * links.getD (w + (es.take s).countP (fun x => decide (t = x.1))) 0 + j := by
  induction es generalizing w with
  | nil => simp [entityWrites]
  | cons x es ih =>
    have hsucc : (∃ (s : Nat) (ds : List Nat) (j : Nat), (x :: es)[s]? = some (t, ds) ∧ ds[j]? = some p.1 ∧
        p.2 = off + ds.length * links.getD (w + ((x :: es).take s).countP (fun x => decide (t = x.1))) 0 + j) ↔
        (∃ (ds : List Nat) (j : Nat), x = (t, ds) ∧ ds[j]? = some p.1 ∧ p.2 = off + ds.length * links.getD w 0 + j) ∨
        (∃ (s : Nat) (ds : List Nat) (j : Nat), es[s]? = some (t, ds) ∧ ds[j]? = some p.1 ∧
        p.2 = off + ds.length * links.getD (w + ((if t = x.1 then 1 else 0) + (es.take s).countP (fun x => decide (t = x.1)))) 0 + j) := by
      constructor
      · rintro ⟨s, ds, j, h1, h2, h3⟩
        cases s with
        | zero =>
          left
          simp only [List.getElem?_cons_zero, Option.some.injEq] at h1
          refine ⟨ds, j, h1, h2, by simpa using h3⟩
        | succ s =>
          right
          refine ⟨s, ds, j, by simpa using h1, h2, ?_⟩
          rw [List.take_succ_cons, List.countP_cons] at h3
          rw [h3]
          simp only [decide_eq_true_eq]
          rw [Nat.add_comm (List.countP _ _)]
      · rintro (⟨ds, j, h1, h2, h3⟩ | ⟨s, ds, j, h1, h2, h3⟩)
        · exact ⟨0, ds, j, by simp [h1], h2, by simpa using h3⟩
        · refine ⟨s + 1, ds, j, by simpa using h1, h2, ?_⟩
          rw [List.take_succ_cons, List.countP_cons]
          rw [h3]
          simp only [decide_eq_true_eq]
          rw [Nat.add_comm (List.countP _ _)]
    rw [hsucc, entityWrites]
    by_cases ht : t = x.1
    · rw [if_pos ht, List.mem_append, ih]
      apply or_congr
      · rw [List.mem_map]
        constructor
        · rintro ⟨⟨a, j⟩, hm, rfl⟩
          exact ⟨x.2, j, by rw [ht], List.mem_zipIdx_iff_getElem?.mp hm, rfl⟩
        · rintro ⟨ds, j, rfl, h2, h3⟩
          exact ⟨(p.1, j), List.mem_zipIdx_iff_getElem?.mpr h2, by simp only; rw [← h3]⟩
      · simp only [if_pos ht, ← Nat.add_assoc]
    · rw [if_neg ht, ih]
      simp only [if_neg ht, Nat.zero_add]
      constructor
      · exact Or.inr
      · rintro (⟨ds, j, rfl, _⟩ | h)
        · exact absurd rfl ht
        · exact h

theorem ents_get (i d s : Nat) : (ents I i d)[s]? = (((I.layout i).getD d [])[s]?).map fun ds => (I.etype i d s, ds) := by
  unfold ents
  rw [List.getElem?_map, List.getElem?_zipIdx]
  cases ((I.layout i).getD d [])[s]? <;> simp

theorem ents_count (i d s : Nat) (hs : s ≤ ((I.layout i).getD d []).length) (t : Nat) :
    ((ents I i d).take s).countP (fun x => decide (t = x.1)) =
      (List.range s).countP fun s' => decide (I.etype i d s' = t) := by
  have : ((ents I i d).take s).map Prod.fst = (List.range s).map (I.etype i d) := by
    apply List.ext_getElem?
    intro j
    by_cases hj : j < s
    · rw [List.getElem?_map, List.getElem?_take_of_lt hj, ents_get, List.getElem?_eq_getElem (by omega),
        List.getElem?_map, List.getElem?_range hj]; rfl
    · rw [List.getElem?_eq_none (by simp; omega), List.getElem?_eq_none (by simp; omega)]
  have h1 : ((ents I i d).take s).countP (fun x => decide (t = x.1)) =
      (((ents I i d).take s).map Prod.fst).countP (fun x => decide (t = x)) := by
    rw [List.countP_map]; rfl
  rw [h1, this, List.countP_map]
  apply List.countP_congr
  intro x _
  simp [eq_comm]

/-- Membership in the writes of a cell, via the entity the dof is attached to. -/
theorem mem_cellWrites (h : Ok I) {r i c : Nat} (hr : r < I.P) (hi : i < I.nct) (hc : c < numCells I r i) (l x : Nat) :
    (l, x) ∈ cellWrites I (reqs I) r i c ↔ ∃ k e j, k < (reqs I).length ∧
      Attached I r i c l (req (reqs I) k).d (req (reqs I) k).et e j ∧ x = loff I (reqs I) r k + nk (reqs I) k * e + j := by
  have hP : 0 < I.P := by omega
  have htype : ∀ k, k < (reqs I).length → ∀ s ds, ((I.layout i).getD (req (reqs I) k).d [])[s]? = some ds →
      ((I.types (req (reqs I) k).d).getD (req (reqs I) k).et 0 = I.etype i (req (reqs I) k).d s ↔
        (I.types (req (reqs I) k).d)[(req (reqs I) k).et]? = some (I.etype i (req (reqs I) k).d s)) := by
    intro k hk s ds _
    obtain ⟨i', s', ds', _, _, _, _, h5, _⟩ := req_spec h hP hk
    rw [List.getD_eq_getElem?_getD, h5]
    simp
  have hlen : ∀ k, k < (reqs I).length → ∀ s ds, ((I.layout i).getD (req (reqs I) k).d [])[s]? = some ds → ds ≠ [] →
      (I.types (req (reqs I) k).d)[(req (reqs I) k).et]? = some (I.etype i (req (reqs I) k).d s) →
      ds.length = nk (reqs I) k := by
    intro k hk s ds hs h0 ht
    obtain ⟨i', s', ds', h1, h2, h3, h4, h5, h6⟩ := req_spec h hP hk
    rw [ht] at h5
    unfold nk
    rw [h6]
    exact h.compat i hi i' h1 _ h2 s s' ds ds' hs h3 (Option.some.inj h5) h0 h4
  unfold cellWrites
  rw [List.mem_flatMap]
  constructor
  · rintro ⟨k, hk, hm⟩
    rw [List.mem_range] at hk
    obtain ⟨_, _, _, _, hd, _⟩ := req_spec h hP hk
    simp only at hm
    split at hm
    · rename_i hdlt
      cases hcn : I.conn r i (req (reqs I) k).d (req (reqs I) k).et with
      | none => rw [hcn] at hm; simp at hm
      | some cn =>
        rw [hcn] at hm
        obtain ⟨s, ds, j, h1, h2, h3⟩ := (mem_entityWrites _ _ _ _ _ _).mp hm
        rw [ents_get, Option.map_eq_some_iff] at h1
        obtain ⟨ds', hs, heq⟩ := h1
        simp only [Prod.mk.injEq] at heq
        obtain ⟨ht, rfl⟩ := heq
        have hslt := (List.getElem?_eq_some_iff.mp hs).1
        have ht' := (htype k hk s ds' hs).mp ht.symm
        obtain ⟨cn', hcn', hrow⟩ := h.conn r hr i hi _ hdlt _ s hslt ht'
        obtain rfl : cn' = cn := Option.some.inj (hcn'.symm.trans hcn)
        obtain ⟨row, hrow1, hrow2, hrow3⟩ := hrow c hc
        have hpos : slotPos I i (req (reqs I) k).d s < row.length := by
          rw [hrow2]
          unfold slotPos
          have hsub : (List.range (s + 1)).Sublist (List.range ((I.layout i).getD (req (reqs I) k).d []).length) :=
            List.range_sublist.mpr hslt
          refine Nat.lt_of_lt_of_le ?_ (hsub.countP_le)
          rw [List.range_succ, List.countP_append]; simp
        refine ⟨k, row[slotPos I i (req (reqs I) k).d s], j, hk, ⟨s, ds', hs, h2, ht', hd, Or.inr ⟨hdlt, cn', row, hcn, hrow1, ?_⟩⟩, ?_⟩
        · rw [List.getElem?_eq_getElem hpos]
        · simp only at h3
          rw [h3, ← hlen k hk s ds' hs (by rintro rfl; simp at h2) ht', ents_count i _ s (by omega),
            List.getD_eq_getElem?_getD, List.getD_eq_getElem?_getD, hrow1]
          simp only [Option.getD_some, Nat.zero_add, ← ht]
          have hp' : (List.range s).countP (fun s' => decide (I.etype i (req (reqs I) k).d s' = I.etype i (req (reqs I) k).d s)) < row.length := hpos
          rw [List.getElem?_eq_getElem hp']
          rfl
    · rename_i hdge
      have hdD : (req (reqs I) k).d = I.D := by omega
      obtain ⟨s, ds, j, h1, h2, h3⟩ := (mem_entityWrites _ _ _ _ _ _).mp hm
      rw [ents_get, Option.map_eq_some_iff] at h1
      obtain ⟨ds', hs, heq⟩ := h1
      simp only [Prod.mk.injEq] at heq
      obtain ⟨ht, rfl⟩ := heq
      have ht' := (htype k hk s ds' hs).mp ht.symm
      have hslt := (List.getElem?_eq_some_iff.mp hs).1
      have hone := h.one_cell i hi
      rw [hdD] at hslt
      have hs0 : s = 0 := by omega
      subst hs0
      refine ⟨k, c, j, hk, ⟨0, ds', hs, h2, ht', hd, Or.inl ⟨hdD, rfl⟩⟩, ?_⟩
      simp only at h3
      rw [h3, ← hlen k hk 0 ds' hs (by rintro rfl; simp at h2) ht']
      simp
  · rintro ⟨k, e, j, hk, ⟨s, ds, hs, h2, ht, hd, hcase⟩, hx⟩
    refine ⟨k, List.mem_range.mpr hk, ?_⟩
    have hslt := (List.getElem?_eq_some_iff.mp hs).1
    have hty := (htype k hk s ds hs).mpr ht
    simp only
    rcases hcase with ⟨hdD, rfl⟩ | ⟨hdlt, cn, row, hcn, hrow, he⟩
    · rw [if_neg (by omega)]
      apply (mem_entityWrites _ _ _ _ _ _).mpr
      have hone := h.one_cell i hi
      rw [hdD] at hslt
      have hs0 : s = 0 := by omega
      subst hs0
      refine ⟨0, ds, j, ?_, h2, ?_⟩
      · rw [ents_get, hs, hty]; rfl
      · simp only
        rw [hx, ← hlen k hk 0 ds hs (by rintro rfl; simp at h2) ht]
        simp
    · rw [if_pos hdlt, hcn]
      apply (mem_entityWrites _ _ _ _ _ _).mpr
      refine ⟨s, ds, j, ?_, h2, ?_⟩
      · rw [ents_get, hs, hty]; rfl
      · simp only
        have hget : (cn.getD c []).getD (slotPos I i (req (reqs I) k).d s) 0 = e := by
          rw [List.getD_eq_getElem?_getD (l := cn), hrow, Option.getD_some, List.getD_eq_getElem?_getD, he]; rfl
        rw [hx, ← hlen k hk s ds hs (by rintro rfl; simp at h2) ht, ents_count i _ s (by omega), hty, Nat.zero_add]
        unfold slotPos at hget
        rw [hget]

theorem attached_unique (h : Ok I) {r i c l d et e j d' et' e' j' : Nat} (hi : i < I.nct)
    (h1 : Attached I r i c l d et e j) (h2 : Attached I r i c l d' et' e' j') : d = d' ∧ et = et' ∧ e = e' ∧ j = j' := by
  obtain ⟨s, ds, a1, a2, a3, a4, a5⟩ := h1
  obtain ⟨s', ds', b1, b2, b3, b4, b5⟩ := h2
  obtain ⟨rfl, rfl, rfl⟩ := h.dof_unique i hi l d s j ds d' s' j' ds' a4 b4 a1 a2 b1 b2
  have het : et = et' := (List.getElem?_inj (List.getElem?_eq_some_iff.mp a3).1 (h.types_nodup d a4)).mp (a3.trans b3.symm)
  subst het
  refine ⟨rfl, rfl, ?_, rfl⟩
  rcases a5 with ⟨hD, rfl⟩ | ⟨hD, cn, row, c1, c2, c3⟩
  · rcases b5 with ⟨_, rfl⟩ | ⟨hD', _⟩
    · rfl
    · omega
  · rcases b5 with ⟨hD', _⟩ | ⟨_, cn', row', d1, d2, d3⟩
    · omega
    · obtain rfl := Option.some.inj (c1.symm.trans d1)
      obtain rfl := Option.some.inj (c2.symm.trans d2)
      exact Option.some.inj (c3.symm.trans d3)

/-- Every attached dof belongs to a required entity type; entity and dof numbers are in range. -/
theorem attached_req (h : Ok I) {r i c l d et e j : Nat} (hr : r < I.P) (hi : i < I.nct) (hc : c < numCells I r i)
    (ha : Attached I r i c l d et e j) : ∃ k, k < (reqs I).length ∧ (req (reqs I) k).d = d ∧ (req (reqs I) k).et = et ∧
      e < nloc I (reqs I) r k ∧ j < nk (reqs I) k := by
  obtain ⟨s, ds, a1, a2, a3, a4, a5⟩ := ha
  obtain ⟨k, hk, hkk⟩ := req_of_slot h (by omega) hi a4 a1 (by rintro rfl; simp at a2) a3
  refine ⟨k, hk, by rw [hkk], by rw [hkk], ?_, ?_⟩
  · unfold nloc wk
    rw [hkk]
    rcases a5 with ⟨rfl, rfl⟩ | ⟨hD, cn, row, c1, c2, c3⟩
    · have hs : s = 0 := by
        have := h.one_cell i hi
        have := (List.getElem?_eq_some_iff.mp a1).1
        omega
      subst hs
      have : et = i := (List.getElem?_inj (List.getElem?_eq_some_iff.mp a3).1 (h.types_nodup _ a4)).mp
        (a3.trans (h.etype_cell i hi).symm)
      subst this
      exact hc
    · obtain ⟨cn', e1, e2⟩ := h.conn r hr i hi d hD et s (List.getElem?_eq_some_iff.mp a1).1 a3
      obtain rfl := Option.some.inj (c1.symm.trans e1)
      obtain ⟨row', e3, _, e5⟩ := e2 c hc
      obtain rfl := Option.some.inj (c2.symm.trans e3)
      exact e5 e (List.mem_of_getElem? c3)
  · unfold nk
    rw [hkk]
    exact (List.getElem?_eq_some_iff.mp a2).1

theorem attached_exists (h : Ok I) {r i c l : Nat} (hr : r < I.P) (hi : i < I.nct) (hc : c < numCells I r i)
    (hl : l < I.ndofs i) : ∃ d et e j, Attached I r i c l d et e j := by
  obtain ⟨d, s, j, ds, h1, h2, h3⟩ := h.dof_slot i hi l hl
  have hslt := (List.getElem?_eq_some_iff.mp h2).1
  have ht := types_get h hi h1 hslt
  by_cases hD : d = I.D
  · exact ⟨d, _, c, j, s, ds, h2, h3, ht, h1, Or.inl ⟨hD, rfl⟩⟩
  · obtain ⟨cn, e1, e2⟩ := h.conn r hr i hi d (by omega) _ s hslt ht
    obtain ⟨row, e3, e4, _⟩ := e2 c hc
    have hpos : slotPos I i d s < row.length := by
      rw [e4]
      unfold slotPos
      have hsub : (List.range (s + 1)).Sublist (List.range ((I.layout i).getD d []).length) :=
        List.range_sublist.mpr hslt
      refine Nat.lt_of_lt_of_le ?_ (hsub.countP_le)
      rw [List.range_succ, List.countP_append]; simp
    exact ⟨d, _, row[slotPos I i d s], j, s, ds, h2, h3, ht, h1, Or.inr ⟨by omega, cn, row, e1, e3, List.getElem?_eq_getElem hpos⟩⟩

/-- Old number of dof `j` of entity `e` of the `k`-th required type. -/
def pos (I : Input) (r k e j : Nat) : Nat := loff I (reqs I) r k + nk (reqs I) k * e + j

theorem cellDofs_eq_runWrites (R : List Req) (r i c : Nat) :
    cellDofs I R r i c = EntityNumbering.runWrites (List.replicate (I.ndofs i) 0) (cellWrites I R r i c) := rfl

theorem cellDofs_length (R : List Req) (r i c : Nat) : (cellDofs I R r i c).length = I.ndofs i := by
  rw [cellDofs_eq_runWrites, Props.runWrites_length]; simp

/-- The entry for local dof `l` is the old number of the dof of its entity. -/
theorem cellDofs_get (h : Ok I) {r i c l k e j : Nat} (hr : r < I.P) (hi : i < I.nct) (hc : c < numCells I r i)
    (hl : l < I.ndofs i) (hk : k < (reqs I).length)
    (ha : Attached I r i c l (req (reqs I) k).d (req (reqs I) k).et e j) :
    (cellDofs I (reqs I) r i c)[l]? = some (pos I r k e j) := by
  rw [cellDofs_eq_runWrites]
  apply Props.runWrites_written
  · simpa using hl
  · exact (mem_cellWrites h hr hi hc l _).mpr ⟨k, e, j, hk, ha, rfl⟩
  · intro x hx
    obtain ⟨k', e', j', hk', ha', rfl⟩ := (mem_cellWrites h hr hi hc l x).mp hx
    obtain ⟨h1, h2, rfl, rfl⟩ := attached_unique h hi ha ha'
    rw [req_inj h (by omega) hk hk' h1 h2]; rfl

/-! ## Old numbers -/

section table
variable {β : Type} (f : Nat → Nat → Nat → β)

/-- A table over all dofs of all required entities, in the order of the old numbers. -/
def table (I : Input) (r : Nat) : List β :=
  (List.range (reqs I).length).flatMap fun k => (List.range (nloc I (reqs I) r k)).flatMap fun e =>
    (List.range (nk (reqs I) k)).map fun j => f k e j

theorem excl_const (n e : Nat) : excl (fun _ => n) e = n * e := by
  induction e with
  | zero => rfl
  | succ e ih => rw [excl_succ, ih]; ring

theorem rowLen (n m : Nat) (g : Nat → Nat → β) :
    ((List.range m).flatMap fun e => (List.range n).map fun j => g e j).length = n * m := by
  rw [length_flatMap_range]
  simp only [List.length_map, List.length_range]
  exact excl_const n m

theorem table_length (r : Nat) : (table f I r).length = loff I (reqs I) r (reqs I).length := by
  unfold table loff
  rw [length_flatMap_range]
  apply excl_congr
  intro k _
  exact rowLen _ _ _

theorem table_get (r : Nat) {k e j : Nat} (hk : k < (reqs I).length) (he : e < nloc I (reqs I) r k)
    (hj : j < nk (reqs I) k) : (table f I r)[pos I r k e j]? = some (f k e j) := by
  have hle : nk (reqs I) k * e + j < nk (reqs I) k * nloc I (reqs I) r k := by
    have : nk (reqs I) k * (e + 1) ≤ nk (reqs I) k * nloc I (reqs I) r k := Nat.mul_le_mul_left _ he
    rw [Nat.mul_add] at this
    omega
  unfold table pos loff
  have h1 := getElem?_flatMap_range (fun k => (List.range (nloc I (reqs I) r k)).flatMap fun e =>
    (List.range (nk (reqs I) k)).map fun j => f k e j) hk (k := nk (reqs I) k * e + j) (by rw [rowLen]; exact hle)
  simp only [rowLen] at h1
  rw [Nat.add_assoc, h1]
  have h2 := getElem?_flatMap_range (fun e => (List.range (nk (reqs I) k)).map fun j => f k e j) he (k := j) (by simpa using hj)
  simp only [List.length_map, List.length_range] at h2
  rw [excl_const] at h2
  rw [h2, List.getElem?_map, List.getElem?_range hj]; rfl

end table

theorem pos_split (r : Nat) {o : Nat} (ho : o < loff I (reqs I) r (reqs I).length) :
    ∃ k e j, k < (reqs I).length ∧ e < nloc I (reqs I) r k ∧ j < nk (reqs I) k ∧ o = pos I r k e j := by
  obtain ⟨k, x, hk, hx, rfl⟩ := excl_split _ ho
  have hn : 0 < nk (reqs I) k := by
    rcases Nat.eq_zero_or_pos (nk (reqs I) k) with h | h
    · rw [h] at hx; omega
    · exact h
  refine ⟨k, x / nk (reqs I) k, x % nk (reqs I) k, hk, ?_, Nat.mod_lt _ hn, ?_⟩
  · exact Nat.div_lt_of_lt_mul hx
  · unfold pos loff
    rw [Nat.add_assoc, Nat.div_add_mod]

theorem pos_lt (r : Nat) {k e j : Nat} (hk : k < (reqs I).length) (he : e < nloc I (reqs I) r k)
    (hj : j < nk (reqs I) k) : pos I r k e j < loff I (reqs I) r (reqs I).length := by
  have := (List.getElem?_eq_some_iff.mp (table_get (fun _ _ _ => 0) r hk he hj)).1
  rwa [table_length] at this

theorem pos_inj (r : Nat) {k e j k' e' j' : Nat} (hk : k < (reqs I).length) (he : e < nloc I (reqs I) r k)
    (hj : j < nk (reqs I) k) (hk' : k' < (reqs I).length) (he' : e' < nloc I (reqs I) r k')
    (hj' : j' < nk (reqs I) k') (h : pos I r k e j = pos I r k' e' j') : k = k' ∧ e = e' ∧ j = j' := by
  have h1 := table_get (fun k e j => (k, e, j)) r hk he hj
  have h2 := table_get (fun k e j => (k, e, j)) r hk' he' hj'
  rw [h, h2] at h1
  simp only [Option.some.injEq, Prod.mk.injEq] at h1
  exact ⟨h1.1.symm, h1.2.1.symm, h1.2.2.symm⟩

theorem globalIndices_length (w : World) (r : Nat) : (w.map r).globalIndices.length = w.size r + (w.ghosts r).length := by
  simp [World.map, IndexMap.build, IndexMap.Map.globalIndices, IndexMap.Map.sizeLocal]

theorem globalIndices_get (w : World) (r e : Nat) : (w.map r).globalIndices[e]? = Spec.globalOf w r e := by
  unfold Spec.globalOf IndexMap.Map.globalIndices World.map IndexMap.build IndexMap.Map.sizeLocal
  simp only [Nat.add_sub_cancel_left]
  by_cases h : e < w.size r
  · rw [if_pos h, List.getElem?_append_left (by simpa using h), List.getElem?_map, List.getElem?_range h]; rfl
  · rw [if_neg h, List.getElem?_append_right (by simpa using h)]; simp

/-- Global entity number. -/
def ge (I : Input) (r k e : Nat) : Nat := (Spec.globalOf (wk I (reqs I) k) r e).getD 0

theorem dofEntity_eq (r : Nat) : dofEntity I (reqs I) r = table (fun k e _ => (k, e)) I r := by
  unfold dofEntity table
  apply List.flatMap_congr
  intro k _
  rw [globalIndices_length]; rfl

theorem l2g_eq (r : Nat) : l2g I (reqs I) r =
    table (fun k e j => goff I (reqs I) r k + nk (reqs I) k * ge I r k e + j) I r := by
  unfold l2g table
  apply List.flatMap_congr
  intro k _
  have : ((wk I (reqs I) k).map r).globalIndices = (List.range (nloc I (reqs I) r k)).map (ge I r k) := by
    apply List.ext_getElem?
    intro e
    by_cases he : e < nloc I (reqs I) r k
    · rw [List.getElem?_map, List.getElem?_range he]
      simp only [Option.map_some, ge]
      rw [← globalIndices_get, List.getElem?_eq_getElem (by rw [globalIndices_length]; exact he)]; rfl
    · rw [List.getElem?_eq_none (by rw [globalIndices_length]; exact Nat.le_of_not_lt he),
        List.getElem?_eq_none (by simpa using he)]
  rw [this, List.flatMap_map]

end Verif.Dofmap
