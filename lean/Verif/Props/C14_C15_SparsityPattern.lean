import Verif.Lemmas.SparsityPattern
import Verif.Props.C10_C11_Scatter
/-!
# C14, C15: sparsity pattern content and life cycle
-/
namespace Verif.Props
open Verif.Std Verif.Offsets Verif.World Verif.Spec Verif.SP

/-! ## Specification -/

/-- An insertion call. -/
inductive InsOp where
  | one (row col : Nat)
  | many (rows cols : List Nat)
  | diagonal (rows : List Nat)
deriving DecidableEq, Repr

/-- The call asks for entry (`i`, `c`). -/
def InsOp.Covers : InsOp → Nat → Nat → Prop
  | .one row col, i, c => i = row ∧ c = col
  | .many rows cols, i, c => i ∈ rows ∧ c ∈ cols
  | .diagonal rows, i, c => i ∈ rows ∧ c = i

/-- The call executed by the class. -/
def InsOp.exec (p : SP.Pattern) : InsOp → Except Err SP.Pattern
  | .one row col => insert1 p row col
  | .many rows cols => SP.insert p rows cols
  | .diagonal rows => insertDiagonal p rows

/-- A sequence of insertion calls. -/
def runIns (p : SP.Pattern) : List InsOp → Except Err SP.Pattern
  | [] => .ok p
  | op :: ops => (op.exec p).bind fun q => runIns q ops

/-- Stored columns of row `i` of a graph given as (columns, offsets). -/
def graphRow (edges offsets : List Nat) (i : Nat) : List Nat :=
  (edges.drop (offsets.getD i 0)).take (offsets.getD (i + 1) 0 - offsets.getD i 0)

/-- Entry (global row, global column) was requested on some rank. -/
def Requested (w0 w1 : World) (ops : Nat → List InsOp) (R C : Nat) : Prop :=
  ∃ q, q < w0.P ∧ ∃ op ∈ ops q, ∃ i c, op.Covers i c ∧ globalOf w0 q i = some R ∧ globalOf w1 q c = some C

/-- All requested indices are local indices of the two maps. -/
def InRange (w0 w1 : World) (ops : Nat → List InsOp) : Prop :=
  ∀ q, q < w0.P → ∀ op ∈ ops q, ∀ i c, op.Covers i c →
    i < w0.size q + (w0.ghosts q).length ∧ c < w1.size q + (w1.ghosts q).length

/-! ## Insertion -/

theorem foldl_append_flatMap {α β : Type} (f : α → List β) (l : List α) (init : List β) :
    l.foldl (fun c a => c ++ f a) init = init ++ l.flatMap f := by
  induction l generalizing init with
  | nil => simp
  | cons a l ih => simp [ih, List.flatMap_cons]

theorem exec_ok (p : SP.Pattern) (op : InsOp) (hp : p.offsets = []) :
    ∃ p', op.exec p = .ok p' ∧ p'.offsets = [] ∧ ∀ i c, (i, c) ∈ p'.cache ↔ (i, c) ∈ p.cache ∨ op.Covers i c := by
  cases op with
  | one row col =>
    refine ⟨{ p with cache := p.cache ++ [(row, col)] }, by simp only [InsOp.exec, insert1]; exact if_neg (by simp [hp]), hp, ?_⟩
    intro i c; simp [InsOp.Covers]
  | many rows cols =>
    refine ⟨{ p with cache := rows.foldl (fun c row => c ++ cols.map fun col => (row, col)) p.cache },
      by simp only [InsOp.exec, SP.insert]; exact if_neg (by simp [hp]), hp, ?_⟩
    intro i c
    simp only [InsOp.Covers, foldl_append_flatMap, List.mem_append, List.mem_flatMap, List.mem_map, Prod.mk.injEq]
    constructor
    · rintro (h | ⟨a, ha, b, hb, rfl, rfl⟩)
      · exact Or.inl h
      · exact Or.inr ⟨ha, hb⟩
    · rintro (h | ⟨ha, hb⟩)
      · exact Or.inl h
      · exact Or.inr ⟨i, ha, c, hb, rfl, rfl⟩
  | diagonal rows =>
    refine ⟨{ p with cache := p.cache ++ rows.map fun row => (row, row) },
      by simp only [InsOp.exec, insertDiagonal]; exact if_neg (by simp [hp]), hp, ?_⟩
    intro i c
    simp only [InsOp.Covers, List.mem_append, List.mem_map, Prod.mk.injEq]
    constructor
    · rintro (h | ⟨a, ha, rfl, rfl⟩)
      · exact Or.inl h
      · exact Or.inr ⟨ha, rfl⟩
    · rintro (h | ⟨ha, rfl⟩)
      · exact Or.inl h
      · exact Or.inr ⟨c, ha, rfl, rfl⟩

theorem runIns_ok (p : SP.Pattern) (ops : List InsOp) (hp : p.offsets = []) :
    ∃ p', runIns p ops = .ok p' ∧ p'.offsets = [] ∧
      ∀ i c, (i, c) ∈ p'.cache ↔ (i, c) ∈ p.cache ∨ ∃ op ∈ ops, op.Covers i c := by
  induction ops generalizing p with
  | nil => exact ⟨p, rfl, hp, by simp⟩
  | cons op ops ih =>
    obtain ⟨p1, h1, h2, h3⟩ := exec_ok p op hp
    obtain ⟨p2, a1, a2, a3⟩ := ih p1 h2
    refine ⟨p2, by simp only [runIns, h1, Except.bind, a1], a2, ?_⟩
    intro i c
    rw [a3, h3]
    simp only [List.mem_cons, exists_eq_or_imp]
    tauto

/-! ## Finalised content -/

theorem colRecord_spec (w1 : World) (hw : w1.Valid) (q c : Nat) (hq : q < w1.P)
    (hc : c < w1.size q + (w1.ghosts q).length) :
    globalOf w1 q c = some (colRecord w1 q c).1 ∧ (colRecord w1 q c).2 < w1.P ∧
    w1.r0 (colRecord w1 q c).2 ≤ (colRecord w1 q c).1 ∧
    (colRecord w1 q c).1 < w1.r0 (colRecord w1 q c).2 + w1.size (colRecord w1 q c).2 := by
  unfold colRecord globalOf
  split
  · rename_i h
    simp only [Option.some.injEq]
    exact ⟨by omega, hq, by omega, by omega⟩
  · rename_i h
    have hk : c - w1.size q < (w1.ghosts q).length := by omega
    have hk' : c - w1.size q < (w1.owners q).length := by rw [hw.len q hq]; exact hk
    have hg := List.getElem?_eq_getElem hk
    have ho := List.getElem?_eq_getElem hk'
    have hv := hw.owner q hq _ _ _ ho hg
    simp only [List.getD_eq_getElem?_getD, hg, ho, Option.getD_some]
    exact ⟨trivial, hv.1, hv.2.2.1, hv.2.2.2⟩

/-- All the facts about a finalised pattern used below. -/
theorem finalize_facts (w0 w1 : World) (hw0 : w0.Valid) (hw1 : w1.Valid) (hP : w0.P = w1.P)
    (ops : Nat → List InsOp) (hin : InRange w0 w1 ops) (p : Nat → SP.Pattern)
    (hp : ∀ q, q < w0.P → runIns SP.new (ops q) = .ok (p q)) (r : Nat) (hr : r < w0.P) :
    ∃ p' : SP.Pattern, ∃ rows : List (List Nat), finalize w0 w1 p r = .ok p' ∧
      rows.length = w0.size r + (w0.ghosts r).length ∧ p'.edges = rows.flatten ∧
      p'.offsets = rows.foldl (fun (o : List Nat) x => o ++ [o.getLast?.getD 0 + x.length]) [0] ∧
      p'.offDiag = rows.map (lowerBound (fun c => decide (c < w1.size r))) ∧
      (∀ (i : Nat) (row : List Nat), rows[i]? = some row → row.Pairwise (· < ·) ∧
        (∀ c ∈ row, ∃ C, gcol w1 r p'.colGhosts c = some C) ∧
        (i < w0.size r → ∀ C, (∃ c ∈ row, gcol w1 r p'.colGhosts c = some C) ↔ Requested w0 w1 ops (w0.r0 r + i) C) ∧
        (w0.size r ≤ i → ∀ c, c ∈ row ↔ ∃ op ∈ ops r, op.Covers i c)) ∧
      w1.ghosts r <+: p'.colGhosts ∧ w1.owners r <+: p'.colOwners ∧ p'.colGhosts.Nodup ∧
      p'.colOwners.length = p'.colGhosts.length ∧
      (∀ (k q g : Nat), p'.colOwners[k]? = some q → p'.colGhosts[k]? = some g →
        q < w1.P ∧ q ≠ r ∧ w1.r0 q ≤ g ∧ g < w1.r0 q + w1.size q) := by
  have hcache : ∀ q, q < w0.P → (p q).offsets = [] ∧ ∀ i c, (i, c) ∈ (p q).cache ↔ ∃ op ∈ ops q, op.Covers i c := by
    intro q hq
    obtain ⟨p', h1, h2, h3⟩ := runIns_ok SP.new (ops q) rfl
    rw [hp q hq] at h1
    have : p q = p' := by injection h1
    subst this
    exact ⟨h2, fun i c => by rw [h3]; simp [SP.new]⟩
  have hrange : ∀ q, q < w0.P → ∀ x ∈ (p q).cache, x.1 < w0.size q + (w0.ghosts q).length ∧
      x.2 < w1.size q + (w1.ghosts q).length := by
    rintro q hq ⟨i, c⟩ hx
    obtain ⟨op, hop, hc⟩ := ((hcache q hq).2 i c).mp hx
    exact hin q hq op hop i c hc
  have hmem := mem_ghostDataIn w0 w1 (fun q => (p q).cache) hw0 (fun q hq x hx => (hrange q hq x hx).1) r
  -- received records
  have hrP : r < w1.P := hP ▸ hr
  have hinit : RecvInv w1 r
      { g2l := initG2l (w1.size r) (w1.ghosts r), ghosts := w1.ghosts r, owners := w1.owners r, entries := [] } := by
    refine ⟨fun g j => initG2l_spec _ _ (hw1.nodup r hrP) g j, hw1.nodup r hrP, ?_, ⟨List.prefix_rfl, List.prefix_rfl⟩,
      hw1.len r hrP⟩
    intro g hg hcon
    obtain ⟨k, hk⟩ := List.getElem?_of_mem hg
    have hkl := (List.getElem?_eq_some_iff.mp hk).1
    have ho := List.getElem?_eq_getElem (l := w1.owners r) (i := k) (by rw [hw1.len r hrP]; exact hkl)
    have hv := hw1.owner r hrP _ _ _ ho hk
    exact hv.2.1 (range_unique w1 ⟨hv.2.2.1, hv.2.2.2⟩ hcon)
  obtain ⟨hinv, hpre, hent, hown⟩ := received_spec w0 w1 r (ghostDataIn w0 w1 (fun q => (p q).cache) r) _ hinit (by simp)
  change RecvInv w1 r (received w0 w1 r _) at hinv
  change w1.ghosts r <+: (received w0 w1 r _).ghosts at hpre
  change (received w0 w1 r _).entries.map (fun x => (x.1, gcol w1 r (received w0 w1 r _).ghosts x.2)) = _ at hent
  simp only [List.map_nil, List.nil_append] at hent
  change ∀ (k o : Nat), (received w0 w1 r _).owners[k]? = some o → (w1.owners r)[k]? = some o ∨
    ∃ e ∈ ghostDataIn w0 w1 (fun q => (p q).cache) r, (received w0 w1 r _).ghosts[k]? = some e.2.1 ∧ o = e.2.2 ∧
      (w1.ghosts r).length ≤ k at hown
  generalize hrc : received w0 w1 r (ghostDataIn w0 w1 (fun q => (p q).cache) r) = rc at *
  generalize hdat : ghostDataIn w0 w1 (fun q => (p q).cache) r = data at *
  change rc.entries.map (fun x => (x.1, gcol w1 r rc.ghosts x.2)) = data.map (fun e => (e.1 - w0.r0 r, some e.2.1)) at hent
  -- range of received rows
  have hrow : ∀ e ∈ data, w0.r0 r ≤ e.1 ∧ e.1 < w0.r0 r + w0.size r := by
    intro e he
    obtain ⟨q, i, c, hq, ho, hc, rfl⟩ := (hmem e).mp he
    have hil := (List.getElem?_eq_some_iff.mp ho).1
    have hg := List.getElem?_eq_getElem (l := w0.ghosts q) (i := i) (by rw [← hw0.len q hq]; exact hil)
    have hv := hw0.owner q hq _ _ _ ho hg
    simp only [List.getD_eq_getElem?_getD, hg, Option.getD_some]
    exact hv.2.2
  have hents : ∀ x ∈ rc.entries, x.1 < w0.size r := by
    intro x hx
    have : (x.1, gcol w1 r rc.ghosts x.2) ∈ rc.entries.map (fun x => (x.1, gcol w1 r rc.ghosts x.2)) :=
      List.mem_map.mpr ⟨x, hx, rfl⟩
    rw [hent] at this
    obtain ⟨e, he, heq⟩ := List.mem_map.mp this
    simp only [Prod.mk.injEq] at heq
    have := hrow e he
    omega
  obtain ⟨rows, h1, h2, h3, h4, _, h6⟩ := build_spec (w0.size r) (w1.size r)
    (bucketByRow (p r).cache (w0.size r + (w0.ghosts r).length)) (bucketByRow rc.entries (w0.size r))
    (w0.size r + (w0.ghosts r).length)
  set b := (List.range (w0.size r + (w0.ghosts r).length)).foldl (rowStep (w0.size r) (w1.size r)
    (bucketByRow (p r).cache (w0.size r + (w0.ghosts r).length)) (bucketByRow rc.entries (w0.size r)))
    { lastSeen := fun _ => none, offsets := [0], edges := [], offDiag := [] } with hb
  have hfin : finalize w0 w1 p r = .ok ⟨[], b.offsets, b.edges, b.offDiag, rc.ghosts, rc.owners⟩ := by
    unfold finalize finalizeWith
    rw [if_neg (by simp [(hcache r hr).1]), hdat]
    simp only [hrc, hb]
  refine ⟨⟨[], b.offsets, b.edges, b.offDiag, rc.ghosts, rc.owners⟩, rows, hfin, h1, h2, h3, h4, ?_, hpre, hinv.pre.2, hinv.nodup, hinv.len, ?_⟩
  · intro i row hrowi
    have hi : i < w0.size r + (w0.ghosts r).length := by
      rw [← h1]; exact (List.getElem?_eq_some_iff.mp hrowi).1
    obtain ⟨hs, hm⟩ := h6 i row hrowi
    simp only
    have hloc : ∀ c, c ∈ slice (bucketByRow (p r).cache (w0.size r + (w0.ghosts r).length)) i ↔ (i, c) ∈ (p r).cache :=
      mem_slice_bucket _ _ _ (fun x hx => (hrange r hr x hx).1) hi
    have hlocC : ∀ c, (i, c) ∈ (p r).cache → ∃ C, globalOf w1 r c = some C ∧ gcol w1 r rc.ghosts c = some C := by
      intro c hc
      have hcl := (hrange r hr _ hc).2
      have hg := (colRecord_spec w1 hw1 r c hrP hcl).1
      exact ⟨_, hg, gcol_prefix hpre (by unfold gcol; unfold globalOf at hg; exact hg)⟩
    have hrem : i < w0.size r → ∀ c, c ∈ slice (bucketByRow rc.entries (w0.size r)) i ↔ (i, c) ∈ rc.entries :=
      fun hi' c => mem_slice_bucket _ _ _ hents hi' c
    have hremC : ∀ c, (i, c) ∈ rc.entries → ∃ e ∈ data, e.1 = w0.r0 r + i ∧ gcol w1 r rc.ghosts c = some e.2.1 := by
      intro c hc
      have : (i, gcol w1 r rc.ghosts c) ∈ rc.entries.map (fun x => (x.1, gcol w1 r rc.ghosts x.2)) :=
        List.mem_map.mpr ⟨(i, c), hc, rfl⟩
      rw [hent] at this
      obtain ⟨e, he, heq⟩ := List.mem_map.mp this
      simp only [Prod.mk.injEq] at heq
      have := hrow e he
      exact ⟨e, he, by omega, heq.2.symm⟩
    refine ⟨hs, ?_, ?_, ?_⟩
    · intro c hc
      rcases (hm c).mp hc with h | ⟨hlt, h⟩
      · obtain ⟨C, _, hC⟩ := hlocC c ((hloc c).mp h); exact ⟨C, hC⟩
      · obtain ⟨e, _, _, hC⟩ := hremC c ((hrem hlt c).mp h); exact ⟨_, hC⟩
    · intro hlt C
      constructor
      · rintro ⟨c, hc, hC⟩
        rcases (hm c).mp hc with h | ⟨_, h⟩
        · have hcc := (hloc c).mp h
          obtain ⟨C', hC1, hC2⟩ := hlocC c hcc
          rw [hC2] at hC
          obtain ⟨op, hop, hcov⟩ := ((hcache r hr).2 i c).mp hcc
          exact ⟨r, hr, op, hop, i, c, hcov, by simp [globalOf, hlt], by rw [hC1, hC]⟩
        · obtain ⟨e, he, he1, hC2⟩ := hremC c ((hrem hlt c).mp h)
          rw [hC2] at hC
          obtain ⟨q, i', c', hq, ho, hc', rfl⟩ := (hmem e).mp he
          obtain ⟨op, hop, hcov⟩ := ((hcache q hq).2 _ _).mp hc'
          refine ⟨q, hq, op, hop, _, c', hcov, ?_, ?_⟩
          · have hil := (List.getElem?_eq_some_iff.mp ho).1
            have hg := List.getElem?_eq_getElem (l := w0.ghosts q) (i := i') (by rw [← hw0.len q hq]; exact hil)
            simp only [List.getD_eq_getElem?_getD, hg, Option.getD_some] at he1
            unfold globalOf
            rw [if_neg (by omega), Nat.add_sub_cancel_left, hg, he1]
          · rw [(colRecord_spec w1 hw1 q c' (hP ▸ hq) (hrange q hq _ hc').2).1]; exact hC
      · rintro ⟨q, hq, op, hop, i', c', hcov, hR, hC⟩
        have hc' : (i', c') ∈ (p q).cache := ((hcache q hq).2 _ _).mpr ⟨op, hop, hcov⟩
        by_cases hi' : i' < w0.size q
        · unfold globalOf at hR
          rw [if_pos hi'] at hR
          have hR' := Option.some.inj hR
          have hqr : q = r := range_unique w0 (g := w0.r0 q + i') ⟨by omega, by omega⟩ ⟨by omega, by omega⟩
          subst hqr
          have : i' = i := by omega
          subst this
          obtain ⟨C', hC1, hC2⟩ := hlocC c' hc'
          rw [hC] at hC1
          exact ⟨c', (hm c').mpr (Or.inl ((hloc c').mpr hc')), by rw [hC2, hC1]⟩
        · unfold globalOf at hR
          rw [if_neg hi'] at hR
          set k := i' - w0.size q with hk
          have hkl := (List.getElem?_eq_some_iff.mp hR).1
          have ho := List.getElem?_eq_getElem (l := w0.owners q) (i := k) (by rw [hw0.len q hq]; exact hkl)
          have hv := hw0.owner q hq _ _ _ ho hR
          have hor : (w0.owners q)[k]'(by rw [hw0.len q hq]; exact hkl) = r :=
            range_unique w0 ⟨hv.2.2.1, hv.2.2.2⟩ ⟨by omega, by omega⟩
          rw [hor] at ho
          have he : ((w0.ghosts q).getD k 0, colRecord w1 q c') ∈ data :=
            (hmem _).mpr ⟨q, k, c', hq, ho, by rw [hk, Nat.add_sub_cancel' (by omega)]; exact hc', rfl⟩
          have hgd : (w0.ghosts q).getD k 0 = w0.r0 r + i := by
            rw [List.getD_eq_getElem?_getD, hR]; rfl
          have hx : (i, some (colRecord w1 q c').1) ∈ data.map (fun e => (e.1 - w0.r0 r, some e.2.1)) :=
            List.mem_map.mpr ⟨_, he, by simp only [hgd]; congr 1; omega⟩
          rw [← hent] at hx
          obtain ⟨x, hx1, hx2⟩ := List.mem_map.mp hx
          simp only [Prod.mk.injEq] at hx2
          have hxi : (i, x.2) ∈ rc.entries := by rw [← hx2.1]; exact hx1
          refine ⟨x.2, (hm _).mpr (Or.inr ⟨hlt, (hrem hlt _).mpr hxi⟩), ?_⟩
          rw [hx2.2, ← (colRecord_spec w1 hw1 q c' (hP ▸ hq) (hrange q hq _ hc').2).1, hC]
    · intro hge c
      rw [hm, hloc, (hcache r hr).2]
      constructor
      · rintro (h | ⟨h, _⟩)
        · exact h
        · omega
      · exact Or.inl
  · intro k q g ho hg
    simp only at ho hg
    rcases hown k q ho with h | ⟨e, he, hge, hoe, hk⟩
    · have hkl : k < (w1.ghosts r).length := by
        rw [← hw1.len r hrP]; exact (List.getElem?_eq_some_iff.mp h).1
      have hgg : (w1.ghosts r)[k]? = some g := by
        obtain ⟨t, ht⟩ := hpre
        rw [← ht, List.getElem?_append_left hkl] at hg; exact hg
      exact hw1.owner r hrP _ _ _ h hgg
    · obtain ⟨q', i', c', hq', ho', hc', rfl⟩ := (hmem e).mp he
      have hcs := colRecord_spec w1 hw1 q' c' (hP ▸ hq') (hrange q' hq' _ hc').2
      rw [hge] at hg
      have hgg := Option.some.inj hg
      simp only at hgg hoe
      subst hgg hoe
      refine ⟨hcs.2.1, ?_, hcs.2.2.1, hcs.2.2.2⟩
      intro heq
      have := hinv.outside _ (List.mem_of_getElem? hge)
      rw [heq] at hcs
      exact this ⟨hcs.2.2.1, hcs.2.2.2⟩

theorem rows_getD (rows : List (List Nat)) (i : Nat) (hi : i ≤ rows.length) :
    (rows.foldl (fun (o : List Nat) x => o ++ [o.getLast?.getD 0 + x.length]) [0]).getD i 0 =
      excl (fun i => (rows[i]?.map List.length).getD 0) i := by
  rw [AdjList.foldl_push, List.getD_eq_getElem?_getD, List.getElem?_map, List.getElem?_range (by omega)]
  rfl

theorem rows_diff (rows : List (List Nat)) (i : Nat) (hi : i < rows.length) :
    excl (fun i => (rows[i]?.map List.length).getD 0) (i + 1) =
      excl (fun i => (rows[i]?.map List.length).getD 0) i + rows[i].length := by
  rw [excl_succ, List.getElem?_eq_getElem hi]; rfl

theorem graphRow_rows (rows : List (List Nat)) (i : Nat) (hi : i < rows.length) :
    graphRow rows.flatten (rows.foldl (fun (o : List Nat) x => o ++ [o.getLast?.getD 0 + x.length]) [0]) i = rows[i] := by
  unfold graphRow
  rw [rows_getD rows i (by omega), rows_getD rows (i + 1) (by omega), rows_diff rows i hi, Nat.add_sub_cancel_left]
  exact AdjList.slice_flatten rows i hi

/-- The split of a strictly increasing row at `lower_bound` of the first non-owned column. -/
theorem split_row (n1 : Nat) (row : List Nat) (hs : row.Pairwise (· < ·)) :
    lowerBound (fun c => decide (c < n1)) row = row.countP (fun c => decide (c < n1)) ∧
    (∀ c ∈ row.take (lowerBound (fun c => decide (c < n1)) row), c < n1) ∧
    (∀ c ∈ row.drop (lowerBound (fun c => decide (c < n1)) row), n1 ≤ c) := by
  have hp := partitioned_of_sorted (fun c : Nat => c) row (hs.imp (fun h => Nat.le_of_lt h)) n1
  refine ⟨lowerBound_eq_countP _ _ hp, ?_, ?_⟩
  · intro c hc
    obtain ⟨hle, hlo, hhi⟩ := lowerBound_spec _ row hp
    obtain ⟨k, hk⟩ := List.getElem?_of_mem hc
    have hkl := (List.getElem?_eq_some_iff.mp hk).1
    rw [List.getElem?_take] at hk
    split at hk
    · rename_i hlt
      obtain ⟨hkl', rfl⟩ := List.getElem?_eq_some_iff.mp hk
      simpa using hlo k hkl' hlt
    · cases hk
  · intro c hc
    obtain ⟨hle, hlo, hhi⟩ := lowerBound_spec _ row hp
    obtain ⟨k, hk⟩ := List.getElem?_of_mem hc
    rw [List.getElem?_drop] at hk
    obtain ⟨hkl', rfl⟩ := List.getElem?_eq_some_iff.mp hk
    simpa using hhi _ hkl' (by omega)

section
variable (w0 w1 : World) (hw0 : w0.Valid) (hw1 : w1.Valid) (hP : w0.P = w1.P)
  (ops : Nat → List InsOp) (hin : InRange w0 w1 ops) (p : Nat → SP.Pattern)
  (hp : ∀ q, q < w0.P → runIns SP.new (ops q) = .ok (p q))
include hw0 hw1 hP hin hp

/-- C14: after any insertions on all ranks, `finalize` succeeds and every owned row of the
returned graph lists its columns in strictly increasing order; read as global columns through
`column_indices()` they are, each once, exactly the columns requested on any rank for that
global row; and `off_diagonal_offsets` splits the row at the first non-owned column. -/
theorem C14_owned_rows (r : Nat) (hr : r < w0.P) :
    ∃ p' edges offsets cols split, finalize w0 w1 p r = .ok p' ∧ graph p' = .ok (edges, offsets) ∧
      columnIndices w1 r p' = .ok cols ∧ offDiagonalOffsets p' = .ok split ∧
      ∀ i, i < w0.size r → ∃ row, row = graphRow edges offsets i ∧
        row.Pairwise (· < ·) ∧
        (∀ c ∈ row, c < cols.length) ∧
        (row.map fun c => cols[c]?).Nodup ∧
        (∀ C, (∃ c ∈ row, cols[c]? = some C) ↔ Requested w0 w1 ops (w0.r0 r + i) C) ∧
        (∃ d, split[i]? = some d ∧ d ≤ row.length ∧ (∀ c ∈ row.take d, c < w1.size r) ∧
          (∀ c ∈ row.drop d, w1.size r ≤ c)) := by
  obtain ⟨p', rows, hf, h1, h2, h3, h4, h5, hg1, hg2, hg3, hg4, hg5⟩ :=
    finalize_facts w0 w1 hw0 hw1 hP ops hin p hp r hr
  have hne : p'.offsets ≠ [] := by
    rw [h3, AdjList.foldl_push]; simp
  have hcols : ∀ c : Nat, ((List.range (w1.size r)).map (fun i => w1.r0 r + i) ++ p'.colGhosts)[c]? = gcol w1 r p'.colGhosts c := by
    intro c
    unfold gcol
    split
    · rename_i h
      rw [List.getElem?_append_left (by simpa using h), List.getElem?_map, List.getElem?_range h]; rfl
    · rename_i h
      rw [List.getElem?_append_right (by simpa using h)]; simp
  refine ⟨p', p'.edges, p'.offsets, _, p'.offDiag, hf, by simp [graph, hne], by simp [columnIndices, hne]; rfl,
    by simp [offDiagonalOffsets, hne], ?_⟩
  intro i hi
  have hil : i < rows.length := by omega
  obtain ⟨a1, a2, a3, _⟩ := h5 i rows[i] (List.getElem?_eq_getElem hil)
  refine ⟨rows[i], by rw [h2, h3, graphRow_rows rows i hil], a1, ?_, ?_, ?_, ?_⟩
  · intro c hc
    obtain ⟨C, hC⟩ := a2 c hc
    rw [← hcols] at hC
    exact (List.getElem?_eq_some_iff.mp hC).1
  · simp only [hcols]
    rw [List.nodup_map_iff_inj_on (nodup_of_strict a1)]
    intro x hx y hy hxy
    obtain ⟨C, hC⟩ := a2 x hx
    obtain ⟨D, hD⟩ := a2 y hy
    have hCD : C = D := by rw [hC, hD] at hxy; exact Option.some.inj hxy
    subst hCD
    have hout : ∀ k : Nat, p'.colGhosts[k]? = some C → ¬ (w1.r0 r ≤ C ∧ C < w1.r0 r + w1.size r) := by
      intro k hk hcon
      have hkl := (List.getElem?_eq_some_iff.mp hk).1
      have ho := List.getElem?_eq_getElem (l := p'.colOwners) (i := k) (by rw [hg4]; exact hkl)
      have hv := hg5 _ _ _ ho hk
      exact hv.2.1 (range_unique w1 ⟨hv.2.2.1, hv.2.2.2⟩ hcon)
    unfold gcol at hC hD
    split at hC
    · rename_i hx1
      have hC' := Option.some.inj hC
      split at hD
      · have hD' := Option.some.inj hD
        omega
      · exact absurd ⟨by omega, by omega⟩ (hout _ hD)
    · rename_i hx1
      split at hD
      · have hD' := Option.some.inj hD
        exact absurd ⟨by omega, by omega⟩ (hout _ hC)
      · have := (List.getElem?_inj (List.getElem?_eq_some_iff.mp hC).1 hg3).mp (hC.trans hD.symm)
        omega
  · simp only [hcols]
    exact a3 hi
  · refine ⟨_, by rw [h4, List.getElem?_map, List.getElem?_eq_getElem hil]; rfl, ?_, (split_row _ _ a1).2⟩
    rw [(split_row _ _ a1).1]
    exact List.countP_le_length

/-- C14: rows ghosted on a rank list exactly the columns requested on that rank. -/
theorem C14_ghost_rows (r : Nat) (hr : r < w0.P) :
    ∃ p' edges offsets, finalize w0 w1 p r = .ok p' ∧ graph p' = .ok (edges, offsets) ∧
      offsets.length = w0.size r + (w0.ghosts r).length + 1 ∧
      ∀ i, w0.size r ≤ i → i < w0.size r + (w0.ghosts r).length →
        (graphRow edges offsets i).Pairwise (· < ·) ∧
        ∀ c, c ∈ graphRow edges offsets i ↔ ∃ op ∈ ops r, op.Covers i c := by
  obtain ⟨p', rows, hf, h1, h2, h3, h4, h5, hg1, hg2, hg3, hg4, hg5⟩ :=
    finalize_facts w0 w1 hw0 hw1 hP ops hin p hp r hr
  have hne : p'.offsets ≠ [] := by
    rw [h3, AdjList.foldl_push]; simp
  refine ⟨p', p'.edges, p'.offsets, hf, by simp [graph, hne], by rw [h3, AdjList.foldl_push]; simp [h1], ?_⟩
  intro i hi hi2
  have hil : i < rows.length := by omega
  obtain ⟨a1, a2, _, a4⟩ := h5 i rows[i] (List.getElem?_eq_getElem hil)
  rw [h2, h3, graphRow_rows rows i hil]
  exact ⟨a1, a4 hi⟩

/-- C14: finalisation only extends the column map: the ghosts given at construction keep their
local index, and the extended ghosts and owners again describe a valid distributed index map
(ghosts distinct, each owned by the recorded other rank). -/
theorem C14_column_map :
    ∃ p' : Nat → SP.Pattern, (∀ r, r < w0.P → finalize w0 w1 p r = .ok (p' r)) ∧
      (World.mk w1.P w1.size (fun r => (p' r).colGhosts) (fun r => (p' r).colOwners)).Valid ∧
      ∀ r, r < w0.P → w1.ghosts r <+: (p' r).colGhosts ∧ w1.owners r <+: (p' r).colOwners := by
  have h : ∀ r, ∃ p', r < w0.P → finalize w0 w1 p r = .ok p' ∧
      w1.ghosts r <+: p'.colGhosts ∧ w1.owners r <+: p'.colOwners ∧ p'.colGhosts.Nodup ∧
      p'.colOwners.length = p'.colGhosts.length ∧
      (∀ (k q g : Nat), p'.colOwners[k]? = some q → p'.colGhosts[k]? = some g →
        q < w1.P ∧ q ≠ r ∧ w1.r0 q ≤ g ∧ g < w1.r0 q + w1.size q) := by
    intro r
    by_cases hr : r < w0.P
    · obtain ⟨p', rows, hf, h1, h2, h3, h4, h5, hg1, hg2, hg3, hg4, hg5⟩ :=
        finalize_facts w0 w1 hw0 hw1 hP ops hin p hp r hr
      exact ⟨p', fun _ => ⟨hf, hg1, hg2, hg3, hg4, hg5⟩⟩
    · exact ⟨SP.new, fun h => absurd h hr⟩
  choose p' hp' using h
  refine ⟨p', fun r hr => (hp' r hr).1, ⟨?_, ?_, ?_⟩, fun r hr => ⟨(hp' r hr).2.1, (hp' r hr).2.2.1⟩⟩
  · intro r hr; exact (hp' r (hP ▸ hr)).2.2.2.2.1
  · intro r hr; exact (hp' r (hP ▸ hr)).2.2.2.1
  · intro r hr k q g ho hg
    exact (hp' r (hP ▸ hr)).2.2.2.2.2 k q g ho hg

/-- C15: after finalisation the reported counts agree with the stored rows: `nnz_diag` and
`nnz_off_diag` of each row count its owned and non-owned columns, and `num_nonzeros` is the sum
of the row lengths. -/
theorem C15_counts (r : Nat) (hr : r < w0.P) :
    ∃ p' edges offsets, finalize w0 w1 p r = .ok p' ∧ graph p' = .ok (edges, offsets) ∧
      (∀ i, i < w0.size r + (w0.ghosts r).length →
        nnzDiag p' i = .ok (some ((graphRow edges offsets i).countP fun c => decide (c < w1.size r))) ∧
        nnzOffDiag p' i = .ok (some ((graphRow edges offsets i).countP fun c => decide (w1.size r ≤ c)))) ∧
      numNonzeros p' = .ok (((List.range (w0.size r + (w0.ghosts r).length)).map
        fun i => (graphRow edges offsets i).length).sum) := by
  obtain ⟨p', rows, hf, h1, h2, h3, h4, h5, hg1, hg2, hg3, hg4, hg5⟩ :=
    finalize_facts w0 w1 hw0 hw1 hP ops hin p hp r hr
  have hne : p'.offsets ≠ [] := by
    rw [h3, AdjList.foldl_push]; simp
  refine ⟨p', p'.edges, p'.offsets, hf, by simp [graph, hne], ?_, ?_⟩
  · intro i hi
    have hil : i < rows.length := by omega
    obtain ⟨a1, _⟩ := h5 i rows[i] (List.getElem?_eq_getElem hil)
    have hsplit := (split_row (w1.size r) rows[i] a1).1
    rw [h2, h3, graphRow_rows rows i hil]
    have ho : p'.offDiag[i]? = some (rows[i].countP fun c => decide (c < w1.size r)) := by
      rw [h4, List.getElem?_map, List.getElem?_eq_getElem hil, Option.map_some, hsplit]
    refine ⟨by simp [nnzDiag, hne, ho], ?_⟩
    have e1 : p'.offsets[i]? = some (excl (fun i => (rows[i]?.map List.length).getD 0) i) := by
      rw [h3, AdjList.foldl_push, List.getElem?_map, List.getElem?_range (by omega)]; rfl
    have e2 : p'.offsets[i + 1]? = some (excl (fun i => (rows[i]?.map List.length).getD 0) (i + 1)) := by
      rw [h3, AdjList.foldl_push, List.getElem?_map, List.getElem?_range (by omega)]; rfl
    unfold nnzOffDiag
    rw [if_neg hne, e1, e2, ho]
    simp only
    rw [rows_diff rows i hil]
    congr 2
    have hnot : (fun (c : Nat) => decide (w1.size r ≤ c)) = fun c => !decide (c < w1.size r) := by
      funext c
      by_cases h : c < w1.size r
      · rw [decide_eq_false (by omega), decide_eq_true h]; rfl
      · rw [decide_eq_true (by omega), decide_eq_false h]; rfl
    have := List.length_eq_countP_add_countP (fun c => decide (c < w1.size r)) (l := rows[i])
    rw [hnot]
    have e3 : (fun (a : Nat) => decide ¬decide (a < w1.size r) = true) = fun c => !decide (c < w1.size r) := by
      funext a
      by_cases h : a < w1.size r
      · simp only [decide_eq_true h]; rfl
      · simp only [decide_eq_false h]; rfl
    rw [e3] at this
    omega
  · unfold numNonzeros
    rw [if_neg hne, h2, h3, List.length_flatten]
    congr 2
    apply List.ext_getElem?
    intro i
    rw [List.getElem?_map, List.getElem?_map]
    rcases Nat.lt_or_ge i rows.length with hil | hil
    · rw [List.getElem?_eq_getElem hil, List.getElem?_range (by omega)]
      simp only [Option.map_some]
      rw [graphRow_rows rows i hil]
    · rw [List.getElem?_eq_none hil, List.getElem?_eq_none (by simpa using h1 ▸ hil)]
      rfl

end

/-! ## Life cycle -/

/-- Any member call. -/
inductive Call where
  | ins (op : InsOp)
  /-- `finalize()`, with the records that arrive from the other ranks. -/
  | fin (data : List (Nat × Nat × Nat))
  | numNonzeros
  | nnzDiag (row : Nat)
  | nnzOffDiag (row : Nat)
  | graph
  | offDiagonalOffsets
  | columnIndices

/-- New state and raised error, if any; a call that throws leaves the object as it was before the
throwing statement, which is the first statement of every member function. -/
def Call.exec (w0 w1 : World) (r : Nat) (p : SP.Pattern) (c : Call) : SP.Pattern × Option Err :=
  let upd (x : Except Err SP.Pattern) : SP.Pattern × Option Err :=
    match x with
    | .ok q => (q, none)
    | .error e => (p, some e)
  let qry {α : Type} (x : Except Err α) : SP.Pattern × Option Err :=
    match x with
    | .ok _ => (p, none)
    | .error e => (p, some e)
  match c with
  | .ins op => upd (op.exec p)
  | .fin data => upd (finalizeWith w0 w1 r p data)
  | .numNonzeros => qry (SP.numNonzeros p)
  | .nnzDiag row => qry (SP.nnzDiag p row)
  | .nnzOffDiag row => qry (SP.nnzOffDiag p row)
  | .graph => qry (SP.graph p)
  | .offDiagonalOffsets => qry (SP.offDiagonalOffsets p)
  | .columnIndices => qry (SP.columnIndices w1 r p)

/-- States before each call and the error of each call of a history. -/
def history (w0 w1 : World) (r : Nat) (p : SP.Pattern) : List Call → List (SP.Pattern × Call × Option Err × SP.Pattern)
  | [] => []
  | c :: cs => (p, c, (c.exec w0 w1 r p).2, (c.exec w0 w1 r p).1) :: history w0 w1 r (c.exec w0 w1 r p).1 cs

/-- The call is a finalisation. -/
def Call.isFin : Call → Bool
  | .fin _ => true
  | _ => false

/-- The error a call must raise when the object has (`done`) or has not been finalised. -/
def expected (done : Bool) : Call → Option Err
  | .ins _ => if done then some .alreadyFinalized else none
  | .fin _ => if done then some .finalizedTwice else none
  | _ => if done then none else some .notFinalized

theorem offsets_ne (n0 n1 : Nat) (a b : List Nat × List Nat) (n : Nat) :
    ((List.range n).foldl (rowStep n0 n1 a b)
      { lastSeen := fun _ => none, offsets := [0], edges := [], offDiag := [] }).offsets ≠ [] := by
  obtain ⟨rows, _, _, h, _⟩ := build_spec n0 n1 a b n
  rw [h, AdjList.foldl_push]; simp

theorem exec_spec (w0 w1 : World) (r : Nat) (p : SP.Pattern) (c : Call) :
    (c.exec w0 w1 r p).2 = expected (decide (p.offsets ≠ [])) c ∧
    (decide ((c.exec w0 w1 r p).1.offsets ≠ []) = (decide (p.offsets ≠ []) || c.isFin)) ∧
    (((c.exec w0 w1 r p).2.isSome ∨ p.offsets ≠ []) → (c.exec w0 w1 r p).1 = p) := by
  by_cases hp : p.offsets = []
  · cases c with
    | ins op =>
      obtain ⟨p', h1, h2, _⟩ := exec_ok p op hp
      simp [Call.exec, h1, expected, hp, h2, Call.isFin]
    | fin data =>
      simp only [Call.exec, finalizeWith, hp, expected, Call.isFin]
      have := offsets_ne (w0.size r) (w1.size r) (bucketByRow p.cache (w0.size r + (w0.ghosts r).length))
        (bucketByRow (received w0 w1 r data).entries (w0.size r)) (w0.size r + (w0.ghosts r).length)
      simp [this]
    | _ => simp [Call.exec, SP.numNonzeros, SP.nnzDiag, SP.nnzOffDiag, SP.graph, SP.offDiagonalOffsets,
        SP.columnIndices, expected, hp, Call.isFin]
  · cases c with
    | ins op => cases op <;> simp [Call.exec, InsOp.exec, insert1, SP.insert, insertDiagonal, expected, hp, Call.isFin]
    | fin data => simp [Call.exec, finalizeWith, expected, hp, Call.isFin]
    | _ => simp [Call.exec, SP.numNonzeros, SP.nnzDiag, SP.nnzOffDiag, SP.graph, SP.offDiagonalOffsets,
        SP.columnIndices, expected, hp, Call.isFin]

theorem history_spec (w0 w1 : World) (r : Nat) (p : SP.Pattern) (cs : List Call) (k : Nat) (b a : SP.Pattern) (c : Call)
    (e : Option Err) (h : (history w0 w1 r p cs)[k]? = some (b, c, e, a)) :
    e = expected (decide (p.offsets ≠ []) || (cs.take k).any Call.isFin) c ∧
    ((e.isSome ∨ p.offsets ≠ [] ∨ (cs.take k).any Call.isFin = true) → a = b) := by
  induction cs generalizing p k with
  | nil => simp [history] at h
  | cons c' cs ih =>
    obtain ⟨s1, s2, s3⟩ := exec_spec w0 w1 r p c'
    cases k with
    | zero =>
      simp only [history, List.getElem?_cons_zero, Option.some.injEq, Prod.mk.injEq] at h
      obtain ⟨rfl, rfl, rfl, rfl⟩ := h
      refine ⟨by simpa using s1, ?_⟩
      intro hh
      apply s3
      simpa using hh
    | succ k =>
      simp only [history, List.getElem?_cons_succ] at h
      obtain ⟨i1, i2⟩ := ih _ k h
      rw [List.take_succ_cons, List.any_cons]
      refine ⟨by rw [i1, s2, Bool.or_assoc], ?_⟩
      intro hh
      apply i2
      rcases hh with hh | hh | hh
      · exact Or.inl hh
      · right; left
        have : decide ((c'.exec w0 w1 r p).1.offsets ≠ []) = true := by rw [s2]; simp [hh]
        simpa using this
      · right
        rw [Bool.or_eq_true] at hh
        rcases hh with hh | hh
        · left
          have : decide ((c'.exec w0 w1 r p).1.offsets ≠ []) = true := by rw [s2, hh]; simp
          simpa using this
        · exact Or.inr hh

/-- C15: in any history of calls on a new pattern, call `k` raises exactly the error determined by
whether an earlier call was `finalize`: insertions and `finalize` fail after it, queries fail
before it; and a failing call, or any call after finalisation, leaves the object unchanged. -/
theorem C15_life_cycle (w0 w1 : World) (r : Nat) (cs : List Call) (k : Nat) (before after : SP.Pattern) (c : Call)
    (e : Option Err) (h : (history w0 w1 r SP.new cs)[k]? = some (before, c, e, after)) :
    e = expected ((cs.take k).any Call.isFin) c ∧
    ((e.isSome ∨ (cs.take k).any Call.isFin = true) → after = before) := by
  obtain ⟨h1, h2⟩ := history_spec w0 w1 r SP.new cs k before after c e h
  refine ⟨by simpa [SP.new] using h1, ?_⟩
  rintro (hh | hh)
  · exact h2 (Or.inl hh)
  · exact h2 (Or.inr (Or.inr hh))

/-! ## A concrete case -/

/-- Two ranks with two owned rows each; rank 0 ghosts row 2. -/
def spWorld : World := ⟨2, fun _ => 2, fun r => if r = 0 then [2] else [], fun r => if r = 0 then [1] else []⟩

def spOps : Nat → List InsOp := fun r => if r = 0 then [.many [2, 1] [1, 0, 1], .one 0 0, .one 0 2] else [.diagonal [1, 0], .one 0 1]

example : spWorld.Valid := by
  refine ⟨?_, ?_, ?_⟩
  · intro r _; unfold spWorld; by_cases h : r = 0 <;> simp [h]
  · intro r _; unfold spWorld; by_cases h : r = 0 <;> simp [h]
  · intro r hr k q g ho hg
    by_cases h : r = 0
    · cases k with
      | zero =>
        simp [spWorld, h] at ho hg
        subst ho hg h
        decide
      | succ k => simp [spWorld, h] at ho
    · simp [spWorld, h] at ho

example : InRange spWorld spWorld spOps := by
  intro q hq op hop i c hc
  have : q = 0 ∨ q = 1 := by simp [spWorld] at hq; omega
  rcases this with rfl | rfl
  · simp [spOps] at hop
    rcases hop with rfl | rfl | rfl <;> simp [InsOp.Covers] at hc <;> simp [spWorld] <;> omega
  · simp [spOps] at hop
    rcases hop with rfl | rfl <;> simp [InsOp.Covers] at hc <;> simp [spWorld] <;> omega

/-- Rank 1 receives the entries of its row 0 that rank 0 inserted, and with them two new ghost columns. -/
example : (∃ p0 p1, runIns SP.new (spOps 0) = .ok p0 ∧ runIns SP.new (spOps 1) = .ok p1 ∧
    ((finalize spWorld spWorld (fun q => if q = 0 then p0 else p1) 1).toOption.map
      fun p => (p.edges, p.offsets, p.offDiag, p.colGhosts, p.colOwners)) =
      some ([0, 1, 2, 3, 1], [0, 4, 5], [2, 1], [1, 0], [0, 0])) :=
  ⟨_, _, rfl, rfl, by decide +kernel⟩

end Verif.Props
