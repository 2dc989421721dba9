import Verif.Model.SubMap
import Verif.Lemmas.Pack
import Verif.Lemmas.LexSend
/-!
# `communicate_ghosts_to_owners`
-/
namespace Verif.SubMap
open Verif.Std Verif.Exchange Verif.World Verif.Shared Verif.StackMaps Verif.Offsets Verif.Group

variable {β : Type}

theorem pushAll_get (n : Nat) (ps : List (Nat × β)) (j : Nat) (hj : j < n) :
    (pushAll n ps)[j]? = some ((grp Prod.fst ps j).map Prod.snd) := by
  have : ∀ (ps : List (Nat × β)) (v : List (List β)), (ps.foldl (fun v p => v.modify p.1 (· ++ [p.2])) v)[j]? =
      v[j]?.map fun l => l ++ (grp Prod.fst ps j).map Prod.snd := by
    intro ps
    induction ps with
    | nil => intro v; simp [grp]
    | cons p ps ih =>
      intro v
      rw [List.foldl_cons, ih, List.getElem?_modify]
      cases v[j]? with
      | none => rfl
      | some l =>
        by_cases h : p.1 = j
        · simp [grp, h]
        · simp [grp, h]
  unfold pushAll
  rw [this, List.getElem?_replicate, if_pos hj]
  simp

theorem pushAll_length (n : Nat) (ps : List (Nat × β)) : (pushAll n ps).length = n := by
  unfold pushAll
  have : ∀ (ps : List (Nat × β)) (v : List (List β)), (ps.foldl (fun v p => v.modify p.1 (· ++ [p.2])) v).length = v.length := by
    intro ps
    induction ps with
    | nil => intro v; rfl
    | cons p ps ih => intro v; rw [List.foldl_cons, ih]; simp
  rw [this]; simp

/-- Positions of the included ghosts of `r` with owner `t`. -/
def Comm.sel (c : Comm) (r t : Nat) : List Nat :=
  (List.range (c.ghosts r).length).filter fun i => c.incl r i && decide ((c.owners r).getD i 0 = t)

/-- Requirements: sorted neighbour lists that match each other, owners listed. -/
structure CommOk (c : Comm) (P : Nat) : Prop where
  srcSorted : ∀ r, r < P → (c.src r).Pairwise (· < ·)
  owner : ∀ r, r < P → ∀ i, i < (c.ghosts r).length → c.incl r i = true → (c.owners r).getD i 0 ∈ c.src r
  srcP : ∀ r, r < P → ∀ q ∈ c.src r, q < P
  dest : ∀ r, r < P → ∀ q, q ∈ c.dest r ↔ q < P ∧ r ∈ c.src q

variable {c : Comm} {P : Nat}

theorem pack_eq_sel (h : CommOk c P) (f : Nat → β) (r : Nat) (hr : r < P) :
    c.pack f r = (c.src r).map fun t => (c.sel r t).map f := by
  unfold Comm.pack
  apply List.ext_getElem?
  intro j
  by_cases hj : j < (c.src r).length
  · rw [pushAll_get _ _ j hj, List.getElem?_map, List.getElem?_eq_getElem hj]
    simp only [Option.map_some, Option.some.injEq]
    unfold grp Comm.sel
    rw [List.filter_map, List.map_map, List.filter_filter]
    congr 1
    apply List.filter_congr
    intro i hi
    rw [List.mem_range] at hi
    simp only [Function.comp]
    cases hinc : c.incl r i with
    | false => simp
    | true =>
      simp only [Bool.and_true, Bool.true_and]
      have ho := h.owner r hr i hi hinc
      rw [decide_eq_decide, lowerBound_idxOf _ (h.srcSorted r hr) _ ho]
      constructor
      · intro he
        subst he
        exact (List.getElem_idxOf hj).symm
      · intro he
        rw [he]
        exact (nodup_of_strict (h.srcSorted r hr)).idxOf_getElem j hj
  · rw [List.getElem?_eq_none (by rw [pushAll_length]; omega), List.getElem?_eq_none (by simp; omega)]

theorem sendData_eq (h : CommOk c P) (r : Nat) (hr : r < P) :
    c.sendData r = (c.src r).map fun t => (c.sel r t).map fun i => (c.ghosts r).getD i 0 := pack_eq_sel h _ r hr

theorem sendFlat_eq (h : CommOk c P) (r : Nat) (hr : r < P) :
    (c.sendData r).flatten = (c.src r).flatMap fun t => (c.sel r t).map fun i => (c.ghosts r).getD i 0 := by
  rw [sendData_eq h r hr, ← List.flatMap_def]

theorem sendSizes_eq (h : CommOk c P) (r : Nat) (hr : r < P) :
    c.sendSizes r = (c.src r).map fun t => (c.sel r t).length := by
  unfold Comm.sendSizes
  rw [sendData_eq h r hr]; simp

theorem bufferPos_eq (h : CommOk c P) (r : Nat) (hr : r < P) :
    c.bufferPos r = (c.src r).flatMap fun t => c.sel r t := by
  unfold Comm.bufferPos
  rw [pack_eq_sel h _ r hr, ← List.flatMap_def]; simp

theorem recvSizes_eq (h : CommOk c P) (r : Nat) (hr : r < P) :
    c.recvSizes r = (c.dest r).map fun q => (c.sel q r).length := by
  unfold Comm.recvSizes neighborAlltoall
  rw [neighborAlltoallv_eq _ _ _ (fun q t => [(c.sel q t).length]), flatMap_singleton]
  · intro q hq
    rw [sendSizes_eq h q ((h.dest r hr q).mp hq).1]; simp
  · intro q hq; exact ((h.dest r hr q).mp hq).2

theorem recvIndices_eq (h : CommOk c P) (r : Nat) (hr : r < P) :
    c.recvIndices r = (c.dest r).flatMap fun q => (c.sel q r).map fun i => (c.ghosts q).getD i 0 := by
  unfold Comm.recvIndices
  rw [neighborAlltoallv_eq _ _ _ (fun q t => (c.sel q t).map fun i => (c.ghosts q).getD i 0)]
  · intro q hq
    have hqP := ((h.dest r hr q).mp hq).1
    rw [sendSizes_eq h q hqP, sendFlat_eq h q hqP, chunks_flatMap]
    simp
  · intro q hq; exact ((h.dest r hr q).mp hq).2

theorem recvBlocks_eq (h : CommOk c P) (r : Nat) (hr : r < P) :
    c.recvBlocks r = (c.dest r).map fun q => (c.sel q r).map fun i => (c.ghosts q).getD i 0 := by
  unfold Comm.recvBlocks
  rw [recvIndices_eq h r hr, recvSizes_eq h r hr, chunks_flatMap]
  simp

theorem reply_eq (h : CommOk c P) (ans : Nat → Nat → Nat) (r : Nat) (hr : r < P) :
    c.reply ans r = (c.src r).flatMap fun t => (c.sel r t).map fun i => ans t ((c.ghosts r).getD i 0) := by
  unfold Comm.reply
  rw [neighborAlltoallv_eq _ _ _ (fun t q => (c.sel q t).map fun i => ans t ((c.ghosts q).getD i 0))]
  · intro t ht
    have htP := h.srcP r hr t ht
    rw [recvIndices_eq h t htP, recvSizes_eq h t htP, List.map_flatMap]
    simp only [List.map_map]
    rw [chunks_flatMap]
    · rfl
    · simp
  · intro t ht
    exact (h.dest t (h.srcP r hr t ht) r).mpr ⟨hr, ht⟩

theorem mem_sel (c : Comm) (r t i : Nat) : i ∈ c.sel r t ↔ i < (c.ghosts r).length ∧ c.incl r i = true ∧ (c.owners r).getD i 0 = t := by
  unfold Comm.sel
  simp [List.mem_filter]

theorem sel_nodup (c : Comm) (r t : Nat) : (c.sel r t).Nodup := List.nodup_range.filter _

/-- The buffer order lists every included position once. -/
theorem sel_flat_nodup (h : CommOk c P) (r : Nat) (hr : r < P) : ((c.src r).flatMap fun t => c.sel r t).Nodup := by
  rw [List.nodup_flatMap]
  refine ⟨fun t _ => sel_nodup c r t, ?_⟩
  refine List.Pairwise.imp ?_ (nodup_of_strict (h.srcSorted r hr))
  intro a b hab x hx hx'
  exact hab (((mem_sel c r a x).mp hx).2.2.symm.trans ((mem_sel c r b x).mp hx').2.2)

theorem mem_sel_flat (h : CommOk c P) (r : Nat) (hr : r < P) (i : Nat) :
    (i ∈ (c.src r).flatMap fun t => c.sel r t) ↔ i < (c.ghosts r).length ∧ c.incl r i = true := by
  rw [List.mem_flatMap]
  constructor
  · rintro ⟨t, _, hi⟩
    have := (mem_sel c r t i).mp hi
    exact ⟨this.1, this.2.1⟩
  · rintro ⟨h1, h2⟩
    exact ⟨_, h.owner r hr i h1 h2, (mem_sel c r _ i).mpr ⟨h1, h2, rfl⟩⟩

/-- First of several pairs with the searched first component is the smallest. -/
theorem lowerBound_min (l : List (Nat × Nat)) (k : Nat) (hk : ∃ x ∈ lexSort l, x.1 = k) :
    ∃ x, (lexSort l)[lowerBound (fun e => decide (e.1 < k)) (lexSort l)]? = some x ∧ x.1 = k ∧ x ∈ l ∧
      ∀ y ∈ l, y.1 = k → x.2 ≤ y.2 := by
  obtain ⟨x, h1, h2, h3⟩ := lowerBound_find Prod.fst (lexSort l) (lexSort_fst l) k hk
  refine ⟨x, h1, h2, (mem_lexSort _ _).mp h3, ?_⟩
  intro y hy hyk
  obtain ⟨j, hj, rfl⟩ := List.getElem_of_mem ((mem_lexSort l y).mpr hy)
  obtain ⟨hle, hlo, hhi⟩ := lowerBound_spec _ (lexSort l) (partitioned_of_sorted Prod.fst (lexSort l) (lexSort_fst l) k)
  obtain ⟨hlt, hx⟩ := List.getElem?_eq_some_iff.mp h1
  have hjl : lowerBound (fun e : Nat × Nat => decide (e.1 < k)) (lexSort l) ≤ j := by
    by_contra hc
    have := hlo j hj (by omega)
    simp only [decide_eq_true_eq] at this
    omega
  rcases Nat.lt_or_eq_of_le hjl with hlt' | heq
  · have := List.pairwise_iff_getElem.mp (lexSort_sorted l) _ j hlt hj hlt'
    rw [hx] at this
    simp only [lexLe, decide_eq_true_eq] at this
    omega
  · subst heq
    rw [hx]

/-- From the first pair with first component `k` up to the upper bound: the group of `k`. -/
theorem group_slice (l : List (Nat × Nat)) (k : Nat) :
    ((lexSort l).drop (lowerBound (fun e => decide (e.1 < k)) (lexSort l))).take
      (lowerBound (fun e => decide (e.1 ≤ k)) ((lexSort l).drop (lowerBound (fun e => decide (e.1 < k)) (lexSort l)))) =
    grp Prod.fst (lexSort l) k := by
  set m := lexSort l with hm
  obtain ⟨hle, hlo, hhi⟩ := lowerBound_spec _ m (partitioned_of_sorted Prod.fst m (lexSort_fst l) k)
  set n := lowerBound (fun e : Nat × Nat => decide (e.1 < k)) m with hn
  set t := m.drop n with ht
  have hpart : Partitioned (fun e : Nat × Nat => decide (e.1 ≤ k)) t := by
    intro i j hi hj hij h
    have hs : t.Pairwise (fun a b => a.1 ≤ b.1) := (lexSort_fst l).drop
    simp only [decide_eq_true_eq] at h ⊢
    rcases Nat.lt_or_eq_of_le hij with hlt | heq
    · have := List.pairwise_iff_getElem.mp hs i j hi hj hlt
      omega
    · subst heq; exact h
  obtain ⟨ule, ulo, uhi⟩ := lowerBound_spec _ t hpart
  set u := lowerBound (fun e : Nat × Nat => decide (e.1 ≤ k)) t with hu
  have hsplit : m = m.take n ++ (t.take u ++ t.drop u) := by
    rw [List.take_append_drop, ht, List.take_append_drop]
  have h1 : grp Prod.fst (m.take n) k = [] := by
    unfold grp
    rw [List.filter_eq_nil_iff]
    intro x hx
    obtain ⟨i, hi, rfl⟩ := List.getElem_of_mem hx
    rw [List.getElem_take]
    have hi' : i < n := by rw [List.length_take] at hi; omega
    have hi2 : i < m.length := by rw [List.length_take] at hi; omega
    have := hlo i hi2 hi'
    simp only [decide_eq_true_eq] at this ⊢
    omega
  have h2 : grp Prod.fst (t.take u) k = t.take u := by
    unfold grp
    rw [List.filter_eq_self]
    intro x hx
    obtain ⟨i, hi, rfl⟩ := List.getElem_of_mem hx
    rw [List.getElem_take]
    have hi' : i < u := by rw [List.length_take] at hi; omega
    have hi2 : i < t.length := by rw [List.length_take] at hi; omega
    have a1 := ulo i hi2 hi'
    have hi3 : n + i < m.length := by rw [ht, List.length_drop] at hi2; omega
    have a2 := hhi (n + i) hi3 (by omega)
    have e : t[i] = m[n + i] := by simp [ht]
    rw [e] at a1 ⊢
    simp only [decide_eq_true_eq, decide_eq_false_iff_not] at a1 a2 ⊢
    omega
  have h3 : grp Prod.fst (t.drop u) k = [] := by
    unfold grp
    rw [List.filter_eq_nil_iff]
    intro x hx
    obtain ⟨i, hi, rfl⟩ := List.getElem_of_mem hx
    rw [List.getElem_drop]
    have hi2 : u + i < t.length := by rw [List.length_drop] at hi; omega
    have := uhi (u + i) hi2 (by omega)
    simp only [decide_eq_true_eq, decide_eq_false_iff_not] at this ⊢
    omega
  conv_rhs => rw [hsplit]
  unfold grp at *
  rw [List.filter_append, List.filter_append, h1, h2, h3]
  simp

end Verif.SubMap
