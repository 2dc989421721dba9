import Verif.Model.Transpose
import Verif.Lemmas.RowPack
import Verif.Lemmas.CsrInsert
import Verif.Lemmas.MatrixScatter
/-!
# Lemmas: transpose
-/
namespace Verif.Transpose
open Verif.Std Verif.Exchange Verif.Offsets Verif.World Verif.SpMV Verif.MatScatter Verif.RowPack Verif.Group

variable {R : Type} {α β : Type}

/-! ### Writes into arrays given as functions -/

theorem fn_untouched (l : List α) (pos : α → Nat) (val : α → R) (v : Nat → R) (n : Nat) (h : ∀ x ∈ l, n ≠ pos x) :
    l.foldl (fun v x => fun n => if n = pos x then val x else v n) v n = v n := by
  induction l generalizing v with
  | nil => rfl
  | cons a l ih =>
    rw [List.foldl_cons, ih _ (fun x hx => h x (by simp [hx]))]
    exact if_neg (h a (by simp))

theorem fn_written (l : List α) (pos : α → Nat) (val : α → R) (v : Nat → R) (x : α) (hx : x ∈ l)
    (h : ∀ y ∈ l, pos y = pos x → val y = val x) :
    l.foldl (fun v x => fun n => if n = pos x then val x else v n) v (pos x) = val x := by
  induction l using List.reverseRecOn with
  | nil => simp at hx
  | append_singleton l a ih =>
    rw [List.foldl_append, List.foldl_cons, List.foldl_nil]
    by_cases ha : pos x = pos a
    · rw [if_pos ha]; exact h a (by simp) ha.symm
    · rw [if_neg ha]
      apply ih
      · rcases List.mem_append.mp hx with h1 | h1
        · exact h1
        · simp at h1; exact absurd (by rw [h1]) ha
      · intro y hy; exact h y (by simp [hy])

section block
variable (bs0 bs1 : Nat)

/-- The components written by `putBlock`. -/
def comps : List (Nat × Nat) := (List.range bs0).flatMap fun k0 => (List.range bs1).map fun k1 => (k0, k1)

theorem mem_comps (x : Nat × Nat) : x ∈ comps bs0 bs1 ↔ x.1 < bs0 ∧ x.2 < bs1 := by
  unfold comps
  simp only [List.mem_flatMap, List.mem_map, List.mem_range]
  constructor
  · rintro ⟨a, ha, b, hb, rfl⟩; exact ⟨ha, hb⟩
  · rintro ⟨h1, h2⟩; exact ⟨x.1, h1, x.2, h2, rfl⟩

theorem putBlock_eq (v : Nat → R) (pos : Nat) (blk : Nat → R) :
    putBlock bs0 bs1 v pos blk = (comps bs0 bs1).foldl (fun v x => fun n =>
      if n = pos * bs0 * bs1 + x.2 * bs0 + x.1 then blk (x.1 * bs1 + x.2) else v n) v := by
  unfold putBlock comps
  rw [List.foldl_flatMap]
  apply List.foldl_ext
  intro v k0 _
  rw [List.foldl_map]

theorem digits3 {pos pos' k0 k0' k1 k1' : Nat} (h0 : k0 < bs0) (h0' : k0' < bs0) (h1 : k1 < bs1) (h1' : k1' < bs1)
    (h : pos * bs0 * bs1 + k1 * bs0 + k0 = pos' * bs0 * bs1 + k1' * bs0 + k0') : pos = pos' ∧ k0 = k0' ∧ k1 = k1' := by
  have e1 : (pos * bs1 + k1) * bs0 + k0 = (pos' * bs1 + k1') * bs0 + k0' := by
    have a : (pos * bs1 + k1) * bs0 + k0 = pos * bs0 * bs1 + k1 * bs0 + k0 := by ring
    have b : (pos' * bs1 + k1') * bs0 + k0' = pos' * bs0 * bs1 + k1' * bs0 + k0' := by ring
    rw [a, b, h]
  obtain ⟨e2, e3⟩ := Csr.digits2 h0 h0' e1
  obtain ⟨e4, e5⟩ := Csr.digits2 h1 h1' e2
  exact ⟨e4, e3, e5⟩

theorem putBlock_at (v : Nat → R) (pos : Nat) (blk : Nat → R) (k0 k1 : Nat) (h0 : k0 < bs0) (h1 : k1 < bs1) :
    putBlock bs0 bs1 v pos blk (pos * bs0 * bs1 + k1 * bs0 + k0) = blk (k0 * bs1 + k1) := by
  rw [putBlock_eq]
  refine fn_written (comps bs0 bs1) (fun x => pos * bs0 * bs1 + x.2 * bs0 + x.1) (fun x => blk (x.1 * bs1 + x.2)) v
    (k0, k1) ((mem_comps _ _ _).mpr ⟨h0, h1⟩) ?_
  intro y hy he
  obtain ⟨y0, y1⟩ := (mem_comps _ _ _).mp hy
  obtain ⟨_, e1, e2⟩ := digits3 bs0 bs1 y0 h0 y1 h1 he
  simp only [e1, e2]

theorem putBlock_other (v : Nat → R) (pos p : Nat) (blk : Nat → R) (k0 k1 : Nat) (h0 : k0 < bs0) (h1 : k1 < bs1)
    (hp : p ≠ pos) : putBlock bs0 bs1 v pos blk (p * bs0 * bs1 + k1 * bs0 + k0) = v (p * bs0 * bs1 + k1 * bs0 + k0) := by
  rw [putBlock_eq]
  refine fn_untouched (comps bs0 bs1) (fun x => pos * bs0 * bs1 + x.2 * bs0 + x.1) (fun x => blk (x.1 * bs1 + x.2)) v _ ?_
  intro y hy he
  obtain ⟨y0, y1⟩ := (mem_comps _ _ _).mp hy
  exact hp (digits3 bs0 bs1 h0 y0 h1 y1 he).1

/-- The value array `v` holds, transposed, the blocks listed in `B`. -/
def Holds (v : Nat → R) (B : List (Option (Nat → R))) : Prop :=
  ∀ (p : Nat) (blk : Nat → R), B[p]? = some (some blk) → ∀ k0 k1, k0 < bs0 → k1 < bs1 →
    v (p * bs0 * bs1 + k1 * bs0 + k0) = blk (k0 * bs1 + k1)

theorem fill_cursor_congr {γ : Type} (key : α → Nat) (val : α → β) (val' : α → γ) (cur : Nat → Nat) (buf : List β)
    (buf' : List γ) (l : List α) : (fill key val cur buf l).1 = (fill key val' cur buf' l).1 := by
  funext b
  rw [fill_cursor, fill_cursor]

/-- The fill loop with columns and transposed blocks. -/
theorem put_fold (key col : α → Nat) (blk : α → Nat → R) (cur : Nat → Nat) (cols : List Nat) (v : Nat → R)
    (B : List (Option (Nat → R))) (hv : Holds bs0 bs1 v B) (l : List α) :
    (l.foldl (putStep bs0 bs1 key col blk) (cur, cols, v)).1 = (fill key col cur cols l).1 ∧
    (l.foldl (putStep bs0 bs1 key col blk) (cur, cols, v)).2.1 = (fill key col cur cols l).2 ∧
    Holds bs0 bs1 (l.foldl (putStep bs0 bs1 key col blk) (cur, cols, v)).2.2
      (fill key (fun x => some (blk x)) cur B l).2 := by
  induction l using List.reverseRecOn with
  | nil => exact ⟨rfl, rfl, hv⟩
  | append_singleton l x ih =>
    obtain ⟨h1, h2, h3⟩ := ih
    rw [List.foldl_append, List.foldl_cons, List.foldl_nil, fill_append_singleton, fill_append_singleton]
    generalize l.foldl (putStep bs0 bs1 key col blk) (cur, cols, v) = s at *
    refine ⟨?_, ?_, ?_⟩
    · simp only [putStep, fillStep, h1]
    · simp only [putStep, fillStep, h1, h2]
    · simp only [putStep, fillStep]
      rw [fill_cursor_congr key (fun x => some (blk x)) col cur B cols, ← h1]
      intro p b hb k0 k1 hk0 hk1
      rw [List.getElem?_set] at hb
      split at hb
      · rename_i he
        split at hb
        · have hb' : some (blk x) = some b := Option.some.inj hb
          have := Option.some.inj hb'
          subst this
          subst he
          exact putBlock_at bs0 bs1 _ _ _ _ _ hk0 hk1
        · cases hb
      · rename_i he
        rw [putBlock_other bs0 bs1 _ _ _ _ _ _ hk0 hk1 (Ne.symm he)]
        exact h3 p b hb k0 k1 hk0 hk1

end block

/-! ### Copying whole rows -/

theorem copyAt_get (buf : List β) (pos : Nat) (l : List β) (p : Nat) (hp : p < buf.length) :
    (copyAt buf pos l)[p]? = if pos ≤ p ∧ p < pos + l.length then l[p - pos]? else buf[p]? := by
  induction l using List.reverseRecOn with
  | nil => simp [copyAt]
  | append_singleton l a ih =>
    have hlen : (copyAt buf pos l).length = buf.length := by
      unfold copyAt
      have : ∀ (m : List (β × Nat)) (b : List β), (m.foldl (fun b x => b.set (pos + x.2) x.1) b).length = b.length := by
        intro m
        induction m with
        | nil => intro b; rfl
        | cons x m ih => intro b; rw [List.foldl_cons, ih]; simp
      exact this _ _
    have hstep : copyAt buf pos (l ++ [a]) = (copyAt buf pos l).set (pos + l.length) a := by
      unfold copyAt
      rw [List.zipIdx_append, List.foldl_append]; simp
    rw [hstep, List.getElem?_set, hlen, List.length_append, List.length_singleton]
    by_cases he : pos + l.length = p
    · rw [if_pos he, if_pos (by omega), if_pos (by omega), List.getElem?_append_right (by omega)]
      have : p - pos - l.length = 0 := by omega
      rw [this]; rfl
    · rw [if_neg he, ih]
      by_cases h2 : pos ≤ p ∧ p < pos + l.length
      · rw [if_pos h2, if_pos (by omega), List.getElem?_append_left (by omega)]
      · rw [if_neg h2, if_neg (by omega)]

theorem copyAt_length (buf : List β) (pos : Nat) (l : List β) : (copyAt buf pos l).length = buf.length := by
  unfold copyAt
  have : ∀ (m : List (β × Nat)) (b : List β), (m.foldl (fun b x => b.set (pos + x.2) x.1) b).length = b.length := by
    intro m
    induction m with
    | nil => intro b; rfl
    | cons x m ih => intro b; rw [List.foldl_cons, ih]; simp
  exact this _ _

/-- Copying row blocks to their row starts is a cursor fill whose cursors end behind them. -/
theorem rows_fill (n : Nat) (ptr : Nat → Nat) (f : Nat → List β) (buf : List β) :
    (fill Prod.fst Prod.snd ptr buf ((List.range n).flatMap fun i => (f i).map fun y => (i, y))) =
      (fun b => if b < n then ptr b + (f b).length else ptr b,
       (List.range n).foldl (fun s i => copyAt s (ptr i) (f i)) buf) := by
  induction n with
  | zero => simp [fill]
  | succ n ih =>
    rw [List.range_succ, List.flatMap_append, List.foldl_append]
    have happ : ∀ (l₁ l₂ : List (Nat × β)), fill Prod.fst Prod.snd ptr buf (l₁ ++ l₂) =
        fill Prod.fst Prod.snd (fill Prod.fst Prod.snd ptr buf l₁).1 (fill Prod.fst Prod.snd ptr buf l₁).2 l₂ := by
      intro l₁ l₂; unfold fill; rw [List.foldl_append]
    rw [happ, ih]
    simp only [List.flatMap_cons, List.flatMap_nil, List.append_nil, List.foldl_cons, List.foldl_nil]
    rw [fill_block]
    refine Prod.ext ?_ ?_
    · funext b
      simp only
      by_cases hb : b = n
      · subst hb; simp
      · by_cases hb2 : b < n
        · rw [if_neg hb, if_pos hb2, if_pos (by omega)]
        · rw [if_neg hb, if_neg hb2, if_neg (by omega)]
    · simp

section
variable (bs0 bs1 : Nat)

theorem holds_copy (v w : Nat → R) (B B0 : List (Option (Nat → R))) (dst src n : Nat) (hv : Holds bs0 bs1 v B)
    (hw : Holds bs0 bs1 w B0) (hn : src + n ≤ B0.length) :
    Holds bs0 bs1 (copyVals v (dst * bs0 * bs1) ((src + n) * bs0 * bs1 - src * bs0 * bs1)
      fun t => w (src * bs0 * bs1 + t)) (copyAt B dst ((B0.drop src).take n)) := by
  intro p b hb k0 k1 hk0 hk1
  have hp : p < B.length := by
    rw [← copyAt_length B dst ((B0.drop src).take n)]
    exact (List.getElem?_eq_some_iff.mp hb).1
  have hlen : ((B0.drop src).take n).length = n := by rw [List.length_take, List.length_drop]; omega
  rw [copyAt_get _ _ _ _ hp, hlen] at hb
  have hin : k1 * bs0 + k0 < bs0 * bs1 := by
    have : (k1 + 1) * bs0 ≤ bs1 * bs0 := Nat.mul_le_mul_right _ hk1
    rw [Nat.succ_mul] at this
    rw [Nat.mul_comm bs0]; omega
  have hsub : (src + n) * bs0 * bs1 - src * bs0 * bs1 = n * (bs0 * bs1) := by
    rw [Nat.mul_assoc, Nat.mul_assoc, ← Nat.sub_mul]; congr 1; omega
  unfold copyVals
  rw [hsub]
  split at hb
  · rename_i hr
    obtain ⟨d, rfl⟩ : ∃ d, p = dst + d := ⟨p - dst, by omega⟩
    have hd : d < n := by omega
    rw [List.getElem?_take_of_lt (by omega), List.getElem?_drop, Nat.add_sub_cancel_left] at hb
    have hpos : (dst + d) * bs0 * bs1 + k1 * bs0 + k0 = dst * bs0 * bs1 + (d * (bs0 * bs1) + (k1 * bs0 + k0)) := by ring
    have hdn : d * (bs0 * bs1) + (k1 * bs0 + k0) < n * (bs0 * bs1) := by
      have : (d + 1) * (bs0 * bs1) ≤ n * (bs0 * bs1) := Nat.mul_le_mul_right _ hd
      rw [Nat.succ_mul] at this; omega
    rw [hpos, if_pos ⟨by omega, by omega⟩, Nat.add_sub_cancel_left]
    have := hw _ b hb k0 k1 hk0 hk1
    rw [← this]
    show w _ = w _
    congr 1
    ring
  · rename_i hr
    rw [if_neg]
    · exact hv p b hb k0 k1 hk0 hk1
    · rintro ⟨h1, h2⟩
      apply hr
      have e1 : p * bs0 * bs1 = p * (bs0 * bs1) := by ring
      have e2 : dst * bs0 * bs1 = dst * (bs0 * bs1) := by ring
      rw [e1, e2] at h1 h2
      constructor
      · by_contra hc
        have : (p + 1) * (bs0 * bs1) ≤ dst * (bs0 * bs1) := Nat.mul_le_mul_right _ (by omega)
        rw [Nat.succ_mul] at this; omega
      · by_contra hc
        have : (dst + n) * (bs0 * bs1) ≤ p * (bs0 * bs1) := Nat.mul_le_mul_right _ (by omega)
        rw [Nat.add_mul] at this; omega

end

/-! ### The two parts of the transpose -/

section
variable [Zero R] (w0 w1 : World) (bs0 bs1 : Nat) (A : Nat → Mat R)

/-- Block of a local entry. -/
def locBlk (M : Mat R) (x : Nat × Nat) : Nat → R := fun c => M.values (x.2 * bs0 * bs1 + c)

/-- Local entries of output row `j`. -/
def locRow (M : Mat R) (j : Nat) : List (Nat × Nat) := (localItems M).filter fun x => M.cols x.2 == j

theorem at0Ptr_eq (M : Mat R) (j : Nat) : at0Ptr M j = excl (fun j => (locRow M j).length) j := by
  unfold at0Ptr
  apply excl_congr
  intro i _
  rw [cnt_eq_length]; rfl

theorem localTranspose_spec (ncol : Nat) (M : Mat R) (h : ∀ x ∈ localItems M, M.cols x.2 < ncol) :
    (localTranspose bs0 bs1 ncol M).1 = (List.range ncol).flatMap (fun j => (locRow M j).map Prod.fst) ∧
    Holds bs0 bs1 (localTranspose bs0 bs1 ncol M).2
      ((List.range ncol).flatMap fun j => (locRow M j).map fun x => some (locBlk bs0 bs1 M x)) := by
  have htot : at0Ptr M ncol = (localItems M).length := excl_cnt_total _ _ _ h
  obtain ⟨_, h2, h3⟩ := put_fold bs0 bs1 (fun x : Nat × Nat => M.cols x.2) Prod.fst (locBlk bs0 bs1 M) (at0Ptr M)
    (List.replicate (at0Ptr M ncol) 0) (fun _ => 0) (List.replicate (at0Ptr M ncol) none) (by
      intro p b hb
      rw [List.getElem?_replicate] at hb
      split at hb <;> simp at hb) (localItems M)
  constructor
  · show (_ : List Nat) = _
    refine h2.trans ?_
    exact fill_eq_buckets _ _ _ _ ncol h (by simp [htot])
  · have := fill_eq_buckets (fun x : Nat × Nat => M.cols x.2) (fun x => some (locBlk bs0 bs1 M x))
      (List.replicate (at0Ptr M ncol) none) (localItems M) ncol h (by simp [htot])
    unfold at0Ptr at *
    rw [this] at h3
    exact h3

/-- Owner of the ghost column of an entry. -/
def ownerOf (q : Nat) (x : Nat × Nat) : Nat := (w1.owners q).getD ((A q).cols x.2 - w1.size q) 0

/-- Ghost columns of the entries to send are ghosts of the column map. -/
def SendOk (q : Nat) : Prop := ∀ x ∈ sendItems (A q), (A q).cols x.2 - w1.size q < (w1.owners q).length

theorem sendPos_eq (q : Nat) (h : SendOk w1 A q) (x : Nat × Nat) (hx : x ∈ sendItems (A q)) :
    ownerOf w1 A q x ∈ w1.src q ∧ sendPos w1 A q x = (w1.src q).idxOf (ownerOf w1 A q x) := by
  have hm : ownerOf w1 A q x ∈ w1.src q := by
    unfold ownerOf
    rw [Scatterer.mem_src, List.getD_eq_getElem?_getD, List.getElem?_eq_getElem (h x hx)]
    exact List.getElem_mem _
  exact ⟨hm, lowerBound_idxOf _ (Scatterer.src_sorted w1 q) _ hm⟩

theorem sendCount_eq (q : Nat) (h : SendOk w1 A q) :
    sendCount w1 A q = (w1.src q).map fun d => (grp (ownerOf w1 A q) (sendItems (A q)) d).length := by
  unfold sendCount
  rw [count_blocks _ (nodup_of_strict (Scatterer.src_sorted w1 q)) _ (ownerOf w1 A q) (sendPos w1 A q) (fun _ => 1)
    (fun x => [x]) (fun x hx => (sendPos_eq w1 A q h x hx).1) (fun x hx => (sendPos_eq w1 A q h x hx).2) (by simp)]
  apply List.map_congr_left
  intro d _
  simp

theorem sendBuf_eq (q : Nat) (h : SendOk w1 A q) :
    sendBuf w0 w1 bs0 bs1 A q = (w1.src q).flatMap fun d =>
      (grp (ownerOf w1 A q) (sendItems (A q)) d).map (sendRecord w0 w1 bs0 bs1 A q) := by
  have hD := nodup_of_strict (Scatterer.src_sorted w1 q)
  unfold sendBuf
  apply pack_eq _ hD _ _ _ _ (fun x hx => (sendPos_eq w1 A q h x hx).1) (fun x hx => (sendPos_eq w1 A q h x hx).2)
    _ (sendCount_eq w1 A q h)
  rw [List.length_replicate, sendCount_eq w1 A q h]
  exact sum_grp _ _ hD _ (fun x hx => (sendPos_eq w1 A q h x hx).1)

/-- Entries of rank `q` sent to rank `r`. -/
def sent (q r : Nat) : List (Nat × Nat) := grp (ownerOf w1 A q) (sendItems (A q)) r

theorem recvBuf_eq (r : Nat) (h : ∀ q, q < w1.P → SendOk w1 A q) :
    recvBuf w0 w1 bs0 bs1 A r = (w1.dest r).flatMap fun q => (sent w1 A q r).map (sendRecord w0 w1 bs0 bs1 A q) := by
  unfold recvBuf
  rw [neighborAlltoallv_eq w1.src w1.dest _ (fun q d =>
    (grp (ownerOf w1 A q) (sendItems (A q)) d).map (sendRecord w0 w1 bs0 bs1 A q)) r]
  · rfl
  · intro q hq
    have hqP := ((Scatterer.mem_dest w1 r q).mp hq).1
    rw [sendBuf_eq w0 w1 bs0 bs1 A q (h q hqP), chunks_flatMap]
    rw [sendCount_eq w1 A q (h q hqP)]
    simp
  · intro q hq; exact ((Scatterer.mem_dest w1 r q).mp hq).2

theorem recvCount_eq (r : Nat) (h : ∀ q, q < w1.P → SendOk w1 A q) :
    recvCount w1 A r = (w1.dest r).map fun q => (sent w1 A q r).length := by
  unfold recvCount neighborAlltoall
  rw [neighborAlltoallv_eq w1.src w1.dest _ (fun q d => [(grp (ownerOf w1 A q) (sendItems (A q)) d).length]) r,
    flatMap_singleton]
  · rfl
  · intro q hq
    rw [sendCount_eq w1 A q (h q ((Scatterer.mem_dest w1 r q).mp hq).1)]
    simp
  · intro q hq; exact ((Scatterer.mem_dest w1 r q).mp hq).2

theorem pairs_eq (r : Nat) (h : ∀ q, q < w1.P → SendOk w1 A q) :
    (((w1.dest r).zip (chunks (recvCount w1 A r) (recvBuf w0 w1 bs0 bs1 A r))).flatMap
      fun pb => pb.2.map fun e => (e.1, pb.1)) =
    (w1.dest r).flatMap fun q => (sent w1 A q r).map fun x => (w0.r0 q + x.1, q) := by
  rw [recvBuf_eq w0 w1 bs0 bs1 A r h, chunks_flatMap _ _ _ (by rw [recvCount_eq w1 A r h]; simp)]
  have : ∀ l : List Nat, (l.zip (l.map fun q => (sent w1 A q r).map (sendRecord w0 w1 bs0 bs1 A q))) =
      l.map fun q => (q, (sent w1 A q r).map (sendRecord w0 w1 bs0 bs1 A q)) := by
    intro l
    induction l with
    | nil => rfl
    | cons a l ih => simp [ih]
  rw [this, List.flatMap_map]
  apply List.flatMap_congr
  intro q _
  simp [sendRecord, Function.comp_def]

/-- Received records of output row `j`. -/
def recRow (r j : Nat) : List (Nat × Nat × List R) :=
  (recvBuf w0 w1 bs0 bs1 A r).filter fun e => e.2.1 - w1.r0 r == j

/-- Column and block of every entry of output row `j`: local entries, then received ones. -/
def outRow (r j : Nat) : List (Nat × (Nat → R)) :=
  (locRow (A r) j).map (fun x => (x.1, locBlk bs0 bs1 (A r) x)) ++
  (recRow w0 w1 bs0 bs1 A r j).map fun e => (newCol w0 w1 bs0 bs1 A r e, fun c => e.2.2.getD c 0)

theorem outRow_length (r j : Nat) : (outRow w0 w1 bs0 bs1 A r j).length = newRowCount w0 w1 bs0 bs1 A r j := by
  unfold outRow newRowCount
  rw [List.length_append, List.length_map, List.length_map, at0Ptr_eq, at0Ptr_eq, excl_succ, cnt_eq_length]
  unfold recRow
  omega

end

/-- The arrays of `M` are the rows `row 0, ..., row (n-1)` one after the other. -/
structure RowsAre (bs0 bs1 : Nat) (M : Mat R) (n : Nat) (row : Nat → List (Nat × (Nat → R))) : Prop where
  nrows : M.nrows = n
  ptr : ∀ j, j ≤ n → M.rowPtr j = excl (fun j => (row j).length) j
  cols : ∀ j, j < n → ∀ (t : Nat) (e : Nat × (Nat → R)), (row j)[t]? = some e → M.cols (M.rowPtr j + t) = e.1
  vals : ∀ j, j < n → ∀ (t : Nat) (e : Nat × (Nat → R)), (row j)[t]? = some e → ∀ k0 k1, k0 < bs0 → k1 < bs1 →
    M.values ((M.rowPtr j + t) * bs1 * bs0 + k1 * bs0 + k0) = e.2 (k0 * bs1 + k1)

theorem rowsAre_of (bs0 bs1 : Nat) (M : Mat R) (n : Nat) (row : Nat → List (Nat × (Nat → R))) (cols : List Nat)
    (h1 : M.nrows = n) (h2 : ∀ j, j ≤ n → M.rowPtr j = excl (fun j => (row j).length) j)
    (h3 : ∀ p, M.cols p = cols.getD p 0) (h4 : cols = (List.range n).flatMap fun j => (row j).map Prod.fst)
    (h5 : Holds bs0 bs1 M.values ((List.range n).flatMap fun j => (row j).map fun e => some e.2)) :
    RowsAre bs0 bs1 M n row := by
  refine ⟨h1, h2, ?_, ?_⟩
  · intro j hj t e he
    have ht := (List.getElem?_eq_some_iff.mp he).1
    have hl : (fun j => ((row j).map Prod.fst).length) = fun j => (row j).length := by funext j; simp
    have := getElem?_flatMap_range (fun j => (row j).map Prod.fst) (B := n) hj (k := t) (by simpa using ht)
    rw [hl, ← h2 j (by omega), List.getElem?_map, he, ← h4] at this
    rw [h3, List.getD_eq_getElem?_getD, this]; rfl
  · intro j hj t e he k0 k1 hk0 hk1
    have ht := (List.getElem?_eq_some_iff.mp he).1
    have hl : (fun j => ((row j).map fun e => some e.2).length) = fun j => (row j).length := by funext j; simp
    have := getElem?_flatMap_range (fun j => (row j).map fun e => some e.2) (B := n) hj (k := t) (by simpa using ht)
    rw [hl, ← h2 j (by omega), List.getElem?_map, he] at this
    have h6 := h5 _ _ this k0 k1 hk0 hk1
    rw [← h6]
    congr 1
    ring

section
variable [Zero R] (w0 w1 : World) (bs0 bs1 : Nat) (A : Nat → Mat R)

theorem slow_rows (r : Nat) (hloc : ∀ x ∈ localItems (A r), (A r).cols x.2 < w1.size r)
    (hrec : ∀ e ∈ recvBuf w0 w1 bs0 bs1 A r, e.2.1 - w1.r0 r < w1.size r) :
    RowsAre bs0 bs1 (slow w0 w1 bs0 bs1 A r) (w1.size r) (outRow w0 w1 bs0 bs1 A r) := by
  set n := w1.size r with hn
  obtain ⟨hc, hv⟩ := localTranspose_spec bs0 bs1 n (A r) hloc
  set at0 := localTranspose bs0 bs1 n (A r) with hat0
  set ptr0 := at0Ptr (A r) with hptr0
  set ptr := excl (newRowCount w0 w1 bs0 bs1 A r) with hptr
  have hlen0 : ∀ j, ptr0 (j + 1) - ptr0 j = (locRow (A r) j).length := by
    intro j; rw [hptr0, at0Ptr_eq, at0Ptr_eq, excl_succ]; omega
  -- rows of the local part
  have hslice : ∀ j, j < n → (at0.1.drop (ptr0 j)).take (ptr0 (j + 1) - ptr0 j) = (locRow (A r) j).map Prod.fst := by
    intro j hj
    have := slice_flatMap_range (fun j => (locRow (A r) j).map Prod.fst) n j hj
    rw [← hc] at this
    have hl : (fun b => ((locRow (A r) b).map Prod.fst).length) = fun j => (locRow (A r) j).length := by funext j; simp
    rw [hl] at this
    rw [hptr0, at0Ptr_eq, at0Ptr_eq]
    exact this
  set B0 := (List.range n).flatMap fun j => (locRow (A r) j).map fun x => some (locBlk bs0 bs1 (A r) x) with hB0
  have hB0len : B0.length = ptr0 n := by
    rw [hB0, length_flatMap_range, hptr0, at0Ptr_eq]
    apply excl_congr; intro i _; simp
  have hsliceB : ∀ j, j < n → (B0.drop (ptr0 j)).take (ptr0 (j + 1) - ptr0 j) =
      (locRow (A r) j).map fun x => some (locBlk bs0 bs1 (A r) x) := by
    intro j hj
    have := slice_flatMap_range (fun j => (locRow (A r) j).map fun x => some (locBlk bs0 bs1 (A r) x)) n j hj
    have hl : (fun b => ((locRow (A r) b).map fun x => some (locBlk bs0 bs1 (A r) x)).length) =
        fun j => (locRow (A r) j).length := by funext j; simp
    rw [hl] at this
    rw [hptr0, at0Ptr_eq, at0Ptr_eq]
    exact this
  -- the copy loop
  have hcopy : ∀ m, m ≤ n → ∀ (b : List Nat) (v : Nat → R) (B : List (Option (Nat → R))), Holds bs0 bs1 v B →
      ((List.range m).foldl (copyRow bs0 bs1 ptr0 ptr at0) (b, v)).1 =
        (List.range m).foldl (fun s i => copyAt s (ptr i) ((locRow (A r) i).map Prod.fst)) b ∧
      Holds bs0 bs1 ((List.range m).foldl (copyRow bs0 bs1 ptr0 ptr at0) (b, v)).2
        ((List.range m).foldl (fun s i => copyAt s (ptr i) ((locRow (A r) i).map fun x => some (locBlk bs0 bs1 (A r) x))) B) := by
    intro m
    induction m with
    | zero => intro _ b v B hB; exact ⟨rfl, hB⟩
    | succ m ih =>
      intro hm b v B hB
      obtain ⟨i1, i2⟩ := ih (by omega) b v B hB
      rw [List.range_succ, List.foldl_append, List.foldl_append, List.foldl_append]
      simp only [List.foldl_cons, List.foldl_nil]
      constructor
      · simp only [copyRow]
        rw [i1, hslice m (by omega)]
      · simp only [copyRow]
        rw [← hsliceB m (by omega)]
        have hmono : ptr0 m ≤ ptr0 (m + 1) := excl_mono _ (by omega)
        have e : ptr0 (m + 1) = ptr0 m + (ptr0 (m + 1) - ptr0 m) := by omega
        have := holds_copy bs0 bs1 _ at0.2 _ B0 (ptr m) (ptr0 m) (ptr0 (m + 1) - ptr0 m) i2 hv (by
          rw [hB0len, ← e]; exact excl_mono _ (by omega))
        rw [← e] at this
        exact this
  obtain ⟨c1, c2⟩ := hcopy n le_rfl (List.replicate (ptr n) 0) (fun _ => 0) (List.replicate (ptr n) none) (by
      intro p b hb
      rw [List.getElem?_replicate] at hb
      split at hb <;> simp at hb)
  generalize hs : (List.range n).foldl (copyRow bs0 bs1 ptr0 ptr at0) (List.replicate (ptr n) 0, fun _ => 0) = s at c1 c2
  obtain ⟨_, d2, d3⟩ := put_fold bs0 bs1 (fun e : Nat × Nat × List R => e.2.1 - w1.r0 r) (newCol w0 w1 bs0 bs1 A r)
    (fun e c => e.2.2.getD c 0) (fun j => ptr j + (ptr0 (j + 1) - ptr0 j)) s.1 s.2 _ c2 (recvBuf w0 w1 bs0 bs1 A r)
  -- both loops as one fill
  have key : ∀ {γ : Type} (fl : (Nat × Nat) → γ) (fr : (Nat × Nat × List R) → γ) (z : γ),
      (fill (fun e : Nat × Nat × List R => e.2.1 - w1.r0 r) fr (fun j => ptr j + (ptr0 (j + 1) - ptr0 j))
        ((List.range n).foldl (fun s i => copyAt s (ptr i) ((locRow (A r) i).map fl)) (List.replicate (ptr n) z))
        (recvBuf w0 w1 bs0 bs1 A r)).2 =
      (List.range n).flatMap fun j => (locRow (A r) j).map fl ++ (recRow w0 w1 bs0 bs1 A r j).map fr := by
    intro γ fl fr z
    set I1 : List (Nat × γ) := (List.range n).flatMap fun i => ((locRow (A r) i).map fl).map fun y => (i, y) with hI1
    set I2 : List (Nat × γ) := (recvBuf w0 w1 bs0 bs1 A r).map fun e => (e.2.1 - w1.r0 r, fr e) with hI2
    have hfil1 : ∀ j, j < n → I1.filter (fun x => x.1 == j) = (locRow (A r) j).map fun x => (j, fl x) := by
      intro j hj
      rw [hI1, List.filter_flatMap, Csr.flatMap_range_if n j _ hj]
      · rw [List.filter_eq_self.mpr]
        · simp [Function.comp_def]
        · intro x hx
          obtain ⟨y, _, rfl⟩ := List.mem_map.mp hx
          simp
      · intro i _ hne
        rw [List.filter_eq_nil_iff]
        intro x hx
        obtain ⟨y, _, rfl⟩ := List.mem_map.mp hx
        simp [hne]
    have hfil2 : ∀ j, I2.filter (fun x => x.1 == j) = (recRow w0 w1 bs0 bs1 A r j).map fun e => (e.2.1 - w1.r0 r, fr e) := by
      intro j
      rw [hI2, List.filter_map]
      rfl
    have hcnt : ∀ j, j < n → cnt Prod.fst (I1 ++ I2) j = newRowCount w0 w1 bs0 bs1 A r j := by
      intro j hj
      rw [cnt_eq_length, List.filter_append, hfil1 j hj, hfil2, ← outRow_length]
      simp [outRow]
    have hkey : ∀ x ∈ I1 ++ I2, x.1 < n := by
      intro x hx
      rcases List.mem_append.mp hx with h | h
      · obtain ⟨i, hi, h⟩ := List.mem_flatMap.mp h
        obtain ⟨y, _, rfl⟩ := List.mem_map.mp h
        exact List.mem_range.mp hi
      · obtain ⟨e, he, rfl⟩ := List.mem_map.mp h
        exact hrec e he
    have hptrn : ∀ j, j ≤ n → ptr j = excl (cnt Prod.fst (I1 ++ I2)) j := by
      intro j hj
      rw [hptr]
      apply excl_congr
      intro i hi
      exact (hcnt i (by omega)).symm
    have hfill : ∀ (c c' : Nat → Nat), (∀ j, j < n → c j = c' j) → ∀ (l : List (Nat × γ)), (∀ x ∈ l, x.1 < n) → ∀ buf,
        (fill Prod.fst Prod.snd c buf l).2 = (fill Prod.fst Prod.snd c' buf l).2 ∧
        ∀ j, j < n → (fill Prod.fst Prod.snd c buf l).1 j = (fill Prod.fst Prod.snd c' buf l).1 j := by
      intro c c' hcc l hl buf
      refine ⟨?_, fun j hj => by rw [fill_cursor, fill_cursor, hcc j hj]⟩
      induction l using List.reverseRecOn with
      | nil => rfl
      | append_singleton l x ih =>
        rw [fill_append_singleton, fill_append_singleton]
        simp only [fillStep]
        rw [ih (fun y hy => hl y (by simp [hy])), fill_cursor, fill_cursor, hcc x.1 (hl x (by simp))]
    have happ : ∀ (c : Nat → Nat) (b : List γ) (l₁ l₂ : List (Nat × γ)), fill Prod.fst Prod.snd c b (l₁ ++ l₂) =
        fill Prod.fst Prod.snd (fill Prod.fst Prod.snd c b l₁).1 (fill Prod.fst Prod.snd c b l₁).2 l₂ := by
      intro c b l₁ l₂; unfold fill; rw [List.foldl_append]
    have hfin := fill_eq_buckets (Prod.fst : Nat × γ → Nat) Prod.snd (List.replicate (ptr n) z) (I1 ++ I2) n hkey (by
      rw [List.length_replicate, hptrn n le_rfl, excl_cnt_total _ _ _ hkey])
    have hcur : ∀ j, j < n → (if j < n then ptr j + ((locRow (A r) j).map fl).length else ptr j) =
        ptr j + (ptr0 (j + 1) - ptr0 j) := by
      intro j hj
      rw [if_pos hj, hlen0, List.length_map]
    rw [← (hfill ptr _ (fun j hj => hptrn j (by omega)) (I1 ++ I2) hkey _).1, happ, hI1, rows_fill] at hfin
    simp only at hfin
    rw [← hI1, (hfill _ _ hcur I2 (fun x hx => hkey x (by simp [hx])) _).1, hI2, fill_map, ← hI2] at hfin
    refine hfin.trans ?_
    apply List.flatMap_congr
    intro j hj
    rw [List.filter_append, hfil1 j (List.mem_range.mp hj), hfil2, List.map_append, List.map_map, List.map_map]
    rfl
  have hs' : slow w0 w1 bs0 bs1 A r = ⟨n, ptr, fun j => ptr j + (ptr0 (j + 1) - ptr0 j),
      fun p => ((recvBuf w0 w1 bs0 bs1 A r).foldl
        (putStep bs0 bs1 (fun e => e.2.1 - w1.r0 r) (newCol w0 w1 bs0 bs1 A r) fun e c => e.2.2.getD c 0)
        (fun j => ptr j + (ptr0 (j + 1) - ptr0 j), s.1, s.2)).2.1.getD p 0,
      ((recvBuf w0 w1 bs0 bs1 A r).foldl
        (putStep bs0 bs1 (fun e => e.2.1 - w1.r0 r) (newCol w0 w1 bs0 bs1 A r) fun e c => e.2.2.getD c 0)
        (fun j => ptr j + (ptr0 (j + 1) - ptr0 j), s.1, s.2)).2.2⟩ := by
    rw [← hs]; rfl
  rw [hs']
  refine rowsAre_of bs0 bs1 _ n _ _ rfl ?_ (fun p => rfl) ?_ ?_
  · intro j _
    show ptr j = _
    rw [hptr]
    apply excl_congr
    intro i _
    exact (outRow_length w0 w1 bs0 bs1 A r i).symm
  · rw [d2, c1, key Prod.fst (newCol w0 w1 bs0 bs1 A r) 0]
    apply List.flatMap_congr
    intro j _
    simp [outRow, Function.comp_def]
  · rw [key (fun x => some (locBlk bs0 bs1 (A r) x)) (fun e => some fun c => e.2.2.getD c 0) none] at d3
    have : ((List.range n).flatMap fun j => (outRow w0 w1 bs0 bs1 A r j).map fun e => some e.2) =
        (List.range n).flatMap fun j => (locRow (A r) j).map (fun x => some (locBlk bs0 bs1 (A r) x)) ++
          (recRow w0 w1 bs0 bs1 A r j).map fun e => some fun c => e.2.2.getD c 0 := by
      apply List.flatMap_congr
      intro j _
      simp [outRow, Function.comp_def]
    rw [this]
    exact d3

/-- A rank without neighbours receives nothing. -/
theorem fast_recv (r : Nat) (hf : fast w1 r = true) (hdest : ∀ q, q ∉ w1.dest r) (h : ∀ q, q < w1.P → SendOk w1 A q) :
    recvBuf w0 w1 bs0 bs1 A r = [] := by
  rw [recvBuf_eq w0 w1 bs0 bs1 A r h, List.flatMap_eq_nil_iff]
  intro q hq
  exact absurd hq (hdest q)

end

end Verif.Transpose
