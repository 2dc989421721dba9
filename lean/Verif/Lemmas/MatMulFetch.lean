import Verif.Model.MatMul
import Verif.Lemmas.Transpose
import Verif.Lemmas.SubMap
import Verif.Spec.SubMap
import Verif.Props.C19_SpMV
import Verif.Props.C29_SubMap
/-! Fetching the rows of `B` for the ghost columns of `A`. -/
namespace Verif.MatMul
open Verif.Std Verif.Exchange Verif.Offsets Verif.World Verif.SpMV Verif.MatScatter Verif.Group Verif.Spec Verif.RowPack
open Verif.Props (MatOk range_unique)

variable {R : Type}

/-- Only the cursors of occurring keys matter. -/
theorem fill_congr_lt {α β : Type} (key : α → Nat) (val : α → β) (n : Nat) (c c' : Nat → Nat) (h : ∀ j, j < n → c j = c' j)
    (l : List α) (hl : ∀ x ∈ l, key x < n) (buf : List β) : (fill key val c buf l).2 = (fill key val c' buf l).2 := by
  induction l using List.reverseRecOn with
  | nil => rfl
  | append_singleton l x ih =>
    rw [fill_append_singleton, fill_append_singleton]
    simp only [fillStep]
    rw [ih (fun y hy => hl y (by simp [hy])), fill_cursor, fill_cursor, h _ (hl x (by simp))]

/-- Slices of a concatenation along a list. -/
theorem slice_list {α β : Type} (L : List α) (f : α → List β) (p : Nat) (x : α) (hx : L[p]? = some x) :
    ((L.flatMap f).drop (excl (fun p => (L.map fun a => (f a).length).getD p 0) p)).take
      (excl (fun p => (L.map fun a => (f a).length).getD p 0) (p + 1) -
        excl (fun p => (L.map fun a => (f a).length).getD p 0) p) = f x := by
  have hp := (List.getElem?_eq_some_iff.mp hx).1
  set g : Nat → List β := fun p => (L[p]?.map f).getD [] with hg
  have hc : (fun p => (L.map fun a => (f a).length).getD p 0) = fun p => (g p).length := by
    funext p
    rw [List.getD_eq_getElem?_getD, List.getElem?_map, hg]
    simp only []
    cases L[p]? <;> rfl
  have hL : L.flatMap f = (List.range L.length).flatMap g := by
    symm
    apply flatMap_range_getElem
    intro b d hb
    rw [hg]; simp [hb]
  rw [hc, hL, slice_flatMap_range g L.length p hp, hg]
  simp [hx]

section
variable (wA wR wC : World) (B : Nat → Mat R)

/-- Owner and global index of ghost `i`. -/
def own (q i : Nat) : Nat := (wA.owners q).getD i 0
def gh (q i : Nat) : Nat := (wA.ghosts q).getD i 0

/-- Ghost positions in the order of the send buffer. -/
def sendOrder (q : Nat) : List Nat := (wA.src q).flatMap fun d => grp (own wA q) (List.range (wA.owners q).length) d

theorem nbr_eq (q i : Nat) (hi : i ∈ List.range (wA.owners q).length) :
    own wA q i ∈ wA.src q ∧ nbr wA q i = (wA.src q).idxOf (own wA q i) := by
  have hm : own wA q i ∈ wA.src q := by
    unfold own
    rw [Scatterer.mem_src, List.getD_eq_getElem?_getD, List.getElem?_eq_getElem (List.mem_range.mp hi)]
    exact List.getElem_mem _
  exact ⟨hm, lowerBound_idxOf _ (Scatterer.src_sorted wA q) _ hm⟩

theorem src_nodup (q : Nat) : (wA.src q).Nodup := nodup_of_strict (Scatterer.src_sorted wA q)

theorem sendCount_eq (q : Nat) : sendCount wA q =
    (wA.src q).map fun d => (grp (own wA q) (List.range (wA.owners q).length) d).length := by
  unfold sendCount
  rw [count_blocks _ (src_nodup wA q) _ (own wA q) (nbr wA q) (fun _ => 1)
    (fun x => [x]) (fun x hx => (nbr_eq wA q x hx).1) (fun x hx => (nbr_eq wA q x hx).2) (by simp)]
  apply List.map_congr_left
  intro d _
  simp

theorem permLoop_eq (q n : Nat) (cur : Nat → Nat) (buf : List Nat) :
    (List.range n).foldl (permStep wA q) ((cur, buf), []) =
      (fill (nbr wA q) (gh wA q) cur buf (List.range n),
       (List.range n).map fun i => cur (nbr wA q i) + cnt (nbr wA q) (List.range i) (nbr wA q i)) := by
  induction n with
  | zero => rfl
  | succ n ih =>
    rw [List.range_succ, List.foldl_append, ih, fill_append_singleton, List.map_append]
    simp only [List.foldl_cons, List.foldl_nil, permStep, List.map_cons, List.map_nil]
    rw [fill_cursor]
    rfl

theorem perm_length (q : Nat) : (perm wA q).length = (wA.owners q).length := by
  unfold perm permLoop
  rw [permLoop_eq]; simp

theorem required_eq (q : Nat) (hlen : (wA.owners q).length = (wA.ghosts q).length) :
    required wA q = (wA.src q).flatMap fun d => (grp (own wA q) (List.range (wA.owners q).length) d).map (gh wA q) := by
  unfold required permLoop
  rw [permLoop_eq]
  exact pack_eq _ (src_nodup wA q) _ _ _ _ (fun x hx => (nbr_eq wA q x hx).1) (fun x hx => (nbr_eq wA q x hx).2)
    _ (sendCount_eq wA q) _ (by simp [hlen])

/-- `perm[i]` is the position of ghost `i` in the send buffer. -/
theorem perm_spec (q i : Nat) (hi : i < (wA.owners q).length) :
    (sendOrder wA q)[(perm wA q).getD i 0]? = some i := by
  set n := (wA.owners q).length with hn
  set D := wA.src q with hD
  have hfil : ∀ (b d : Nat), D[b]? = some d → (List.range n).filter (fun x => nbr wA q x == b) = grp (own wA q) (List.range n) d := by
    intro b d hb
    unfold grp
    apply List.filter_congr
    intro x hx
    obtain ⟨h1, h2⟩ := nbr_eq wA q x hx
    rw [h2, Bool.eq_iff_iff, beq_iff_eq, decide_eq_true_eq]
    obtain ⟨hlt, hget⟩ := List.getElem?_eq_some_iff.mp hb
    constructor
    · intro e
      have h3 := List.getElem?_idxOf h1
      rw [e, ← hD, hb] at h3
      exact (Option.some.inj h3).symm
    · intro e
      rw [e, ← hget]
      exact (src_nodup wA q).idxOf_getElem _ hlt
  have hL : sendOrder wA q = (List.range D.length).flatMap fun b => (List.range n).filter (fun x => nbr wA q x == b) := by
    unfold sendOrder
    symm
    exact flatMap_range_getElem _ _ _ hfil
  obtain ⟨hm, hnb⟩ := nbr_eq wA q i (List.mem_range.mpr hi)
  have hb : nbr wA q i < D.length := by rw [hnb]; exact List.idxOf_lt_length_of_mem hm
  have hperm : (perm wA q).getD i 0 = ((sendCount wA q).take (nbr wA q i)).sum + cnt (nbr wA q) (List.range i) (nbr wA q i) := by
    unfold perm permLoop
    rw [permLoop_eq, List.getD_eq_getElem?_getD, List.getElem?_map, List.getElem?_range hi]
    rfl
  have hsum : ((sendCount wA q).take (nbr wA q i)).sum =
      excl (fun b => ((List.range n).filter (fun x => nbr wA q x == b)).length) (nbr wA q i) := by
    rw [take_sum_excl]
    apply excl_congr
    intro b hbb
    have hbD : b < D.length := by omega
    rw [sendCount_eq, List.getD_eq_getElem?_getD, List.getElem?_map, List.getElem?_eq_getElem hbD]
    simp only [Option.map_some, Option.getD_some]
    rw [hfil b D[b] (List.getElem?_eq_getElem hbD)]
  have hsplit : List.range n = List.range i ++ i :: (List.range' (i + 1) (n - i - 1)) := by
    rw [List.range_eq_range', List.range_eq_range']
    have : n = i + (1 + (n - i - 1)) := by omega
    conv_lhs => rw [this]
    rw [← List.range'_append_1, ← List.range'_append_1]
    simp
  have hget : ((List.range n).filter (fun x => nbr wA q x == nbr wA q i))[cnt (nbr wA q) (List.range i) (nbr wA q i)]? = some i := by
    rw [hsplit, List.filter_append, cnt_eq_length, List.getElem?_append_right (le_refl _)]
    simp
  rw [hperm, hsum, hL, getElem?_flatMap_range (fun b => (List.range n).filter (fun x => nbr wA q x == b)) hb
    (List.getElem?_eq_some_iff.mp hget).1]
  exact hget

theorem sendOrder_perm (q : Nat) : (sendOrder wA q).Perm (List.range (wA.owners q).length) := by
  have := stableSorted_flatMap_keys (key := own wA q) (inp := List.range (wA.owners q).length)
    (Scatterer.src_sorted wA q) (fun x hx => (nbr_eq wA q x hx).1)
  exact this.perm

/-! ### Requests and answers -/

/-- Local row of `B` on `s` for ghost `i` of `q`. -/
def loc (s q i : Nat) : Nat := ((wR.map s).globalToLocal (gh wA q i : Int)).toNat

theorem recvCount_eq (r : Nat) : recvCount wA r =
    (wA.dest r).map fun q => (grp (own wA q) (List.range (wA.owners q).length) r).length := by
  unfold recvCount neighborAlltoall
  rw [neighborAlltoallv_eq wA.src wA.dest _
    (fun q d => [(grp (own wA q) (List.range (wA.owners q).length) d).length]) r, flatMap_singleton]
  · intro q _
    rw [sendCount_eq]; simp
  · intro q hq; exact ((Scatterer.mem_dest wA r q).mp hq).2

variable (hlen : ∀ q, q < wA.P → (wA.owners q).length = (wA.ghosts q).length)
include hlen

theorem recvLocals_eq (r : Nat) : recvLocals wA wR r =
    (wA.dest r).flatMap fun q => (grp (own wA q) (List.range (wA.owners q).length) r).map (loc wA wR r q) := by
  unfold recvLocals
  rw [neighborAlltoallv_eq wA.src wA.dest _
    (fun q d => (grp (own wA q) (List.range (wA.owners q).length) d).map (gh wA q)) r, List.map_flatMap]
  · apply List.flatMap_congr
    intro q _
    rw [List.map_map]; rfl
  · intro q hq
    rw [required_eq wA q (hlen q ((Scatterer.mem_dest wA r q).mp hq).1), chunks_flatMap]
    rw [sendCount_eq]; simp
  · intro q hq; exact ((Scatterer.mem_dest wA r q).mp hq).2

theorem chunks_locals (r : Nat) : chunks (recvCount wA r) (recvLocals wA wR r) =
    (wA.dest r).map fun q => (grp (own wA q) (List.range (wA.owners q).length) r).map (loc wA wR r q) := by
  rw [recvLocals_eq wA wR hlen, chunks_flatMap]
  rw [recvCount_eq]; simp

/-- The row of `B` fetched for ghost `i` of `r`. -/
def fetched (r i : Nat) : List (R × Nat × Nat) := rowRecord wC B (own wA r i) (loc wA wR (own wA r i) r i)

omit hlen in
theorem rowRecord_length (s j : Nat) : (rowRecord wC B s j).length = rowSize (B s) j := by simp [rowRecord]

omit hlen in
theorem grp_own {γ : Type} (r : Nat) (f : Nat → Nat → List γ) :
    ((wA.src r).flatMap fun s => (grp (own wA r) (List.range (wA.owners r).length) s).flatMap (f s)) =
      (sendOrder wA r).flatMap fun i => f (own wA r i) i := by
  unfold sendOrder
  rw [List.flatMap_assoc]
  apply List.flatMap_congr
  intro s _
  apply List.flatMap_congr
  intro i hi
  rw [((mem_grp _ _ _ _).mp hi).2]

theorem recvEntries_eq (r : Nat) (hr : r < wA.P) :
    recvEntries wA wR wC B r = (sendOrder wA r).flatMap (fetched wA wR wC B r) := by
  unfold recvEntries
  rw [neighborAlltoallv_eq wA.dest wA.src _ (fun s q =>
    (grp (own wA q) (List.range (wA.owners q).length) s).flatMap fun i => rowRecord wC B s (loc wA wR s q i)) r]
  · exact grp_own wA r (fun s i => rowRecord wC B s (loc wA wR s r i))
  · intro s _
    have : sendEntries wA wR wC B s = (wA.dest s).flatMap fun q =>
        (grp (own wA q) (List.range (wA.owners q).length) s).flatMap fun i => rowRecord wC B s (loc wA wR s q i) := by
      unfold sendEntries
      rw [recvLocals_eq wA wR hlen, List.flatMap_assoc]
      apply List.flatMap_congr
      intro q _
      rw [List.flatMap_map]
    rw [this, chunks_flatMap]
    unfold sendEntryCount
    rw [chunks_locals wA wR hlen, List.map_map]
    apply List.map_congr_left
    intro q _
    simp [List.length_flatMap, rowRecord_length, Function.comp_def]
  · intro s hs
    exact (Scatterer.mem_dest wA s r).mpr ⟨hr, hs⟩

theorem recvRowSize_eq (r : Nat) (hr : r < wA.P) :
    recvRowSize wA wR B r = (sendOrder wA r).map fun i => (fetched wA wR wC B r i).length := by
  unfold recvRowSize
  rw [neighborAlltoallv_eq wA.dest wA.src _ (fun s q =>
    (grp (own wA q) (List.range (wA.owners q).length) s).flatMap fun i => [rowSize (B s) (loc wA wR s q i)]) r]
  · rw [grp_own wA r (fun s i => [rowSize (B s) (loc wA wR s r i)]), flatMap_singleton]
    apply List.map_congr_left
    intro i _
    simp [fetched, rowRecord_length]
  · intro s _
    have : (recvLocals wA wR s).map (rowSize (B s)) = (wA.dest s).flatMap fun q =>
        (grp (own wA q) (List.range (wA.owners q).length) s).flatMap fun i => [rowSize (B s) (loc wA wR s q i)] := by
      rw [recvLocals_eq wA wR hlen, List.map_flatMap]
      apply List.flatMap_congr
      intro q _
      rw [flatMap_singleton, List.map_map]; rfl
    rw [this, chunks_flatMap]
    rw [recvCount_eq]
    apply List.map_congr_left
    intro q _
    simp [List.length_flatMap]
  · intro s hs
    exact (Scatterer.mem_dest wA s r).mpr ⟨hr, hs⟩

theorem origPtr_eq (r : Nat) (hr : r < wA.P) (i : Nat) (hi : i ≤ (wA.owners r).length) :
    origPtr wA wR B r i = excl (fun i => (fetched wA wR wC B r i).length) i := by
  unfold origPtr
  apply excl_congr
  intro j hj
  rw [recvRowSize_eq wA wR wC B hlen r hr, List.getD_eq_getElem?_getD, List.getElem?_map, perm_spec wA r j (by omega)]
  rfl

theorem reorder_eq {γ : Type} (r : Nat) (hr : r < wA.P) (z : γ) (g : (R × Nat × Nat) → γ) :
    reorder wA wR B r z ((recvEntries wA wR wC B r).map g) =
      (List.range (wA.owners r).length).flatMap fun i => (fetched wA wR wC B r i).map g := by
  set n := (wA.owners r).length with hn
  have hbuf : (recvEntries wA wR wC B r).map g = (sendOrder wA r).flatMap fun i => (fetched wA wR wC B r i).map g := by
    rw [recvEntries_eq wA wR wC B hlen r hr, List.map_flatMap]
  have hsz : recvRowSize wA wR B r = (sendOrder wA r).map fun i => ((fetched wA wR wC B r i).map g).length := by
    rw [recvRowSize_eq wA wR wC B hlen r hr]; simp
  have hfold : reorder wA wR B r z ((recvEntries wA wR wC B r).map g) =
      (List.range n).foldl (fun s i => copyAt s (excl (fun i => ((fetched wA wR wC B r i).map g).length) i)
        ((fetched wA wR wC B r i).map g)) (List.replicate ((recvEntries wA wR wC B r).map g).length z) := by
    unfold reorder
    rw [perm_length]
    apply List.foldl_ext
    intro s i hi
    have hi := List.mem_range.mp hi
    simp only
    rw [hsz, hbuf, slice_list _ (fun i => (fetched wA wR wC B r i).map g) _ i (perm_spec wA r i hi),
      origPtr_eq wA wR wC B hlen r hr i (by omega)]
    simp
  rw [hfold]
  have := Transpose.rows_fill n (excl (fun i => ((fetched wA wR wC B r i).map g).length))
    (fun i => (fetched wA wR wC B r i).map g) (List.replicate ((recvEntries wA wR wC B r).map g).length z)
  have h2 := congrArg Prod.snd this
  simp only at h2
  rw [← h2]
  set I : List (Nat × γ) := (List.range n).flatMap fun i => ((fetched wA wR wC B r i).map g).map fun y => (i, y) with hI
  have hfil : ∀ j, j < n → I.filter (fun x => x.1 == j) = ((fetched wA wR wC B r j).map g).map fun y => (j, y) := by
    intro j hj
    rw [hI, List.filter_flatMap, Csr.flatMap_range_if n j _ hj]
    · rw [List.filter_eq_self.mpr]
      intro x hx
      obtain ⟨y, _, rfl⟩ := List.mem_map.mp hx
      simp
    · intro i _ hne
      rw [List.filter_eq_nil_iff]
      intro x hx
      obtain ⟨y, _, rfl⟩ := List.mem_map.mp hx
      simp [hne]
  have hkey : ∀ x ∈ I, x.1 < n := by
    intro x hx
    obtain ⟨i, hi, hx⟩ := List.mem_flatMap.mp hx
    obtain ⟨y, _, rfl⟩ := List.mem_map.mp hx
    exact List.mem_range.mp hi
  have hcur : ∀ j, j ≤ n → excl (fun i => ((fetched wA wR wC B r i).map g).length) j = excl (cnt Prod.fst I) j := by
    intro j hj
    apply excl_congr
    intro i hi
    rw [cnt_eq_length, hfil i (by omega)]; simp
  have hlenI : ((recvEntries wA wR wC B r).map g).length = I.length := by
    rw [hbuf, hI, List.length_flatMap, List.length_flatMap]
    simp only [List.length_map]
    exact ((sendOrder_perm wA r).map _).sum_eq
  have hfin := fill_eq_buckets (Prod.fst : Nat × γ → Nat) Prod.snd
    (List.replicate ((recvEntries wA wR wC B r).map g).length z) I n hkey (by rw [List.length_replicate, hlenI])
  rw [fill_congr_lt _ _ n _ _ (fun j hj => hcur j (by omega)) I hkey, hfin]
  apply List.flatMap_congr
  intro j hj
  rw [hfil j (List.mem_range.mp hj), List.map_map]
  simp [Function.comp_def]

end
end Verif.MatMul
