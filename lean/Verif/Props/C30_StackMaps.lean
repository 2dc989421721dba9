import Verif.Model.StackMaps
import Verif.Lemmas.ArrayFold
import Verif.Lemmas.Pack
import Verif.Props.C28_OwnedIndices
/-!
# C30: `stack_index_maps`
-/
namespace Verif.Props
open Verif.World Verif.StackMaps Verif.Exchange Verif.Std Verif.Group Verif.Offsets Verif.Scatterer

/-! ## Specification -/

/-- Owned entries of map `m` on rank `q`, as (map, global index in that map, component). -/
def mapEntries (s : Maps) (q m : Nat) : List (Nat × Nat × Nat) :=
  (List.range ((s.w m).size q)).flatMap fun i => (List.range (s.bs m)).map fun k => (m, (s.w m).r0 q + i, k)

/-- All entries: rank by rank, map by map, index by index. -/
def stacked (s : Maps) : List (Nat × Nat × Nat) :=
  (List.range s.P).flatMap fun q => (List.range s.M).flatMap fun m => mapEntries s q m

structure MapsOk (s : Maps) : Prop where
  size : ∀ m, m < s.M → (s.w m).P = s.P
  valid : ∀ m, m < s.M → (s.w m).Valid

/-! ## Positions -/

theorem mapEntries_length (s : Maps) (q m : Nat) : (mapEntries s q m).length = s.bs m * (s.w m).size q := by
  unfold mapEntries
  rw [length_flatMap_const _ _ (s.bs m) (by intros; simp), List.length_range, Nat.mul_comm]

theorem mapEntries_get (s : Maps) (q m i k : Nat) (hi : i < (s.w m).size q) (hk : k < s.bs m) :
    (mapEntries s q m)[s.bs m * i + k]? = some (m, (s.w m).r0 q + i, k) := by
  unfold mapEntries
  have h := getElem?_flatMap_range (fun i => (List.range (s.bs m)).map fun k => (m, (s.w m).r0 q + i, k)) hi (k := k) (by simpa using hk)
  have he : excl (fun b => ((List.range (s.bs m)).map fun k => (m, (s.w m).r0 q + b, k)).length) i = s.bs m * i := by
    have : ∀ n, excl (fun _ => s.bs m) n = s.bs m * n := by
      intro n
      induction n with
      | zero => simp
      | succ n ih => rw [excl_succ, ih]; ring
    simpa using this i
  rw [he] at h
  rw [h]
  simp [hk]

theorem rank_length (s : Maps) (q M : Nat) :
    ((List.range M).flatMap fun m => mapEntries s q m).length = s.localOffset q M := by
  rw [length_flatMap_range]
  unfold Maps.localOffset
  apply excl_congr
  intro m _
  exact mapEntries_length s q m

theorem offsets_step (s : Maps) (r M : Nat) :
    excl (fun m => (s.w m).r0 (r + 1) * s.bs m) M =
      excl (fun m => (s.w m).r0 r * s.bs m) M + excl (fun i => s.bs i * (s.w i).size r) M := by
  induction M with
  | zero => rfl
  | succ M ih =>
    rw [excl_succ, excl_succ, excl_succ, ih]
    unfold World.r0
    rw [excl_succ]; ring

theorem offsets_zero (s : Maps) (M : Nat) : excl (fun m => (s.w m).r0 0 * s.bs m) M = 0 := by
  induction M with
  | zero => rfl
  | succ M ih => rw [excl_succ, ih]; simp [World.r0]

theorem processOffset_eq (s : Maps) (r : Nat) : s.processOffset r = excl (fun q => s.localOffset q s.M) r := by
  have h1 : ∀ M, (List.range M).foldl (fun c m => c + (s.w m).r0 r * s.bs m) 0 = excl (fun m => (s.w m).r0 r * s.bs m) M := by
    intro M
    induction M with
    | zero => rfl
    | succ M ih => rw [List.range_succ, List.foldl_append, ih, excl_succ]; rfl
  unfold Maps.processOffset
  rw [h1]
  clear h1
  induction r with
  | zero => rw [offsets_zero]; rfl
  | succ r ih => rw [offsets_step, ih, excl_succ]; rfl

theorem stacked_get (s : Maps) (q m i k : Nat) (hq : q < s.P) (hm : m < s.M) (hi : i < (s.w m).size q) (hk : k < s.bs m) :
    (stacked s)[s.bs m * i + (s.localOffset q m + s.processOffset q) + k]? = some (m, (s.w m).r0 q + i, k) := by
  have hlen : s.bs m * i + k < (mapEntries s q m).length := (List.getElem?_eq_some_iff.mp (mapEntries_get s q m i k hi hk)).1
  have h1 := getElem?_flatMap_range (fun m => mapEntries s q m) hm hlen
  rw [mapEntries_get s q m i k hi hk] at h1
  have h2 := getElem?_flatMap_range (fun q => (List.range s.M).flatMap fun m => mapEntries s q m) hq
    (List.getElem?_eq_some_iff.mp h1).1
  rw [h1] at h2
  unfold stacked
  rw [← h2]
  congr 1
  have e1 : excl (fun m => (mapEntries s q m).length) m = s.localOffset q m := excl_congr (fun i _ => mapEntries_length s q i)
  have e2 : excl (fun q => ((List.range s.M).flatMap fun m => mapEntries s q m).length) q = s.processOffset q := by
    rw [processOffset_eq]
    exact excl_congr (fun i _ => rank_length s i s.M)
  rw [e1, e2]; omega

theorem mem_stacked (s : Maps) (m g k : Nat) :
    (m, g, k) ∈ stacked s ↔ m < s.M ∧ k < s.bs m ∧ ∃ q, q < s.P ∧ (s.w m).r0 q ≤ g ∧ g < (s.w m).r0 q + (s.w m).size q := by
  unfold stacked mapEntries
  simp only [List.mem_flatMap, List.mem_range, List.mem_map, Prod.mk.injEq]
  constructor
  · rintro ⟨q, hq, m', hm, i, hi, k', hk, rfl, rfl, rfl⟩
    exact ⟨hm, hk, q, hq, by omega, by omega⟩
  · rintro ⟨hm, hk, q, hq, h1, h2⟩
    exact ⟨q, hq, m, hm, g - (s.w m).r0 q, by omega, k, hk, rfl, by omega, rfl⟩

theorem stacked_nodup (s : Maps) : (stacked s).Nodup := by
  unfold stacked
  rw [List.nodup_flatMap]
  constructor
  · intro q _
    rw [List.nodup_flatMap]
    constructor
    · intro m _
      unfold mapEntries
      rw [List.nodup_flatMap]
      constructor
      · intro i _
        exact List.nodup_range.map (fun a b h => by simpa using h)
      · refine List.Pairwise.imp ?_ List.nodup_range
        intro a b hab x hx hx'
        obtain ⟨k, _, rfl⟩ := List.mem_map.mp hx
        obtain ⟨k', _, h⟩ := List.mem_map.mp hx'
        simp only [Prod.mk.injEq] at h
        omega
    · refine List.Pairwise.imp ?_ List.nodup_range
      intro a b hab x hx hx'
      unfold mapEntries at hx hx'
      simp only [List.mem_flatMap, List.mem_map] at hx hx'
      obtain ⟨_, _, _, _, rfl⟩ := hx
      obtain ⟨_, _, _, _, h⟩ := hx'
      simp only [Prod.mk.injEq] at h
      omega
  · refine List.Pairwise.imp ?_ List.nodup_range
    intro a b hab x hx hx'
    unfold mapEntries at hx hx'
    simp only [List.mem_flatMap, List.mem_map, List.mem_range] at hx hx'
    obtain ⟨m, _, i, hi, _, _, rfl⟩ := hx
    obtain ⟨m', _, i', hi', _, _, h⟩ := hx'
    simp only [Prod.mk.injEq] at h
    obtain ⟨rfl, h, _⟩ := h
    exact hab (range_unique (s.w m') (q := a) (r := b) (g := (s.w m').r0 a + i) (by omega) (by omega))

/-! ## Exchange -/

theorem pushAll_get {β : Type} (n : Nat) (ps : List (Nat × β)) (j : Nat) (hj : j < n) :
    (pushAll n ps)[j]? = some ((grp Prod.fst ps j).map Prod.snd) := by
  have : ∀ (ps : List (Nat × β)) (v : List (List β)), (ps.foldl (fun v p => v.modify p.1 (· ++ [p.2])) v)[j]? =
      v[j]?.map fun l => l ++ (grp Prod.fst ps j).map Prod.snd := by
    intro ps
    induction ps with
    | nil => intro v; simp [grp]
    | cons p ps ih =>
      intro v
      rw [List.foldl_cons, ih, List.getElem?_modify]
      cases v[j]? with
      | none => rfl
      | some l =>
        by_cases h : p.1 = j
        · simp [grp, h]
        · simp [grp, h]
  unfold pushAll
  rw [this, List.getElem?_replicate, if_pos hj]
  simp

theorem pushAll_length {β : Type} (n : Nat) (ps : List (Nat × β)) : (pushAll n ps).length = n := by
  unfold pushAll
  have : ∀ (ps : List (Nat × β)) (v : List (List β)), (ps.foldl (fun v p => v.modify p.1 (· ++ [p.2])) v).length = v.length := by
    intro ps
    induction ps with
    | nil => intro v; rfl
    | cons p ps ih => intro v; rw [List.foldl_cons, ih]; simp
  rw [this]; simp

theorem ssrc_sorted (s : Maps) (r : Nat) : (s.src r).Pairwise (· < ·) := unique_sortNat_sorted _

theorem mem_ssrc (s : Maps) (r q : Nat) : q ∈ s.src r ↔ ∃ m, m < s.M ∧ q ∈ (s.w m).owners r := by
  unfold Maps.src
  rw [mem_unique_sortNat, List.mem_flatMap]
  simp only [List.mem_range, mem_src]

theorem mem_sdest (s : Maps) (h : MapsOk s) (r q : Nat) : q ∈ s.dest r ↔ q < s.P ∧ r ∈ s.src q := by
  unfold Maps.dest
  rw [mem_unique_sortNat, List.mem_flatMap, mem_ssrc]
  simp only [List.mem_range, Scatterer.mem_dest, mem_src]
  constructor
  · rintro ⟨m, hm, h1, h2⟩
    exact ⟨by rw [← h.size m hm]; exact h1, m, hm, h2⟩
  · rintro ⟨h1, m, hm, h2⟩
    exact ⟨m, hm, by rw [h.size m hm]; exact h1, h2⟩

theorem bucket_pushAll {β : Type} (s : Maps) (h : MapsOk s) (m q : Nat) (hm : m < s.M) (hq : q < s.P) (f : Nat → β) :
    pushAll (s.src q).length ((List.range ((s.w m).ghosts q).length).map fun i => (s.bucket m q i, f i)) =
      (s.src q).map fun t => (gpos ((s.w m).owners q) t).map f := by
  have hlen := (h.valid m hm).len q (by rw [h.size m hm]; exact hq)
  apply List.ext_getElem?
  intro j
  by_cases hj : j < (s.src q).length
  · rw [pushAll_get _ _ j hj, List.getElem?_map, List.getElem?_eq_getElem hj]
    simp only [Option.map_some, Option.some.injEq]
    unfold grp gpos
    rw [List.filter_map, List.map_map, hlen]
    congr 1
    apply List.filter_congr
    intro i hi
    rw [List.mem_range, ← hlen] at hi
    simp only [Function.comp]
    have ho : ((s.w m).owners q).getD i 0 ∈ s.src q := by
      rw [mem_ssrc]
      refine ⟨m, hm, ?_⟩
      rw [List.getD_eq_getElem?_getD, List.getElem?_eq_getElem hi]
      exact List.getElem_mem hi
    unfold Maps.bucket
    rw [decide_eq_decide, lowerBound_idxOf _ (ssrc_sorted s q) _ ho]
    constructor
    · intro he
      subst he
      exact (List.getElem_idxOf hj).symm
    · intro he
      rw [he]
      exact (nodup_of_strict (ssrc_sorted s q)).idxOf_getElem j hj
  · rw [List.getElem?_eq_none (by rw [pushAll_length]; omega), List.getElem?_eq_none (by simp; omega)]

theorem sendSizes_eq30 (s : Maps) (h : MapsOk s) (m q : Nat) (hm : m < s.M) (hq : q < s.P) :
    s.sendSizes m q = (s.src q).map fun t => (gpos ((s.w m).owners q) t).length := by
  unfold Maps.sendSizes Maps.ghostByRank
  rw [bucket_pushAll s h m q hm hq]
  simp

theorem newIdx_eq (s : Maps) (h : MapsOk s) (m r : Nat) (hm : m < s.M) (hr : r < s.P) :
    s.newIdx m r = (s.src r).flatMap fun q => (gpos ((s.w m).owners r) q).map fun k =>
      s.bs m * (((s.w m).ghosts r).getD k 0 - (s.w m).r0 q) + (s.localOffset q m + s.processOffset q) := by
  have hin : ∀ t q, q ∈ s.dest t → q < s.P ∧ t ∈ s.src q := fun t q hq => (mem_sdest s h t q).mp hq
  have hrecv : ∀ t, s.recvIndices m t = (s.dest t).flatMap fun q => (gpos ((s.w m).owners q) t).map fun k => ((s.w m).ghosts q).getD k 0 := by
    intro t
    unfold Maps.recvIndices
    rw [neighborAlltoallv_eq _ _ _ (fun q t => (gpos ((s.w m).owners q) t).map fun k => ((s.w m).ghosts q).getD k 0)]
    · intro q hq
      rw [sendSizes_eq30 s h m q hm (hin t q hq).1]
      unfold Maps.ghostByRank
      rw [bucket_pushAll s h m q hm (hin t q hq).1 (fun i => ((s.w m).ghosts q).getD i 0), ← List.flatMap_def, chunks_flatMap]
      simp
    · intro q hq; exact (hin t q hq).2
  have hsz : ∀ t, s.recvSizes m t = (s.dest t).map fun q => (gpos ((s.w m).owners q) t).length := by
    intro t
    unfold Maps.recvSizes neighborAlltoall
    rw [neighborAlltoallv_eq _ _ _ (fun q t => [(gpos ((s.w m).owners q) t).length]), flatMap_singleton]
    · intro q hq
      rw [sendSizes_eq30 s h m q hm (hin t q hq).1]; simp
    · intro q hq; exact (hin t q hq).2
  unfold Maps.newIdx
  rw [neighborAlltoallv_eq _ _ _ (fun t q => (gpos ((s.w m).owners q) t).map fun k =>
      s.bs m * (((s.w m).ghosts q).getD k 0 - (s.w m).r0 t) + (s.localOffset t m + s.processOffset t))]
  · intro t _
    unfold Maps.oldToNew
    rw [hrecv, hsz, List.map_flatMap]
    simp only [List.map_map]
    rw [chunks_flatMap]
    · rfl
    · simp
  · intro t ht
    exact (mem_sdest s h t r).mpr ⟨hr, ht⟩

theorem writes_eq (s : Maps) (h : MapsOk s) (m r : Nat) (hm : m < s.M) (hr : r < s.P) :
    s.writes m r = (s.src r).flatMap fun q => (gpos ((s.w m).owners r) q).flatMap fun p =>
      (List.range (s.bs m)).map fun k => (s.bs m * p + k,
        s.bs m * (((s.w m).ghosts r).getD p 0 - (s.w m).r0 q) + (s.localOffset q m + s.processOffset q) + k, q) := by
  unfold Maps.writes
  have hp : (s.posToGhost m r).flatten = (s.src r).flatMap fun q => gpos ((s.w m).owners r) q := by
    unfold Maps.posToGhost
    rw [bucket_pushAll s h m r hm hr (fun i => i), ← List.flatMap_def]
    simp
  rw [hp, newIdx_eq s h m r hm hr, zip_flatMap _ _ _ (by intros; simp), chunks_flatMap]
  · rw [show ∀ (l : List Nat) (f : Nat → List (Nat × Nat)), l.zip (l.map f) = l.map (fun a => (a, f a)) from fun l f => by
      induction l with
      | nil => rfl
      | cons a l ih => simp [ih]]
    rw [List.flatMap_map]
    apply List.flatMap_congr
    intro q _
    simp only
    generalize gpos ((s.w m).owners r) q = l
    induction l with
    | nil => rfl
    | cons a l ih => simp only [List.map_cons, List.zip_cons_cons, List.flatMap_cons, ih]
  · rw [sendSizes_eq30 s h m r hm hr]
    simp

theorem mem_writes (s : Maps) (h : MapsOk s) (m r : Nat) (hm : m < s.M) (hr : r < s.P) (x a b : Nat) :
    (x, a, b) ∈ s.writes m r ↔ ∃ p k, p < ((s.w m).ghosts r).length ∧ k < s.bs m ∧ x = s.bs m * p + k ∧
      b = ((s.w m).owners r).getD p 0 ∧
      a = s.bs m * (((s.w m).ghosts r).getD p 0 - (s.w m).r0 b) + (s.localOffset b m + s.processOffset b) + k := by
  have hlen := (h.valid m hm).len r (by rw [h.size m hm]; exact hr)
  rw [writes_eq s h m r hm hr]
  simp only [List.mem_flatMap, List.mem_map, List.mem_range, gpos, List.mem_filter, decide_eq_true_eq, Prod.mk.injEq]
  constructor
  · rintro ⟨q, hq, p, ⟨hp, ho⟩, k, hk, rfl, rfl, rfl⟩
    exact ⟨p, k, by omega, hk, rfl, ho.symm, rfl⟩
  · rintro ⟨p, k, hp, hk, rfl, rfl, rfl⟩
    refine ⟨_, ?_, p, ⟨by omega, rfl⟩, k, hk, rfl, rfl, rfl⟩
    rw [mem_ssrc]
    refine ⟨m, hm, ?_⟩
    have : p < ((s.w m).owners r).length := by omega
    rw [List.getD_eq_getElem?_getD, List.getElem?_eq_getElem this]
    exact List.getElem_mem this

/-! ## Theorems -/

/-- C30: the stacked numbering.  Rank `r`'s part starts at `process_offset` and map `m`'s part at
`local_offset[m]`: component `k` of the `i`-th owned index has position
`process_offset + local_offset[m] + bs i + k` in the rank-by-rank, map-by-map concatenation of
all entries; offsets of consecutive ranks are contiguous; the concatenation lists every entry of
every map exactly once. -/
theorem C30_owned_numbers (s : Maps) :
    (∀ q m i k, q < s.P → m < s.M → i < (s.w m).size q → k < s.bs m →
      (stacked s)[s.processOffset q + s.localOffset q m + s.bs m * i + k]? = some (m, (s.w m).r0 q + i, k)) ∧
    s.processOffset 0 = 0 ∧ (∀ q, s.processOffset (q + 1) = s.processOffset q + s.localOffset q s.M) ∧
    (stacked s).length = s.processOffset s.P ∧ (stacked s).Nodup ∧
    (∀ m g k, (m, g, k) ∈ stacked s ↔ m < s.M ∧ g < ((List.range s.P).map (s.w m).size).sum ∧ k < s.bs m) := by
  refine ⟨?_, ?_, ?_, ?_, stacked_nodup s, ?_⟩
  · intro q m i k hq hm hi hk
    rw [← stacked_get s q m i k hq hm hi hk]
    congr 1; omega
  · rw [processOffset_eq]; rfl
  · intro q; rw [processOffset_eq, processOffset_eq, excl_succ]
  · rw [processOffset_eq]
    unfold stacked
    rw [length_flatMap_range]
    exact excl_congr (fun q _ => rank_length s q s.M)
  · intro m g k
    rw [mem_stacked]
    constructor
    · rintro ⟨hm, hk, q, hq, h1, h2⟩
      refine ⟨hm, ?_, hk⟩
      have := excl_lt (s.w m).size hq
      unfold World.r0 at h2
      change g < excl (s.w m).size s.P
      omega
    · rintro ⟨hm, hg, hk⟩
      obtain ⟨q, i, hq, hi, he⟩ := excl_split (s.w m).size hg
      exact ⟨hm, hk, q, hq, by unfold World.r0; omega, by unfold World.r0; omega⟩

/-- C30: ghosts.  Component `k` of ghost `p` of map `m` on rank `r` gets the position of that entry
in the concatenation, i.e. the number its owner gives it, and the owner recorded in the map. -/
theorem C30_ghost_numbers (s : Maps) (h : MapsOk s) (m r p k o g : Nat) (hm : m < s.M) (hr : r < s.P)
    (ho : ((s.w m).owners r)[p]? = some o) (hg : ((s.w m).ghosts r)[p]? = some g) (hk : k < s.bs m) :
    ∃ n, (s.ghostsNew m r)[s.bs m * p + k]? = some (some n) ∧ (stacked s)[n]? = some (m, g, k) ∧
      (s.ownersNew m r)[s.bs m * p + k]? = some (some o) ∧
      s.processOffset o ≤ n ∧ n < s.processOffset (o + 1) := by
  obtain ⟨hoP, _, h1, h2⟩ := (h.valid m hm).owner r (by rw [h.size m hm]; exact hr) p o g ho hg
  rw [h.size m hm] at hoP
  have hpl : p < ((s.w m).ghosts r).length := (List.getElem?_eq_some_iff.mp hg).1
  have hoD : ((s.w m).owners r).getD p 0 = o := by rw [List.getD_eq_getElem?_getD, ho]; rfl
  have hgD : ((s.w m).ghosts r).getD p 0 = g := by rw [List.getD_eq_getElem?_getD, hg]; rfl
  set n := s.bs m * (g - (s.w m).r0 o) + (s.localOffset o m + s.processOffset o) + k with hn
  have hget := stacked_get s o m (g - (s.w m).r0 o) k hoP hm (by omega) hk
  rw [show (s.w m).r0 o + (g - (s.w m).r0 o) = g by omega] at hget
  have hw : (s.bs m * p + k, n, o) ∈ s.writes m r :=
    (mem_writes s h m r hm hr _ _ _).mpr ⟨p, k, hpl, hk, rfl, hoD.symm, by rw [hgD]⟩
  have hun : ∀ a b, (s.bs m * p + k, a, b) ∈ s.writes m r → a = n ∧ b = o := by
    intro a b hab
    obtain ⟨p', k', _, hk', he, rfl, rfl⟩ := (mem_writes s h m r hm hr _ _ _).mp hab
    have he' : p * s.bs m + k = p' * s.bs m + k' := by rw [Nat.mul_comm p, Nat.mul_comm p']; exact he
    obtain ⟨rfl, rfl⟩ := Csr.digits2 hk hk' he'
    rw [hoD, hgD]
    exact ⟨rfl, rfl⟩
  have hlt : s.bs m * p + k < s.bs m * ((s.w m).ghosts r).length := by
    have := Nat.mul_le_mul_left (s.bs m) (Nat.succ_le_of_lt hpl)
    rw [Nat.mul_succ] at this
    omega
  refine ⟨n, ?_, hget, ?_, by omega, ?_⟩
  · unfold Maps.ghostsNew
    apply ArrayFold.set_written
    · simpa using hlt
    · exact List.mem_map.mpr ⟨_, hw, rfl⟩
    · intro b' hb'
      obtain ⟨⟨x, a, b⟩, hx, heq⟩ := List.mem_map.mp hb'
      simp only [Prod.mk.injEq] at heq
      obtain ⟨rfl, rfl⟩ := heq
      exact (hun _ _ hx).1
  · unfold Maps.ownersNew
    apply ArrayFold.set_written
    · simpa using hlt
    · exact List.mem_map.mpr ⟨_, hw, rfl⟩
    · intro b' hb'
      obtain ⟨⟨x, a, b⟩, hx, heq⟩ := List.mem_map.mp hb'
      simp only [Prod.mk.injEq] at heq
      obtain ⟨rfl, rfl⟩ := heq
      exact (hun _ _ hx).2
  · rw [processOffset_eq s (o + 1), excl_succ, ← processOffset_eq]
    have h3 : s.localOffset o m + s.bs m * (s.w m).size o ≤ s.localOffset o s.M :=
      excl_lt (fun i => s.bs i * (s.w i).size o) hm
    have h4 : s.bs m * (g - (s.w m).r0 o) + k < s.bs m * (s.w m).size o := by
      have := Nat.mul_le_mul_left (s.bs m) (show g - (s.w m).r0 o + 1 ≤ (s.w m).size o by omega)
      rw [Nat.mul_succ] at this
      omega
    omega

/-- Two copies of the example map with block sizes 2 and 1. -/
def stackEx : Maps := { P := 3, M := 2, w := fun _ => exWorld, bs := fun m => if m = 0 then 2 else 1 }

example : (List.range 3).map (fun r => ((stackEx.ghostsNew 0 r), stackEx.ghostsNew 1 r, stackEx.ownersNew 0 r)) =
    [([some 11, some 12, some 6, some 7], [some 14, some 8], [some 2, some 2, some 1, some 1]), ([], [], []),
     ([some 0, some 1, some 6, some 7], [some 4, some 8], [some 0, some 0, some 1, some 1])] := by decide +kernel

example : MapsOk stackEx := ⟨fun _ _ => rfl, fun _ _ => exWorld_valid⟩

end Verif.Props
