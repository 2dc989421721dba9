import Verif.Lemmas.PostOffice
/-!
# C09: `distribute_data` returns exactly the requested rows
-/
namespace Verif.Props
open Verif.Std Verif.Exchange Verif.Group Verif.Offsets Verif.LocalRange Verif.ArrayFold Verif.PostOffice
open Verif.Spec

variable {α : Type} [Inhabited α]

/-- The data is a distributed table: row `i` of rank `q` is row `off q + i` of `X`, and every row
below `N` is held by some rank. -/
structure Holds (w : Input α) (X : Nat → α) : Prop where
  nonneg : ∀ q, q < w.P → w.x q ≠ [] → 0 ≤ w.off q
  row : ∀ q, q < w.P → ∀ (i : Nat) (a : α), (w.x q)[i]? = some a →
    X ((i : Int) + w.off q).toNat = a ∧ ((i : Int) + w.off q).toNat < w.N
  cover : ∀ g, g < w.N → ∃ q i, q < w.P ∧ i < (w.x q).length ∧ (g : Int) = (i : Int) + w.off q

/-- Records received by the post office `r`: (sender, sender's row). -/
def bag (w : Input α) (r : Nat) : List (Nat × Nat) :=
  (w.postSrc r).flatMap fun q =>
    (grp Prod.fst (toSend w.P q (w.x q).length w.N (w.off q)) r).map fun e => (q, e.2)

theorem postGlobal_eq (w : Input α) (h : InEdges w.P w.sendDest w.postSrc) (r : Nat) (hr : r < w.P) :
    w.postGlobal r = (bag w r).map fun e => ((e.2 : Int) + w.off e.1).toNat := by
  unfold Input.postGlobal bag
  rw [neighborAlltoallv_eq w.sendDest w.postSrc _ (fun q d =>
    (grp Prod.fst (toSend w.P q (w.x q).length w.N (w.off q)) d).map fun e => ((e.2 : Int) + w.off q).toNat) r,
    List.map_flatMap]
  · apply List.flatMap_congr
    intro q _
    rw [List.map_map]; rfl
  · intro q _
    simp only [Input.sendNum, Input.sendPos, Input.sendDest]
    rw [packRows_eq, chunks_flatMap]
    rw [planNum_eq, planDest_eq]; simp
  · intro q hq; exact ((h.mem r hr q).mp hq).2

theorem postX_eq (w : Input α) (h : InEdges w.P w.sendDest w.postSrc) (r : Nat) (hr : r < w.P) :
    w.postX r = (bag w r).map fun e => (w.x e.1).getD e.2 default := by
  unfold Input.postX bag
  rw [neighborAlltoallv_eq w.sendDest w.postSrc _ (fun q d =>
    (grp Prod.fst (toSend w.P q (w.x q).length w.N (w.off q)) d).map fun e => (w.x q).getD e.2 default) r,
    List.map_flatMap]
  · apply List.flatMap_congr
    intro q _
    rw [List.map_map]; rfl
  · intro q _
    simp only [Input.sendNum, Input.sendPos, Input.sendDest]
    rw [packRows_eq, chunks_flatMap]
    rw [planNum_eq, planDest_eq]; simp
  · intro q hq; exact ((h.mem r hr q).mp hq).2

theorem mem_bag (w : Input α) (h : InEdges w.P w.sendDest w.postSrc) (r : Nat) (hr : r < w.P) (q i : Nat) :
    (q, i) ∈ bag w r ↔ q < w.P ∧ i < (w.x q).length ∧ r = indexOwner w.P ((i : Int) + w.off q).toNat w.N ∧ r ≠ q := by
  unfold bag
  rw [List.mem_flatMap]
  constructor
  · rintro ⟨q', hq', he⟩
    rw [List.mem_map] at he
    obtain ⟨e, he, heq⟩ := he
    simp only [Prod.mk.injEq] at heq
    obtain ⟨rfl, rfl⟩ := heq
    obtain ⟨h1, h2⟩ := (mem_grp _ _ _ _).mp he
    have h3 := (mem_toSend _ _ _ _ _ e.1 e.2).mp h1
    rw [h2] at h3
    exact ⟨((h.mem r hr q').mp hq').1, h3⟩
  · rintro ⟨hq, hi, hown, hne⟩
    have hT : (r, i) ∈ toSend w.P q (w.x q).length w.N (w.off q) := (mem_toSend _ _ _ _ _ _ _).mpr ⟨hi, hown, hne⟩
    refine ⟨q, (h.mem r hr q).mpr ⟨hq, ?_⟩, ?_⟩
    · unfold Input.sendDest
      rw [planDest_eq, mem_keys]
      exact ⟨(r, i), hT, rfl⟩
    · rw [List.mem_map]
      exact ⟨(r, i), (mem_grp _ _ _ _).mpr ⟨hT, rfl⟩, rfl⟩

omit [Inhabited α] in
theorem holds_row (w : Input α) (X : Nat → α) (hX : Holds w X) (r g : Nat) (hr : r < w.P)
    (hh : w.holds r g = true) : (w.x r)[((g : Int) - w.off r).toNat]? = some (X g) := by
  simp only [Input.holds, decide_eq_true_eq] at hh
  have hne : w.x r ≠ [] := by
    intro h0; rw [h0] at hh; simp at hh; omega
  have := hX.nonneg r hr hne
  have hlt : ((g : Int) - w.off r).toNat < (w.x r).length := by omega
  rw [List.getElem?_eq_getElem hlt]
  have h1 := (hX.row r hr _ _ (List.getElem?_eq_getElem hlt)).1
  rw [← h1]
  congr 2
  omega

/-- The post office finds every row of its range. -/
theorem fetch_eq (w : Input α) (X : Nat → α) (hX : Holds w X) (h : InEdges w.P w.sendDest w.postSrc)
    (r g : Nat) (hr : r < w.P) (hg : g < w.N) (hown : indexOwner w.P g w.N = r) : w.fetch r g = some (X g) := by
  unfold Input.fetch
  by_cases hh : w.holds r g = true
  · rw [if_pos hh]; exact holds_row w X hX r g hr hh
  · rw [if_neg hh]
    have hrange : ∀ g', g' < w.N → indexOwner w.P g' w.N = r → (localRange r w.N w.P).1 ≤ g' := by
      intro g' h1 h2
      have := (C02_index_owner_spec w.P g' w.N (by omega) h1).2.1
      rw [h2] at this; exact this.1
    obtain ⟨q, i, hq, hi, hgi⟩ := hX.cover g hg
    have hqr : r ≠ q := by
      rintro rfl
      apply hh
      simp only [Input.holds, decide_eq_true_eq]
      omega
    have hto : ((i : Int) + w.off q).toNat = g := by omega
    have hbag : (q, i) ∈ bag w r := (mem_bag w h r hr q i).mpr ⟨hq, hi, by rw [hto]; exact hown.symm, hqr⟩
    have hidx : ∃ pos : Nat, (w.postIdx r)[pos]? = some (g - (localRange r w.N w.P).1) ∧
        w.postMap r (g - (localRange r w.N w.P).1) = some pos := by
      have hs := write_spec (w.postIdx r).zipIdx Prod.fst Prod.snd (fun _ => none) (g - (localRange r w.N w.P).1)
      rcases hs with ⟨e, he, hk, hv⟩ | ⟨hn, _⟩
      · refine ⟨e.2, ?_, hv⟩
        rw [← hk]
        exact List.mem_zipIdx_iff_getElem?.mp he
      · exfalso
        have hm : (g - (localRange r w.N w.P).1) ∈ w.postIdx r := by
          unfold Input.postIdx
          rw [postGlobal_eq w h r hr, List.map_map, List.mem_map]
          refine ⟨(q, i), hbag, ?_⟩
          simp only [Function.comp, hto]
        obtain ⟨p, hp⟩ := List.getElem?_of_mem hm
        exact hn (_, p) (List.mem_zipIdx_iff_getElem?.mpr hp) rfl
    obtain ⟨pos, hp1, hp2⟩ := hidx
    rw [hp2]
    simp only
    unfold Input.postIdx at hp1
    rw [postGlobal_eq w h r hr, List.map_map, List.getElem?_map, Option.map_eq_some_iff] at hp1
    obtain ⟨⟨q', i'⟩, hb, hv⟩ := hp1
    simp only [Function.comp] at hv
    rw [postX_eq w h r hr, List.getElem?_map, hb, Option.map_some]
    obtain ⟨hq', hi', hown', _⟩ := (mem_bag w h r hr q' i').mp (List.mem_of_getElem? hb)
    have hrow := hX.row q' hq' i' _ (List.getElem?_eq_getElem hi')
    have e1 := hrange _ hrow.2 hown'.symm
    have e2 := hrange _ hg hown
    have e3 : ((i' : Int) + w.off q').toNat = g := by omega
    simp only [List.getD_eq_getElem?_getD, List.getElem?_eq_getElem hi', Option.getD_some]
    rw [← hrow.1, e3]

omit [Inhabited α] in
theorem mem_requests (w : Input α) (r d g k : Nat) :
    (d, g, k) ∈ w.requests r ↔ (w.req r)[k]? = some g ∧ w.holds r g = false ∧ d = indexOwner w.P g w.N ∧ d ≠ r := by
  unfold Input.requests
  rw [List.mem_filterMap]
  constructor
  · rintro ⟨⟨g', k'⟩, hm, he⟩
    simp only at he
    split at he
    · cases he
    · rename_i hh
      split at he
      · rename_i hne
        simp only [Option.some.injEq, Prod.mk.injEq] at he
        obtain ⟨h1, h2, h3⟩ := he
        subst h2; subst h3
        exact ⟨List.mem_zipIdx_iff_getElem?.mp hm, by simpa using hh, h1.symm, h1 ▸ hne⟩
      · cases he
  · rintro ⟨hk, hh, hd, hne⟩
    refine ⟨(g, k), List.mem_zipIdx_iff_getElem?.mpr hk, ?_⟩
    simp only [hh]
    rw [if_neg (by simp), if_pos (by rw [← hd]; exact hne), ← hd]

theorem mapM_some {β γ : Type} (l : List β) (f : β → Option γ) (g : β → γ) (h : ∀ x ∈ l, f x = some (g x)) :
    l.mapM f = some (l.map g) := by
  induction l with
  | nil => rfl
  | cons a l ih =>
    rw [List.mapM_cons, h a (by simp), ih (fun x hx => h x (by simp [hx]))]
    rfl

omit [Inhabited α] in
theorem src_eq (w : Input α) (q : Nat) : w.src q = keys Prod.fst (w.requests q) := by
  unfold Input.src Input.sorted
  rw [runs_sortBy, List.map_map]
  exact List.map_id' _

/-- C09 (`distribute_from_postoffice`): for every distribution of the rows over the ranks with any
offsets, every order of the NBX results, and every request list (repeats allowed), each rank
gets exactly the requested rows in request order; no assertion fails. -/
theorem C09_distribute_from_postoffice (w : Input α) (X : Nat → α) (hX : Holds w X)
    (h1 : InEdges w.P w.sendDest w.postSrc) (h2 : InEdges w.P w.src w.dest)
    (hreq : ∀ q, q < w.P → ∀ g ∈ w.req q, g < w.N) (r : Nat) (hr : r < w.P) :
    w.distribute r = some ((w.req r).map X) := by
  have hP : 0 < w.P := by omega
  have hkey : ∀ q, q < w.P → ∀ x ∈ w.requests q, x.1 < w.P := by
    rintro q hq ⟨d, g, k⟩ hx
    obtain ⟨hk, _, hd, _⟩ := (mem_requests w q d g k).mp hx
    have := (C02_index_owner_spec w.P g w.N hP (hreq q hq g (List.mem_of_getElem? hk))).1
    simp only; omega
  have hsrc : ∀ q, q < w.P → w.src q = keys Prod.fst (w.requests q) := fun q _ => src_eq w q
  have hnum : ∀ s, s < w.P → w.numRecv s = (w.dest s).map fun q => (grp Prod.fst (w.requests q) s).length := by
    intro s hs
    exact recv_counts h2 Prod.fst w.requests hsrc s hs
  have hidx : ∀ s, s < w.P → w.recvIndex s = (w.dest s).flatMap fun q => (grp Prod.fst (w.requests q) s).map fun e => e.2.1 := by
    intro s hs
    exact recv_groups h2 Prod.fst w.requests hsrc (fun e => e.2.1) s hs
  have hdata : w.recvData r = (w.sorted r).map fun e => w.fetch e.1 e.2.1 := by
    have := reply_groups h2 Prod.fst w.requests hsrc hkey (fun s _ e => w.fetch s e.2.1) r hr
    unfold Input.sorted
    rw [← this]
    unfold Input.recvData neighborAlltoallv
    apply List.flatMap_congr
    intro s hs
    have hsP : s < w.P := by
      rw [src_eq, mem_keys] at hs
      obtain ⟨x, hx, rfl⟩ := hs
      exact hkey r hr x hx
    congr 1
    unfold Input.replyBuf
    simp only
    rw [hnum s hsP, hidx s hsP, List.map_flatMap]
    congr 1
    apply List.flatMap_congr
    intro q _
    rw [List.map_map]; rfl
  have hmain : ∀ p ∈ (w.req r).zipIdx, w.row r p.1 p.2 = some (X p.1) := by
    rintro ⟨g, i⟩ hp
    have hgi := List.mem_zipIdx_iff_getElem?.mp hp
    simp only at hgi ⊢
    have hg : g < w.N := hreq r hr g (List.mem_of_getElem? hgi)
    unfold Input.row
    by_cases hh : w.holds r g = true
    · rw [if_pos hh]; exact holds_row w X hX r g hr hh
    · rw [if_neg hh]
      have hs := write_spec (w.sorted r).zipIdx (fun p => p.1.2.2) Prod.snd (fun _ => none) i
      rcases hs with ⟨⟨⟨d, g', k⟩, pos⟩, he, hk, hv⟩ | ⟨hn, hv⟩
      · simp only at hk hv
        subst hk
        have hv' : w.posToBuffer r k = some pos := hv
        rw [hv']
        simp only
        have hpos := List.mem_zipIdx_iff_getElem?.mp he
        simp only at hpos
        rw [hdata, List.getElem?_map, hpos]
        simp only [Option.map_some, Option.join_some]
        have hm : (d, g', k) ∈ w.requests r := by
          have := List.mem_of_getElem? hpos
          unfold Input.sorted at this
          exact (mem_sortBy _ _ _).mp this
        obtain ⟨hk', _, hd, _⟩ := (mem_requests w r d g' k).mp hm
        rw [hgi] at hk'
        have hgg : g = g' := Option.some.inj hk'
        subst hgg
        exact fetch_eq w X hX h1 d g (hkey r hr _ hm) hg hd.symm
      · have hv' : w.posToBuffer r i = none := hv
        rw [hv']
        simp only
        apply fetch_eq w X hX h1 r g hr hg
        by_contra hne
        have hm : (indexOwner w.P g w.N, g, i) ∈ w.requests r :=
          (mem_requests w r _ g i).mpr ⟨hgi, by simpa using hh, rfl, hne⟩
        have hm' : (indexOwner w.P g w.N, g, i) ∈ w.sorted r := (mem_sortBy _ _ _).mpr hm
        obtain ⟨pos, hpos⟩ := List.getElem?_of_mem hm'
        exact hn (_, pos) (List.mem_zipIdx_iff_getElem?.mpr hpos) rfl
  unfold Input.distribute
  rw [mapM_some _ _ (fun p => X p.1) hmain]
  congr 1
  have : (w.req r).zipIdx.map (fun p => X p.1) = ((w.req r).zipIdx.map Prod.fst).map X := by
    rw [List.map_map]; rfl
  rw [this, List.zipIdx_map_fst]

/-- Offset of the rows of rank `q` in the concatenation over `comm1`. -/
def offs (comm1 : List Nat) (x : Nat → List α) (q : Nat) : Nat :=
  ((comm1.takeWhile (· != q)).map fun p => (x p).length).sum

omit [Inhabited α] in
theorem offs_get (comm1 : List Nat) (x : Nat → List α) (q i : Nat) (hq : q ∈ comm1)
    (hi : i < (x q).length) : (comm1.flatMap x)[offs comm1 x q + i]? = (x q)[i]? := by
  induction comm1 with
  | nil => simp at hq
  | cons a l ih =>
    unfold offs
    rw [List.takeWhile_cons, List.flatMap_cons]
    by_cases ha : a = q
    · subst ha
      simp [List.getElem?_append_left hi]
    · have : (a != q) = true := by simp [ha]
      rw [this]
      simp only [if_true, List.map_cons, List.sum_cons]
      rw [List.getElem?_append_right (by omega)]
      have h2 := ih (by
        rcases List.mem_cons.mp hq with h | h
        · exact absurd h.symm ha
        · exact h)
      unfold offs at h2
      rw [← h2]
      congr 1
      omega

omit [Inhabited α] in
theorem offs_cover (comm1 : List Nat) (x : Nat → List α) (hn : comm1.Nodup) (g : Nat) (hg : g < (comm1.flatMap x).length) :
    ∃ q i, q ∈ comm1 ∧ i < (x q).length ∧ g = offs comm1 x q + i := by
  induction comm1 generalizing g with
  | nil => simp at hg
  | cons a l ih =>
    obtain ⟨h1, h2⟩ := List.nodup_cons.mp hn
    rw [List.flatMap_cons, List.length_append] at hg
    rcases Nat.lt_or_ge g (x a).length with hlt | hge
    · exact ⟨a, g, by simp, hlt, by simp [offs]⟩
    · obtain ⟨q, i, hq, hi, he⟩ := ih h2 (g - (x a).length) (by omega)
      refine ⟨q, i, by simp [hq], hi, ?_⟩
      have : (a != q) = true := by
        simp only [bne_iff_ne, ne_eq]; rintro rfl; exact h1 hq
      unfold offs at he ⊢
      rw [List.takeWhile_cons, this]
      simp only [if_true, List.map_cons, List.sum_cons]
      omega

omit [Inhabited α] in
theorem total_rows (P : Nat) (comm1 : List Nat) (x : Nat → List α) (hn : comm1.Nodup) (hsub : ∀ q ∈ comm1, q < P)
    (hempty : ∀ q, q < P → q ∉ comm1 → x q = []) :
    ((List.range P).map fun q => (x q).length).sum = (comm1.flatMap x).length := by
  rw [List.length_flatMap]
  have hperm : comm1.Perm ((List.range P).filter fun q => decide (q ∈ comm1)) := by
    rw [List.perm_ext_iff_of_nodup hn (List.nodup_range.filter _)]
    intro a
    simp only [List.mem_filter, List.mem_range, decide_eq_true_eq]
    exact ⟨fun h => ⟨hsub a h, h⟩, fun h => h.2⟩
  rw [(hperm.map _).sum_nat]
  have : ∀ l : List Nat, (∀ q ∈ l, q < P) →
      (l.map fun q => (x q).length).sum = ((l.filter fun q => decide (q ∈ comm1)).map fun q => (x q).length).sum := by
    intro l hl
    induction l with
    | nil => rfl
    | cons a l ih =>
      rw [List.map_cons, List.sum_cons, ih (fun q hq => hl q (by simp [hq])), List.filter_cons]
      by_cases ha : a ∈ comm1
      · simp [ha]
      · simp [ha, hempty a (hl a (by simp)) ha]
  exact this _ (fun q hq => List.mem_range.mp hq)

/-- The input built by `distribute_data`. -/
def dataInput (P : Nat) (comm1 : List Nat) (x : Nat → List α) (req postSrc dest : Nat → List Nat) : Input α :=
  { P := P, N := ((List.range P).map fun q => (x q).length).sum, x := x,
    off := fun q => if q ∈ comm1 then (((comm1.takeWhile (· != q)).map fun p => (x p).length).sum : Nat) else -1,
    req := req, postSrc := postSrc, dest := dest }

/-- C09: with the rows stored on the ranks of `comm1` (any subset of the ranks of `comm0`, in any
order), `distribute_data` returns on every rank, for the requested rows in request order,
the rows of the concatenated table. -/
theorem C09_distribute_data (P : Nat) (comm1 : List Nat) (hn : comm1.Nodup) (hsub : ∀ q ∈ comm1, q < P)
    (x : Nat → List α) (hempty : ∀ q, q < P → q ∉ comm1 → x q = [])
    (req postSrc dest : Nat → List Nat)
    (h1 : InEdges P (dataInput P comm1 x req postSrc dest).sendDest postSrc)
    (h2 : InEdges P (dataInput P comm1 x req postSrc dest).src dest)
    (hreq : ∀ q, q < P → ∀ g ∈ req q, g < (comm1.flatMap x).length) (r : Nat) (hr : r < P) :
    distributeData P comm1 x req postSrc dest r =
      some ((req r).map fun g => (comm1.flatMap x).getD g default) := by
  have hN := total_rows P comm1 x hn hsub hempty
  have hX : Holds (dataInput P comm1 x req postSrc dest) (fun g => (comm1.flatMap x).getD g default) := by
    constructor
    · intro q hq hne
      have : q ∈ comm1 := by
        by_contra hc; exact hne (hempty q hq hc)
      simp [dataInput, this]
    · intro q hq i a hi
      have hin : q ∈ comm1 := by
        by_contra hc
        have h0 : x q = [] := hempty q hq hc
        change (x q)[i]? = some a at hi
        rw [h0] at hi; simp at hi
      obtain ⟨hlt, hget⟩ := List.getElem?_eq_some_iff.mp hi
      have hlt' : i < (x q).length := hlt
      have hval : ((i : Int) + (dataInput P comm1 x req postSrc dest).off q).toNat = offs comm1 x q + i := by
        simp only [dataInput, hin, if_true, offs]; omega
      rw [hval]
      have hg := offs_get comm1 x q i hin hlt'
      constructor
      · rw [List.getD_eq_getElem?_getD, hg]
        change (x q)[i]? = some a at hi
        rw [hi]; rfl
      · change _ < ((List.range P).map fun q => (x q).length).sum
        rw [hN]
        rw [List.getElem?_eq_getElem hlt'] at hg
        exact (List.getElem?_eq_some_iff.mp hg).1
    · intro g hg
      change g < ((List.range P).map fun q => (x q).length).sum at hg
      rw [hN] at hg
      obtain ⟨q, i, hq, hi, he⟩ := offs_cover comm1 x hn g hg
      refine ⟨q, i, hsub q hq, hi, ?_⟩
      simp only [dataInput, hq, if_true]
      unfold offs at he
      omega
  have hmain := C09_distribute_from_postoffice (dataInput P comm1 x req postSrc dest) _ hX h1 h2
    (by
      intro q hq g hg
      change g < ((List.range P).map fun q => (x q).length).sum
      rw [hN]; exact hreq q hq g hg) r hr
  unfold distributeData
  rw [if_neg]
  · exact hmain
  · rintro ⟨hc, hne⟩
    exact hne (hempty r hr hc)

/-- A rank outside `comm1` that has data is rejected. -/
theorem C09_null_comm_with_data (P : Nat) (comm1 : List Nat) (x : Nat → List α) (req postSrc dest : Nat → List Nat)
    (r : Nat) (hc : r ∉ comm1) (hne : x r ≠ []) : distributeData P comm1 x req postSrc dest r = none := by
  unfold distributeData
  rw [if_pos ⟨hc, hne⟩]

/-- Three ranks, rows on ranks 2 and 0 (in that order) only, repeated and remote requests. -/
def exX : Nat → List Nat := fun r => if r = 0 then [103, 104] else if r = 2 then [100, 101, 102] else []

def exReq : Nat → List Nat := fun r => if r = 0 then [2, 2, 0] else if r = 1 then [4, 0] else [3]

def exPostSrc : Nat → List Nat := fun r => if r = 0 then [2] else if r = 1 then [2, 0] else [0]

def exDest : Nat → List Nat := fun r => if r = 0 then [1] else if r = 1 then [2, 0] else [1]

/-- A finite check of `InEdges`. -/
theorem inEdges_of {P : Nat} {outs ins : Nat → List Nat} (h1 : ∀ r < P, (ins r).Nodup)
    (h2 : ∀ r < P, ∀ q ∈ ins r, q < P ∧ r ∈ outs q) (h3 : ∀ r < P, ∀ q < P, r ∈ outs q → q ∈ ins r) :
    InEdges P outs ins :=
  ⟨h1, fun r hr q => ⟨h2 r hr q, fun h => h3 r hr q h.1 h.2⟩⟩

/-- The hypotheses of `C09_distribute_data` hold for it, and the result is as expected. -/
example : (List.Nodup [2, 0] ∧ (∀ q ∈ [2, 0], q < 3) ∧ (∀ q, q < 3 → q ∉ [2, 0] → exX q = [])) ∧
    InEdges 3 (dataInput 3 [2, 0] exX exReq exPostSrc exDest).sendDest exPostSrc ∧
    InEdges 3 (dataInput 3 [2, 0] exX exReq exPostSrc exDest).src exDest ∧
    (∀ q, q < 3 → ∀ g ∈ exReq q, g < ([2, 0].flatMap exX).length) ∧
    (List.range 3).map (distributeData 3 [2, 0] exX exReq exPostSrc exDest) =
      [some [102, 102, 100], some [104, 100], some [103]] := by
  refine ⟨by decide, inEdges_of ?_ ?_ ?_, inEdges_of ?_ ?_ ?_, by decide, ?_⟩ <;> decide +kernel

end Verif.Props
