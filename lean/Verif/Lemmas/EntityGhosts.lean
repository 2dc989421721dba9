import Verif.Lemmas.EntityOwner
/-!
# Ghost entities
-/
namespace Verif.EntityIndexing
open Verif.SubMap Verif.World Verif.Std Verif.Exchange Verif.Group Verif.Shared Verif.Spec Verif.Props Verif.EntityNumbering

variable {I : Input}

variable (I) in
/-- Every entity lies on an own cell of some rank. -/
def Covered : Prop := ∀ r, r < I.w.P → ∀ id, id < count I r → ∃ q, Cand I q (vglobal I r id)

variable (I) in
/-- The entity number on rank `q` of the entity with the given vertices. -/
noncomputable def idOf (q : Nat) (K : List Nat) : Nat :=
  open Classical in if h : ∃ id, id < count I q ∧ vglobal I q id = K then h.choose else 0

theorem idOf_eq (h : Core I) (q id : Nat) (hq : q < I.w.P) (hid : id < count I q) : idOf I q (vglobal I q id) = id := by
  have hex : ∃ i, i < count I q ∧ vglobal I q i = vglobal I q id := ⟨id, hid, rfl⟩
  unfold idOf
  rw [dif_pos hex]
  exact h.distinct q hq _ _ hex.choose_spec.1 hid hex.choose_spec.2

variable (I) in
/-- The global number that the owner gives to an entity. -/
noncomputable def gid (K : List Nat) : Nat :=
  Offsets.excl (fun r => cntO I r (count I r)) (ownerOf I K) + nloc I (ownerOf I K) (idOf I (ownerOf I K) K)

/-- The owner has the entity as an owned one. -/
theorem owner_has (h : Core I) (K : List Nat) (hc : ∃ q, Cand I q K) :
    ownerOf I K < I.w.P ∧ ∃ id, id < count I (ownerOf I K) ∧ vglobal I (ownerOf I K) id = K ∧
      idOf I (ownerOf I K) K = id ∧ Owned I (ownerOf I K) id := by
  obtain ⟨h1, id, h2, h3, h4⟩ := ownerOf_cand K hc
  refine ⟨h1, id, h2, h3, ?_, h4, by rw [h3]⟩
  have := idOf_eq h (ownerOf I K) id h1 h2
  rwa [h3] at this

theorem gid_of_owned (h : Core I) (r id : Nat) (hr : r < I.w.P) (hid : id < count I r) (ho : Owned I r id) :
    gid I (vglobal I r id) = Offsets.excl (fun r => cntO I r (count I r)) r + nloc I r id := by
  unfold gid
  rw [ho.2, idOf_eq h r id hr hid]

theorem gid_inj (h : Core I) (K K' : List Nat) (hc : ∃ q, Cand I q K) (hc' : ∃ q, Cand I q K') (he : gid I K = gid I K') : K = K' := by
  obtain ⟨h1, id, h2, h3, h4, h5⟩ := owner_has h K hc
  obtain ⟨h1', id', h2', h3', h4', h5'⟩ := owner_has h K' hc'
  unfold gid at he
  rw [h4, h4'] at he
  obtain ⟨e1, e2⟩ := Offsets.excl_inj (fun r => cntO I r (count I r)) ((nloc_owned _ id h2).mpr h5) ((nloc_owned _ id' h2').mpr h5') he
  rw [← h3, ← h3']
  rw [e1] at e2 h2 ⊢
  rw [nloc_inj _ id id' h2 h2' e2]

theorem foldl_ghost (order : Nat → List Nat) (r : Nat) (items : List (Nat × (Option Nat × Option Nat)))
    (hok : ∀ q gi idx, (q, (some gi, some idx)) ∈ items → ¬ (localIndex I order r).getD idx 0 < numLocal I order r)
    (l : List (Option (Nat × Nat))) :
    items.foldl (ghostStep I order r) (some l) = some (runWrites l (items.filterMap fun x =>
      match x.2.1, x.2.2 with
      | some gi, some idx => some ((localIndex I order r).getD idx 0 - numLocal I order r, some (gi, x.1))
      | _, _ => none)) := by
  induction items generalizing l with
  | nil => rfl
  | cons x items ih =>
    obtain ⟨q, a, b⟩ := x
    have ih := ih (fun q gi idx hm => hok q gi idx (by simp [hm]))
    rw [List.foldl_cons, List.filterMap_cons]
    cases a with
    | none => exact ih l
    | some gi =>
      cases b with
      | none => exact ih l
      | some idx =>
        have := hok q gi idx (by simp)
        unfold ghostStep
        simp only [if_neg this, Option.map_some]
        exact ih _

theorem mapM_id_some {α : Type} (l : List (Option α)) (h : ∀ x ∈ l, x.isSome) : ∃ m, l.mapM id = some m ∧ m.map some = l := by
  induction l with
  | nil => exact ⟨[], rfl, rfl⟩
  | cons a l ih =>
    obtain ⟨m, h1, h2⟩ := ih (fun x hx => h x (by simp [hx]))
    obtain ⟨b, rfl⟩ := Option.isSome_iff_exists.mp (h a (by simp))
    refine ⟨b :: m, ?_, by simp [h2]⟩
    rw [List.mapM_cons, h1]; rfl

theorem ghostItems_eq (h : Core I) (order : Nat → List Nat) (r : Nat) (hr : r < I.w.P) :
    ghostItems I order r = (ranks I r).flatMap fun q => (offer I q r).map fun x =>
      (q, (if (localIndex I order q).getD x.2 0 < numLocal I order q then
        some (Offsets.excl (numLocal I order) q + (localIndex I order q).getD x.2 0) else none, find I order r x.1)) := by
  have hg : recvGlobal I order r = (ranks I r).map fun q => (offer I q r).map fun p =>
      if (localIndex I order q).getD p.2 0 < numLocal I order q then
        some (Offsets.excl (numLocal I order) q + (localIndex I order q).getD p.2 0) else none :=
    recv_blocks h (fun q p => if (localIndex I order q).getD p.2 0 < numLocal I order q then
        some (Offsets.excl (numLocal I order) q + (localIndex I order q).getD p.2 0) else none) r hr
  unfold ghostItems
  rw [hg, recvKeys_eq h r hr, zip_map_same]
  have hz := zip_map_same (ranks I r) (fun q => q) (fun q => ((offer I q r).map fun p =>
      if (localIndex I order q).getD p.2 0 < numLocal I order q then
        some (Offsets.excl (numLocal I order) q + (localIndex I order q).getD p.2 0) else none, (offer I q r).map Prod.fst))
  rw [List.map_id'] at hz
  rw [hz, List.flatMap_map]
  apply List.flatMap_congr
  intro q _
  simp only []
  rw [zip_map_same, List.map_map]
  rfl

theorem mem_ghostItems (h : Core I) (order : Nat → List Nat) (ho : OrderOk I order) (r : Nat) (hr : r < I.w.P) (q gi idx : Nat) :
    (q, (some gi, some idx)) ∈ ghostItems I order r ↔
      idx < count I r ∧ q ≠ r ∧ Cand I q (vglobal I r idx) ∧ ownerOf I (vglobal I r idx) = q ∧ gi = gid I (vglobal I r idx) := by
  have hexcl : ∀ q, q ≤ I.w.P → Offsets.excl (numLocal I order) q = Offsets.excl (fun r => cntO I r (count I r)) q := by
    intro q hq
    unfold Offsets.excl
    congr 1
    apply List.map_congr_left
    intro a ha
    exact numLocal_eq h order ho a (by have := List.mem_range.mp ha; omega)
  rw [ghostItems_eq h order r hr]
  simp only [List.mem_flatMap, List.mem_map, Prod.mk.injEq]
  constructor
  · rintro ⟨q', hq', ⟨K, idq⟩, hx, rfl, e1, e2⟩
    have hqP := (ranks_symm I h.valid r q' hr hq').1
    obtain ⟨o1, o2, o3, o4⟩ := (mem_offer q' r K idq).mp hx
    obtain ⟨g1, g2, g3⟩ := (received_iff h order ho r idx q' hr).mp ⟨(K, idq), hx, hq', e2⟩
    obtain ⟨_, _, f3⟩ := (find_spec h order ho r hr K idx).mp e2
    simp only [] at e1
    rw [localIndex_getD h order ho q' idq hqP o1, numLocal_eq h order ho q' hqP] at e1
    split at e1
    · rename_i hlt
      have hO := (nloc_owned q' idq o1).mp hlt
      have hK : vglobal I r idx = vglobal I q' idq := f3.symm.trans o4
      refine ⟨g1, g2, g3, ?_, ?_⟩
      · rw [hK]; exact hO.2
      · rw [hK, gid_of_owned h q' idq hqP o1 hO]
        simp only [Option.some.injEq] at e1
        rw [← e1, hexcl q' (by omega)]
    · cases e1
  · rintro ⟨g1, g2, g3, g4, g5⟩
    obtain ⟨⟨K, idq⟩, hx, hq, hf⟩ := (received_iff h order ho r idx q hr).mpr ⟨g1, g2, g3⟩
    obtain ⟨o1, o2, o3, o4⟩ := (mem_offer q r K idq).mp hx
    obtain ⟨_, _, f3⟩ := (find_spec h order ho r hr K idx).mp hf
    have hqP := g3.1
    have hK : vglobal I r idx = vglobal I q idq := f3.symm.trans o4
    have hO : Owned I q idq := ⟨o3, by rw [← hK]; exact g4⟩
    refine ⟨q, hq, (K, idq), hx, rfl, ?_, hf⟩
    simp only []
    rw [localIndex_getD h order ho q idq hqP o1, numLocal_eq h order ho q hqP, if_pos ((nloc_owned q idq o1).mpr hO), g5, hK,
      gid_of_owned h q idq hqP o1 hO, hexcl q (by omega)]

/-- A rank that does not own an entity is not the one the candidates agree on. -/
theorem owner_ne (h : Core I) (r id : Nat) (hr : r < I.w.P) (hid : id < count I r) (hc : ∃ q, Cand I q (vglobal I r id))
    (hO : ¬ Owned I r id) : ownerOf I (vglobal I r id) ≠ r := by
  intro he
  obtain ⟨_, id', h2, h3, h4⟩ := ownerOf_cand _ hc
  rw [he] at h2 h3 h4
  have := h.distinct r hr id' id h2 hid h3
  subst this
  exact hO ⟨h4, he⟩

/-- All ghosts receive the number given by the owner, and no assertion fails. -/
theorem ghosts_eq (h : Core I) (hcov : Covered I) (order : Nat → List Nat) (ho : OrderOk I order) (r : Nat) (hr : r < I.w.P) :
    ∃ G, ghosts I order r = some G ∧ G.length = cntN I r (count I r) ∧
      ∀ id, id < count I r → ¬ Owned I r id →
        G[cntN I r id]? = some (gid I (vglobal I r id), ownerOf I (vglobal I r id)) := by
  have hok : ∀ q gi idx, (q, (some gi, some idx)) ∈ ghostItems I order r →
      ¬ (localIndex I order r).getD idx 0 < numLocal I order r := by
    intro q gi idx hm
    obtain ⟨g1, g2, g3, g4, _⟩ := (mem_ghostItems h order ho r hr q gi idx).mp hm
    rw [localIndex_getD h order ho r idx hr g1, numLocal_eq h order ho r hr, nloc_owned r idx g1]
    intro hO
    exact g2 (g4.symm.trans hO.2)
  have hfold := foldl_ghost order r (ghostItems I order r) hok
    (List.replicate (count I r - numLocal I order r) none)
  unfold ghosts
  rw [hfold]
  set ws := (ghostItems I order r).filterMap fun x =>
      match x.2.1, x.2.2 with
      | some gi, some idx => some ((localIndex I order r).getD idx 0 - numLocal I order r, some (gi, x.1))
      | _, _ => none with hws
  have hlen : (List.replicate (count I r - numLocal I order r) (none : Option (Nat × Nat))).length = cntN I r (count I r) := by
    rw [List.length_replicate, numLocal_eq h order ho r hr, ghosts_count]
  have hmem : ∀ p v, (p, v) ∈ ws ↔ ∃ idx, idx < count I r ∧ ¬ Owned I r idx ∧ p = cntN I r idx ∧
      v = some (gid I (vglobal I r idx), ownerOf I (vglobal I r idx)) := by
    intro p v
    rw [hws, List.mem_filterMap]
    constructor
    · rintro ⟨⟨q, a, b⟩, hx, he⟩
      cases a with
      | none => cases he
      | some gi =>
        cases b with
        | none => cases he
        | some idx =>
          have hnl := hok q gi idx hx
          obtain ⟨g1, g2, g3, g4, g5⟩ := (mem_ghostItems h order ho r hr q gi idx).mp hx
          simp only [Option.some.injEq, Prod.mk.injEq] at he
          rw [localIndex_getD h order ho r idx hr g1, numLocal_eq h order ho r hr] at he hnl
          have hO : ¬ Owned I r idx := fun hO => hnl ((nloc_owned r idx g1).mpr hO)
          refine ⟨idx, g1, hO, ?_, ?_⟩
          · rw [← he.1]; unfold nloc; rw [if_neg hO]; omega
          · rw [← he.2, g5, g4]
    · rintro ⟨idx, g1, hO, rfl, rfl⟩
      have hc := hcov r hr idx g1
      refine ⟨(ownerOf I (vglobal I r idx), (some (gid I (vglobal I r idx)), some idx)),
        (mem_ghostItems h order ho r hr _ _ _).mpr ⟨g1, owner_ne h r idx hr g1 hc hO, ownerOf_cand _ hc, rfl, rfl⟩, ?_⟩
      simp only [Option.some.injEq, Prod.mk.injEq, and_true]
      rw [localIndex_getD h order ho r idx hr g1, numLocal_eq h order ho r hr]
      unfold nloc; rw [if_neg hO]; omega
  have hget : ∀ id, id < count I r → ¬ Owned I r id →
      (runWrites (List.replicate (count I r - numLocal I order r) none) ws)[cntN I r id]? =
        some (some (gid I (vglobal I r id), ownerOf I (vglobal I r id))) := by
    intro id hid hO
    apply runWrites_written
    · rw [hlen]; exact cntN_lt r hid hO
    · exact (hmem _ _).mpr ⟨id, hid, hO, rfl, rfl⟩
    · intro b' hb'
      obtain ⟨idx, i1, i2, i3, i4⟩ := (hmem _ _).mp hb'
      have : nloc I r id = nloc I r idx := by unfold nloc; rw [if_neg hO, if_neg i2, i3]
      rw [nloc_inj r id idx hid i1 this, i4]
  have hrl : (runWrites (List.replicate (count I r - numLocal I order r) none) ws).length = cntN I r (count I r) := by
    rw [runWrites_length, hlen]
  obtain ⟨m, hm1, hm2⟩ := mapM_id_some (runWrites (List.replicate (count I r - numLocal I order r) none) ws) (by
    intro x hx
    obtain ⟨p, hp, rfl⟩ := List.getElem_of_mem hx
    rw [hrl] at hp
    have hca := cnt_add (I := I) r (count I r)
    obtain ⟨id, hid, he⟩ := nloc_surj (I := I) r (cntO I r (count I r) + p) (by omega)
    have hO : ¬ Owned I r id := fun hO => by
      have := (nloc_owned r id hid).mpr hO; omega
    have hpe : p = cntN I r id := by unfold nloc at he; rw [if_neg hO] at he; omega
    have := hget id hid hO
    rw [← hpe, List.getElem?_eq_getElem (by omega)] at this
    rw [Option.some.inj this]; rfl)
  refine ⟨m, ?_, ?_, ?_⟩
  · rw [Option.bind_some, hm1]
  · have := congrArg List.length hm2
    rw [List.length_map, hrl] at this; exact this
  · intro id hid hO
    have := hget id hid hO
    rw [← hm2, List.getElem?_map] at this
    obtain ⟨y, hy1, hy2⟩ := Option.map_eq_some_iff.mp this
    rw [hy1, Option.some.inj hy2]

/-- The index map that `get_local_indexing` builds. -/
def newWorld (I : Input) (order : Nat → List Nat) : World where
  P := I.w.P
  size := numLocal I order
  ghosts := fun r => ((ghosts I order r).getD []).map Prod.fst
  owners := fun r => ((ghosts I order r).getD []).map Prod.snd

theorem excl_congr (f g : Nat → Nat) (n : Nat) (h : ∀ i, i < n → f i = g i) : Offsets.excl f n = Offsets.excl g n := by
  unfold Offsets.excl
  congr 1
  apply List.map_congr_left
  intro a ha
  exact h a (List.mem_range.mp ha)

theorem newWorld_r0 (h : Core I) (order : Nat → List Nat) (ho : OrderOk I order) (r : Nat) (hr : r ≤ I.w.P) :
    (newWorld I order).r0 r = Offsets.excl (fun r => cntO I r (count I r)) r :=
  excl_congr _ _ r (fun i hi => numLocal_eq h order ho i (by omega))

theorem newWorld_global (h : Core I) (hcov : Covered I) (order : Nat → List Nat) (ho : OrderOk I order) (r id : Nat)
    (hr : r < I.w.P) (hid : id < count I r) :
    globalOf (newWorld I order) r (nloc I r id) = some (gid I (vglobal I r id)) := by
  obtain ⟨G, g1, g2, g3⟩ := ghosts_eq h hcov order ho r hr
  have hsz : (newWorld I order).size r = cntO I r (count I r) := numLocal_eq h order ho r hr
  unfold globalOf
  rw [hsz]
  by_cases hO : Owned I r id
  · rw [if_pos ((nloc_owned r id hid).mpr hO), newWorld_r0 h order ho r (by omega), gid_of_owned h r id hr hid hO]
  · rw [if_neg (fun hl => hO ((nloc_owned r id hid).mp hl))]
    have : nloc I r id - cntO I r (count I r) = cntN I r id := by unfold nloc; rw [if_neg hO]; omega
    rw [this]
    change (((ghosts I order r).getD []).map Prod.fst)[_]? = _
    rw [g1, Option.getD_some, List.getElem?_map, g3 id hid hO]; rfl

theorem ghost_pos (r p : Nat) (hp : p < cntN I r (count I r)) : ∃ id, id < count I r ∧ ¬ Owned I r id ∧ cntN I r id = p := by
  have hca := cnt_add (I := I) r (count I r)
  obtain ⟨id, hid, he⟩ := nloc_surj (I := I) r (cntO I r (count I r) + p) (by omega)
  have hO : ¬ Owned I r id := fun hO => by
    have := (nloc_owned r id hid).mpr hO; omega
  exact ⟨id, hid, hO, by unfold nloc at he; rw [if_neg hO] at he; omega⟩

theorem newWorld_valid (h : Core I) (hcov : Covered I) (order : Nat → List Nat) (ho : OrderOk I order) :
    (newWorld I order).Valid := by
  constructor
  · intro r _; simp [newWorld]
  · intro r hr
    obtain ⟨G, g1, g2, g3⟩ := ghosts_eq h hcov order ho r hr
    have hG : (newWorld I order).ghosts r = G.map Prod.fst := by
      change ((ghosts I order r).getD []).map Prod.fst = _; rw [g1]; rfl
    rw [hG]
    rw [List.nodup_iff_injective_getElem]
    rintro ⟨i, hi⟩ ⟨j, hj⟩ hij
    simp only [List.length_map, List.getElem_map] at hi hj hij
    obtain ⟨a, a1, a2, a3⟩ := ghost_pos (I := I) r i (by omega)
    obtain ⟨b, b1, b2, b3⟩ := ghost_pos (I := I) r j (by omega)
    have ha := g3 a a1 a2
    have hb := g3 b b1 b2
    rw [a3, List.getElem?_eq_getElem hi, Option.some.injEq] at ha
    rw [b3, List.getElem?_eq_getElem hj, Option.some.injEq] at hb
    rw [ha, hb] at hij
    have hK := gid_inj h _ _ (hcov r hr a a1) (hcov r hr b b1) hij
    have := h.distinct r hr a b a1 b1 hK
    subst this
    apply Fin.ext
    exact a3.symm.trans b3
  · intro r hr k q g hq hg
    obtain ⟨G, g1, g2, g3⟩ := ghosts_eq h hcov order ho r hr
    have hG : (newWorld I order).ghosts r = G.map Prod.fst := by
      change ((ghosts I order r).getD []).map Prod.fst = _; rw [g1]; rfl
    have hG' : (newWorld I order).owners r = G.map Prod.snd := by
      change ((ghosts I order r).getD []).map Prod.snd = _; rw [g1]; rfl
    rw [hG, List.getElem?_map] at hg
    rw [hG', List.getElem?_map] at hq
    obtain ⟨x, hx, rfl⟩ := Option.map_eq_some_iff.mp hg
    rw [hx, Option.map_some, Option.some.injEq] at hq
    have hk : k < G.length := (List.getElem?_eq_some_iff.mp hx).1
    obtain ⟨a, a1, a2, a3⟩ := ghost_pos (I := I) r k (by omega)
    have ha := g3 a a1 a2
    rw [a3, hx, Option.some.injEq] at ha
    have hc := hcov r hr a a1
    obtain ⟨o1, id', o2, o3, o4, o5⟩ := owner_has h _ hc
    have hlt := (nloc_owned _ id' o2).mpr o5
    subst hq
    rw [ha]
    refine ⟨o1, owner_ne h r a hr a1 hc a2, ?_, ?_⟩
    · rw [newWorld_r0 h order ho _ (le_of_lt o1)]; unfold gid; omega
    · rw [newWorld_r0 h order ho _ (le_of_lt o1)]
      change _ < _ + numLocal I order _
      rw [numLocal_eq h order ho _ o1]
      unfold gid
      simp only []
      rw [o4]; omega

end Verif.EntityIndexing
