import Mathlib.Data.List.Perm.Basic
import Verif.Lemmas.EntityData
import Verif.Props.C32_MeshTags
import Verif.Props.C48_LocateDofs
/-!
# C73: data given for entities by input nodes arrives at the entities
-/
namespace Verif.Props
open Verif.Std Verif.Exchange Verif.Group Verif.Shared Verif.LocalRange Verif.Spec Verif.EntityData Verif.Spec.EntityData Verif.MeshTags

variable {V : Type} {I : Input V}

namespace C73

/-- The sorted vertex nodes of an input entity. -/
def verts (I : Input V) (e : List Nat × V) : List Nat × V := (sortNat (vertexNodes I e.1), e.2)

/-- The post office of an entity. -/
def ownE (I : Input V) (e : List Nat × V) : Nat := indexOwner I.P (e.1.getD 0 0) I.N

theorem verts_first (h : Ok I) {q : Nat} (hq : q < I.P) {e : List Nat × V} (he : e ∈ I.ents q) :
    ∃ n, (verts I e).1[0]? = some n ∧ n < I.N := by
  have h1 : (verts I e).1.length = I.numVert := by
    show (sortNat _).length = _
    rw [(sortNat_perm _).length_eq, length_vertexNodes h _ (h.rows q hq e he).1]
  have hp := h.pos
  have hlt : 0 < (verts I e).1.length := by omega
  refine ⟨_, List.getElem?_eq_getElem hlt, ?_⟩
  refine (h.rows q hq e he).2 _ (mem_vertexNodes _ _ ((sortNat_perm _).mem_iff.mp (List.getElem_mem hlt)))

theorem entityItems_eq (h : Ok I) {q : Nat} (hq : q < I.P) :
    entityItems I q = some ((I.ents q).map fun e => (ownE I (verts I e), verts I e)) := by
  unfold entityItems
  refine mapM_some _ _ _ fun e he => ?_
  obtain ⟨n, hn, hlt⟩ := verts_first h hq he
  rw [vertexRow_eq h _ (h.rows q hq e he).1]
  have hn' : (sortNat (vertexNodes I e.1))[0]? = some n := hn
  simp only [Option.bind_eq_bind, Option.bind_some]
  rw [hn']
  simp only [Option.bind_some, postOffice, if_pos hlt]
  unfold ownE
  rw [List.getD_eq_getElem?_getD, hn]
  rfl

theorem nodeItems_eq (h : Ok I) {q : Nat} (hq : q < I.P) :
    nodeItems I q = some ((I.nodes q).map fun n => (indexOwner I.P n I.N, n)) := by
  unfold nodeItems
  refine mapM_some _ _ _ fun n hn => ?_
  unfold postOffice
  rw [if_pos ((h.nodes q hq).2 n hn)]
  rfl

/-- Records of the processes. -/
def famE (I : Input V) (q : Nat) : List (Nat × (List Nat × V)) :=
  ((List.range I.P).map fun q => (I.ents q).map fun e => (ownE I (verts I e), verts I e)).getD q []

def famN (I : Input V) (q : Nat) : List (Nat × Nat) :=
  ((List.range I.P).map fun q => (I.nodes q).map fun n => (indexOwner I.P n I.N, n)).getD q []

theorem famE_lt {q : Nat} (hq : q < I.P) : famE I q = (I.ents q).map fun e => (ownE I (verts I e), verts I e) := by
  unfold famE; simp [hq]

theorem famN_lt {q : Nat} (hq : q < I.P) : famN I q = (I.nodes q).map fun n => (indexOwner I.P n I.N, n) := by
  unfold famN; simp [hq]

theorem famN_ge {q : Nat} (hq : ¬ q < I.P) : famN I q = [] := by
  unfold famN; simp [Nat.not_lt.mp hq]

/-- All records. -/
def all (I : Input V) : List (List Nat × V) := (allEnts I).map (verts I)

theorem part_famE {q : Nat} (hq : q < I.P) (r : Nat) :
    (part (fun q => sortBy Prod.fst (famE I q)) q r).Perm (((I.ents q).map (verts I)).filter fun e => decide (ownE I e = r)) := by
  unfold part grp
  have h1 : (sortBy Prod.fst (famE I q)).Perm (famE I q) := sort_perm _ _
  refine ((h1.filter _).map _).trans ?_
  rw [famE_lt hq, List.filter_map, List.filter_map, List.map_map]
  exact List.Perm.refl _

theorem recv_perm (r : Nat) (hr : r < I.P) :
    (recv (fun q => sortBy Prod.fst (famE I q)) I.P r).Perm ((all I).filter fun e => decide (ownE I e = r)) := by
  rw [recv_range (fun q => sortBy_sorted _) r hr]
  unfold all allEnts
  rw [List.map_flatMap, List.filter_flatMap]
  exact List.Perm.flatMap_left _ fun q hq => part_famE (List.mem_range.mp hq) r

theorem own_lt {n : Nat} {q : Nat} (hq : q < I.P) (hn : n < I.N) : indexOwner I.P n I.N < I.P :=
  (C02_index_owner_spec I.P n I.N (by omega) hn).1

theorem mem_all (h : Ok I) {e : List Nat × V} (he : e ∈ all I) : ∃ n, e.1[0]? = some n ∧ n < I.N ∧ ownE I e = indexOwner I.P n I.N ∧ ownE I e < I.P := by
  unfold all allEnts at he
  obtain ⟨a, ha, rfl⟩ := List.mem_map.mp he
  obtain ⟨q, hq, ha⟩ := List.mem_flatMap.mp ha
  have hq := List.mem_range.mp hq
  obtain ⟨n, h1, h2⟩ := verts_first h hq ha
  have h3 : ownE I (verts I a) = indexOwner I.P n I.N := by
    unfold ownE
    rw [List.getD_eq_getElem?_getD, h1]; rfl
  exact ⟨n, h1, h2, h3, h3 ▸ own_lt hq h2⟩

theorem mem_partN {q : Nat} (hq : q < I.P) (r n : Nat) :
    n ∈ part (fun q => lexSort (famN I q)) q r ↔ n ∈ I.nodes q ∧ indexOwner I.P n I.N = r := by
  rw [mem_part, mem_lexSort, famN_lt hq, List.mem_map]
  constructor
  · rintro ⟨m, hm, he⟩
    obtain ⟨h1, h2⟩ := Prod.mk.inj he
    subst h2
    exact ⟨hm, h1⟩
  · rintro ⟨h1, h2⟩
    exact ⟨n, h1, by rw [h2]⟩

/-- The entities that a process receives: all with their first node on the process. -/
theorem candidates_perm (h : Ok I) {q : Nat} (hq : q < I.P) :
    (candidates I.P (fun q => sortBy Prod.fst (famE I q)) (fun q => lexSort (famN I q)) q).Perm ((all I).filter (firstIn (I.nodes q))) := by
  rw [candidates_eq (fun q => lexSort_fst _) ?_ ?_ q hq]
  · have h1 : ∀ r ∈ List.range I.P,
        ((recv (fun q => sortBy Prod.fst (famE I q)) I.P r).filter (firstIn (part (fun q => lexSort (famN I q)) q r))).Perm
          (((all I).filter (firstIn (I.nodes q))).filter fun e => decide (ownE I e = r)) := by
      intro r hr
      refine ((recv_perm r (List.mem_range.mp hr)).filter _).trans ?_
      rw [List.filter_filter, List.filter_filter]
      refine List.Perm.of_eq (List.filter_congr fun e he => ?_)
      obtain ⟨n, hn, _, ho, _⟩ := mem_all h he
      unfold firstIn
      rw [hn]
      simp only
      rw [ho, Bool.eq_iff_iff]
      simp only [Bool.and_eq_true, decide_eq_true_eq]
      rw [mem_partN hq]
      tauto
    refine (List.Perm.flatMap_left _ h1).trans ?_
    have := stableSorted_flatMap_keys (key := ownE I) (inp := (all I).filter (firstIn (I.nodes q))) (ks := List.range I.P)
      List.pairwise_lt_range (fun e he => List.mem_range.mpr (by
        obtain ⟨_, _, _, _, hlt⟩ := mem_all h (List.mem_filter.mp he).1
        exact hlt))
    exact this.perm
  · intro p x hx
    rw [mem_lexSort] at hx
    by_cases hp : p < I.P
    · rw [famN_lt hp] at hx
      obtain ⟨n, hn, rfl⟩ := List.mem_map.mp hx
      exact own_lt hp ((h.nodes p hp).2 n hn)
    · rw [famN_ge hp] at hx; cases hx
  · intro p
    rw [(lexSort_perm _).nodup_iff]
    by_cases hp : p < I.P
    · rw [famN_lt hp]
      exact (h.nodes p hp).1.map fun x y he => (Prod.mk.inj he).2
    · rw [famN_ge hp]; exact List.nodup_nil

/-! ### Vertices at nodes -/

theorem cellWrites_mem {q : Nat} {vs xs : List Nat} {w : List (Nat × Nat)} (h : cellWrites I q vs xs = some w) (n v : Nat) :
    (n, v) ∈ w ↔ ∃ i d k : Nat, vs[i]? = some v ∧ I.vertexDofs[i]? = some d ∧ xs[d]? = some k ∧ (I.nodes q)[k]? = some n := by
  unfold cellWrites at h
  rw [mapM_option_some _ _ _ h]
  constructor
  · rintro ⟨x, hx, he⟩
    simp only [Option.bind_eq_bind, Option.bind_eq_some_iff, Option.some.injEq, Prod.mk.injEq] at he
    obtain ⟨d, hd, k, hk, m, hm, rfl, rfl⟩ := he
    exact ⟨x.2, d, k, List.mem_zipIdx_iff_getElem?.mp hx, hd, hk, hm⟩
  · rintro ⟨i, d, k, h1, h2, h3, h4⟩
    refine ⟨(v, i), List.mem_zipIdx_iff_getElem?.mpr h1, ?_⟩
    simp [h2, h3, h4]

theorem vertexWrites_some (h : Ok I) {q : Nat} (hq : q < I.P) : ∃ w, vertexWrites I q = some w ∧ ∀ n v, (n, v) ∈ w ↔ At I q n v := by
  have hok : ∀ x ∈ (I.c2v q).zipIdx, ∃ y, ((I.xdofs q)[x.2]?.bind fun xs => cellWrites I q x.1 xs) = some y := by
    intro x hx
    obtain ⟨xs, h1, h2⟩ := h.cells q hq x.2 x.1 (List.mem_zipIdx_iff_getElem?.mp hx)
    rw [h1, Option.bind_some]
    unfold cellWrites
    refine mapM_option_ok _ _ fun y hy => ?_
    have hy := List.mem_zipIdx_iff_getElem?.mp hy
    obtain ⟨hlt, _⟩ := List.getElem?_eq_some_iff.mp hy
    obtain ⟨d, k, h3, h4, h5⟩ := h2 y.2 hlt
    exact ⟨_, by simp [h3, h4, List.getElem?_eq_getElem h5]; rfl⟩
  obtain ⟨ws, hws⟩ := mapM_option_ok _ _ hok
  refine ⟨ws.flatten, by unfold vertexWrites; rw [hws]; rfl, ?_⟩
  intro n v
  rw [List.mem_flatten]
  constructor
  · rintro ⟨w, hw, hm⟩
    obtain ⟨x, hx, he⟩ := (mapM_option_some _ _ _ hws w).mp hw
    obtain ⟨xs, h1, h2⟩ := Option.bind_eq_some_iff.mp he
    obtain ⟨i, d, k, h3, h4, h5, h6⟩ := (cellWrites_mem h2 n v).mp hm
    exact ⟨x.2, i, d, k, x.1, xs, List.mem_zipIdx_iff_getElem?.mp hx, h3, h4, h1, h5, h6⟩
  · rintro ⟨c, i, d, k, vs, xs, h1, h2, h3, h4, h5, h6⟩
    have hx : (vs, c) ∈ (I.c2v q).zipIdx := List.mem_zipIdx_iff_getElem?.mpr h1
    obtain ⟨w, hw⟩ := hok _ hx
    refine ⟨w, (mapM_option_some _ _ _ hws w).mpr ⟨_, hx, hw⟩, ?_⟩
    simp only [h4, Option.bind_some] at hw
    exact (cellWrites_mem hw n v).mpr ⟨i, d, k, h2, h3, h5, h6⟩

theorem vertexMap_aux (w : List (Nat × Nat)) (n : Nat) (a : Option Nat) :
    (∀ v, w.foldl (fun m x => if x.1 = n then some x.2 else m) a = some v → (n, v) ∈ w ∨ a = some v) ∧
    (w.foldl (fun m x => if x.1 = n then some x.2 else m) a = none → a = none ∧ ∀ x ∈ w, x.1 ≠ n) := by
  induction w generalizing a with
  | nil => simp
  | cons x w ih =>
    rw [List.foldl_cons]
    obtain ⟨h1, h2⟩ := ih (if x.1 = n then some x.2 else a)
    constructor
    · intro v hv
      rcases h1 v hv with h | h
      · left; exact List.mem_cons_of_mem _ h
      · split at h
        · rename_i hx
          left
          rw [← hx, ← Option.some.inj h]
          exact List.mem_cons_self
        · right; exact h
    · intro hv
      obtain ⟨h3, h4⟩ := h2 hv
      split at h3
      · cases h3
      · rename_i hx
        refine ⟨h3, fun y hy => ?_⟩
        rcases List.mem_cons.mp hy with rfl | hy
        · exact hx
        · exact h4 y hy

theorem vertexMap_iff (h : Ok I) {q : Nat} (hq : q < I.P) {w : List (Nat × Nat)} (hw : ∀ n v, (n, v) ∈ w ↔ At I q n v) (n v : Nat) :
    vertexMap w n = some v ↔ At I q n v := by
  obtain ⟨h1, h2⟩ := vertexMap_aux w n none
  constructor
  · intro hv
    rcases h1 v hv with h3 | h3
    · exact (hw n v).mp h3
    · cases h3
  · intro ha
    cases hv : vertexMap w n with
    | none => exact absurd rfl ((h2 hv).2 _ ((hw n v).mpr ha))
    | some u =>
      rcases h1 u hv with h3 | h3
      · rw [h.vertex q hq n u v ((hw n u).mp h3) ha]
      · cases h3

theorem mapM_forall₂ {α β : Type} (f : α → Option β) (l : List α) (r : List β) :
    l.mapM f = some r ↔ List.Forall₂ (fun a b => f a = some b) l r := by
  induction l generalizing r with
  | nil => cases r <;> simp
  | cons a l ih =>
    rw [List.mapM_cons]
    cases r with
    | nil => simp [Option.bind_eq_some_iff]
    | cons b r =>
      rw [List.forall₂_cons, ← ih]
      cases ha : f a with
      | none => simp
      | some c =>
        cases hl : l.mapM f with
        | none => simp
        | some s => simp

end C73
open C73

/-- The vertices of an entity, ordered by node, are determined. -/
theorem lies_iff (h : Ok I) {q : Nat} (hq : q < I.P) {w : List (Nat × Nat)} (hw : ∀ n v, (n, v) ∈ w ↔ At I q n v) (row vs : List Nat) :
    (sortNat (vertexNodes I row)).mapM (vertexMap w) = some vs ↔ Lies I q row vs := by
  rw [mapM_forall₂]
  have hr : List.Forall₂ (fun a b => vertexMap w a = some b) (sortNat (vertexNodes I row)) vs ↔
      List.Forall₂ (At I q) (sortNat (vertexNodes I row)) vs :=
    ⟨fun x => x.imp fun a b => (vertexMap_iff h hq hw a b).mp, fun x => x.imp fun a b => (vertexMap_iff h hq hw a b).mpr⟩
  rw [hr]
  constructor
  · intro hf
    exact ⟨_, sortNat_perm _, sortNat_sorted _, hf⟩
  · rintro ⟨ns, h1, h2, h3⟩
    have : ns = sortNat (vertexNodes I row) := (h1.trans (sortNat_perm _).symm).eq_of_pairwise
      (fun x y _ _ h1 h2 => Nat.le_antisymm h1 h2) h2 (sortNat_sorted _)
    rwa [this] at h3

/-- C73: each process gets, of all entities given on all processes, exactly those whose vertex nodes are all vertices of its cells, each as often
as it is given, with its value, as local vertices. -/
theorem C73_distributed_partial (h : Ok I) : ∃ out, distributeEntityData I = some out ∧ out.length = I.P ∧ ∀ q < I.P,
    ∃ (o : List (List Nat × V)) (t : List Nat × V → Option (List Nat × V)), out[q]? = some o ∧
      (∀ e x, t e = some x ↔ x.2 = e.2 ∧ Lies I q e.1 x.1) ∧ o.Perm ((allEnts I).filterMap t) := by
  have hE : (List.range I.P).mapM (entityItems I) = some ((List.range I.P).map fun q => (I.ents q).map fun e => (ownE I (verts I e), verts I e)) :=
    mapM_some _ _ _ fun q hq => entityItems_eq h (List.mem_range.mp hq)
  have hN : (List.range I.P).mapM (nodeItems I) = some ((List.range I.P).map fun q => (I.nodes q).map fun n => (indexOwner I.P n I.N, n)) :=
    mapM_some _ _ _ fun q hq => nodeItems_eq h (List.mem_range.mp hq)
  have hW : ∀ q ∈ List.range I.P, vertexWrites I q = some ((vertexWrites I q).getD []) := by
    intro q hq
    obtain ⟨w, hw, _⟩ := vertexWrites_some h (List.mem_range.mp hq)
    rw [hw]; rfl
  refine ⟨(List.range I.P).map fun q => selectEntities (vertexMap ((vertexWrites I q).getD []))
      (candidates I.P (fun q => sortBy Prod.fst (famE I q)) (fun q => lexSort (famN I q)) q), ?_, by simp, ?_⟩
  · unfold distributeEntityData
    rw [hE, hN]
    simp only [Option.bind_eq_bind, Option.bind_some]
    refine mapM_some _ _ _ fun q hq => ?_
    rw [hW q hq]
    rfl
  · intro q hq
    obtain ⟨w, hw, hm⟩ := vertexWrites_some h hq
    refine ⟨_, fun e => ((sortNat (vertexNodes I e.1)).mapM (vertexMap w)).map fun vs => (vs, e.2), by simp [hq]; rfl, ?_, ?_⟩
    · intro e x
      rw [Option.map_eq_some_iff]
      constructor
      · rintro ⟨vs, h1, rfl⟩
        exact ⟨rfl, (lies_iff h hq hm _ _).mp h1⟩
      · rintro ⟨h1, h2⟩
        exact ⟨x.1, (lies_iff h hq hm _ _).mpr h2, by rw [← h1]⟩
    · rw [hw, Option.getD_some]
      unfold selectEntities
      refine ((candidates_perm h hq).filterMap _).trans ?_
      rw [List.filterMap_filter]
      unfold all
      rw [List.filterMap_map]
      refine List.Perm.of_eq (List.filterMap_congr fun e he => ?_)
      obtain ⟨n, hn, _⟩ := mem_all h (List.mem_map_of_mem he : verts I e ∈ all I)
      simp only [Function.comp_apply]
      split
      · rfl
      · rename_i hf
        symm
        rw [Option.map_eq_none_iff]
        cases hc : (sortNat (vertexNodes I e.1)).mapM (vertexMap w) with
        | none => rfl
        | some vs =>
          exfalso
          apply hf
          rw [mapM_forall₂] at hc
          unfold firstIn
          rw [hn]
          simp only [decide_eq_true_eq]
          have hn' : (sortNat (vertexNodes I e.1))[0]? = some n := hn
          cases hs : sortNat (vertexNodes I e.1) with
          | nil => rw [hs] at hn'; cases hn'
          | cons a l =>
            rw [hs] at hn' hc
            obtain rfl : a = n := by simpa using hn'
            cases hc with
            | cons h1 _ =>
              obtain ⟨_, _, _, _, _, _, _, _, _, _, _, h6⟩ := (vertexMap_iff h hq hm _ _).mp h1
              exact List.mem_of_getElem? h6

/-- C73: `meshtags_from_entities` with the distributed data tags on each process exactly those of its entities (owned and ghosts) that were given
on some process by their vertex nodes, with the smallest value given.  This does not depend on the process. -/
theorem C73_tags_partial [LinearOrder V] (h : Ok I) (q : Nat) (hq : q < I.P) (etov : List (List Nat)) (hd : DistinctEntities etov)
    (enodes : Nat → List Nat) (hen : ∀ (e : Nat) vs, etov[e]? = some vs → List.Forall₂ (At I q) (enodes e) vs) :
    ∃ out o t, distributeEntityData I = some out ∧ out[q]? = some o ∧
      createMeshtags etov (o.map Prod.fst) (o.map Prod.snd) = .ok t ∧
      t.indices.length = t.values.length ∧ t.indices.Pairwise (· < ·) ∧
      ∀ (i : Int) v, TagOf t.indices t.values i v ↔ ∃ e : Nat, i = e ∧ e < etov.length ∧ Value I (enodes e) v := by
  obtain ⟨out, h1, _, h2⟩ := C73_distributed_partial h
  obtain ⟨o, f, h3, h4, h5⟩ := h2 q hq
  obtain ⟨t, h6, h7, h8, h9⟩ := (C32_create etov (o.map Prod.fst) (o.map Prod.snd) hd).2 (by simp)
  refine ⟨out, o, t, h1, h3, h6, h7, h8, ?_⟩
  have hbi : Relator.BiUnique (At I q) :=
    ⟨fun n n' v a b => h.node q hq n n' v a b, fun n v v' a b => h.vertex q hq n v v' a b⟩
  have hg : ∀ (e : Nat) v, Given etov (o.map Prod.fst) (o.map Prod.snd) e v ↔
      e < etov.length ∧ ∃ x ∈ allEnts I, x.2 = v ∧ (vertexNodes I x.1).Perm (enodes e) := by
    intro e v
    constructor
    · rintro ⟨k, vs, row, g1, g2, g3, g4⟩
      have hm : (vs, v) ∈ o := by
        have := (tagOf_map o vs v).mp ⟨k, g1, g2⟩
        exact this
      obtain ⟨x, hx, hfx⟩ := List.mem_filterMap.mp (h5.mem_iff.mp hm)
      obtain ⟨g5, ns, g6, _, g7⟩ := (h4 x _).mp hfx
      refine ⟨(List.getElem?_eq_some_iff.mp g3).1, x, hx, g5.symm, ?_⟩
      exact g6.symm.trans ((List.rel_perm hbi g7 (hen e row g3)).mpr g4.symm)
    · rintro ⟨g1, x, hx, rfl, g2⟩
      have g3 := List.getElem?_eq_getElem g1
      obtain ⟨vs, g4, g5⟩ := List.perm_comp_forall₂ ((sortNat_perm _).trans g2) (hen e _ g3)
      have hm : (vs, x.2) ∈ o := by
        rw [h5.mem_iff, List.mem_filterMap]
        exact ⟨x, hx, (h4 _ _).mpr ⟨rfl, _, sortNat_perm _, sortNat_sorted _, g4⟩⟩
      obtain ⟨k, g6, g7⟩ := (tagOf_map o vs x.2).mpr hm
      exact ⟨k, vs, _, g6, g7, g3, g5.symm⟩
  intro i v
  rw [h9]
  constructor
  · rintro ⟨e, rfl, g1, g2⟩
    obtain ⟨g3, x, hx, g4, g5⟩ := (hg e v).mp g1
    exact ⟨e, rfl, g3, ⟨x, hx, g4, g5⟩, fun y hy hp => g2 y.2 ((hg e y.2).mpr ⟨g3, y, hy, rfl, hp⟩)⟩
  · rintro ⟨e, rfl, g1, g2, g3⟩
    refine ⟨e, rfl, (hg e v).mpr ⟨g1, g2⟩, fun v' hv' => ?_⟩
    obtain ⟨_, y, hy, rfl, hp⟩ := (hg e v').mp hv'
    exact g3 y hy hp

/-- `index_owner` gives no rank for indices that are too large. -/
theorem indexOwner_ge (P n N : Nat) (hP : 0 < P) (hN : P ≤ N) (hn : N ≤ n) : P ≤ indexOwner P n N := by
  have hd : P * (N / P) + N % P = N := Nat.div_add_mod N P
  have hr : N % P < P := Nat.mod_lt _ hP
  have hpos : 0 < N / P := Nat.div_pos hN hP
  unfold indexOwner
  simp only
  generalize N / P = a at *
  generalize N % P = r at *
  have h1 : r * (a + 1) ≤ N := by
    rw [← hd, Nat.mul_add, Nat.mul_one]
    exact Nat.add_le_add_right (Nat.mul_le_mul_right a (by omega)) r
  rw [if_neg (by omega)]
  have h2 : (P - r) * a ≤ n - r * (a + 1) := by
    rw [Nat.sub_mul, Nat.mul_add, Nat.mul_one]
    have : r * a ≤ P * a := Nat.mul_le_mul_right a (by omega)
    omega
  have h3 : P - r ≤ (n - r * (a + 1)) / a := (Nat.le_div_iff_mul_le hpos).mpr h2
  omega

/-- All pairs of a node and its vertex. -/
private def ats (I : Input V) (q : Nat) : List (Nat × Nat) :=
  ((I.c2v q).zip (I.xdofs q)).flatMap fun p => (p.1.zip I.vertexDofs).filterMap fun x =>
    (p.2[x.2]?.bind fun k => (I.nodes q)[k]?).map fun n => (n, x.1)

private theorem at_mem {q n v : Nat} (h : At I q n v) : (n, v) ∈ ats I q := by
  obtain ⟨c, i, d, k, vs, xs, h1, h2, h3, h4, h5, h6⟩ := h
  unfold ats
  rw [List.mem_flatMap]
  refine ⟨(vs, xs), List.mem_of_getElem? (List.getElem?_zip_eq_some.mpr ⟨h1, h4⟩ : (List.zip _ _)[c]? = _), ?_⟩
  rw [List.mem_filterMap]
  exact ⟨(v, d), List.mem_of_getElem? (List.getElem?_zip_eq_some.mpr ⟨h2, h3⟩ : (List.zip _ _)[i]? = _), by simp [h5, h6]⟩

private theorem ats_unique {q : Nat} (h : ∀ a ∈ ats I q, ∀ b ∈ ats I q, decide (a.1 = b.1) = decide (a.2 = b.2)) :
    (∀ n v v', At I q n v → At I q n v' → v = v') ∧ ∀ n n' v, At I q n v → At I q n' v → n = n' := by
  constructor
  · intro n v v' h1 h2
    simpa using h _ (at_mem h1) _ (at_mem h2)
  · intro n n' v h1 h2
    simpa using h _ (at_mem h1) _ (at_mem h2)

/-- The mesh has the nodes 0, 1 and 3 of an input with the nodes 0, 1, 2, 3; the interval between 1 and 3 has a value. -/
private def unusedInput : Input Nat where
  P := 1
  N := 3
  layout := [0, 1]
  numVert := 2
  vertexDofs := [0, 1]
  ents := fun _ => [([1, 3], 7)]
  nodes := fun _ => [0, 1, 3]
  c2v := fun _ => [[0, 1], [1, 2]]
  xdofs := fun _ => [[0, 1], [1, 2]]

/-- C73 is false if the input has nodes that belong to no cell: the number of nodes of the mesh is then too small for the numbers of the input.
Here, on a single process, the data for node 3 goes to process 1, which does not exist. -/
theorem C73_refuted_unused : ∃ I : Input Nat, OkNodes I 4 ∧ I.P = 1 ∧ I.N = (I.nodes 0).length ∧
    distributeEntityData I = none ∧ indexOwner I.P 3 I.N = 1 := by
  refine ⟨unusedInput, ?_, rfl, rfl, by decide, by decide⟩
  have hq : ∀ q, ∀ a ∈ ats unusedInput q, ∀ b ∈ ats unusedInput q, decide (a.1 = b.1) = decide (a.2 = b.2) := fun q => by
    show ∀ a ∈ ats unusedInput 0, ∀ b ∈ ats unusedInput 0, decide (a.1 = b.1) = decide (a.2 = b.2)
    decide
  refine ⟨by decide, by decide, by decide, by decide, ?_, ?_, ?_, fun q _ => (ats_unique (hq q)).1, fun q _ => (ats_unique (hq q)).2⟩
  · intro q _
    show ∀ e ∈ [([1, 3], 7)], e.1.length = 2 ∧ ∀ n ∈ e.1, n < 4
    decide
  · intro q _
    show [0, 1, 3].Nodup ∧ ∀ n ∈ [0, 1, 3], n < 4
    decide
  · intro q _ c vs hc
    have hc : [[0, 1], [1, 2]][c]? = some vs := hc
    match c, hc with
    | 0, hc =>
      obtain rfl : [0, 1] = vs := by simpa using hc
      refine ⟨[0, 1], rfl, ?_⟩
      intro i hi
      match i, hi with
      | 0, _ => exact ⟨0, 0, rfl, rfl, by show _ < 3; decide⟩
      | 1, _ => exact ⟨1, 1, rfl, rfl, by show _ < 3; decide⟩
    | 1, hc =>
      obtain rfl : [1, 2] = vs := by simpa using hc
      refine ⟨[1, 2], rfl, ?_⟩
      intro i hi
      match i, hi with
      | 0, _ => exact ⟨0, 1, rfl, rfl, by show _ < 3; decide⟩
      | 1, _ => exact ⟨1, 2, rfl, rfl, by show _ < 3; decide⟩
    | c + 2, hc => simp at hc

/-! ### Example: two triangles on two processes, values for three edges; the common edge is given on both processes -/

private def exInput : Input Nat where
  P := 2
  N := 4
  layout := [1, 2]
  numVert := 2
  vertexDofs := [0, 1, 2]
  ents := fun q => if q = 0 then [([2, 1], 5), ([0, 1], 7)] else [([3, 2], 9), ([1, 2], 4)]
  nodes := fun q => if q = 0 then [0, 1, 2] else [3, 1, 2]
  c2v := fun q => if q = 0 then [[0, 1, 2]] else [[1, 2, 0]]
  xdofs := fun q => if q = 0 then [[0, 1, 2]] else [[1, 0, 2]]

private theorem exOk : Ok exInput := by
  have hq : ∀ q < 2, ∀ a ∈ ats exInput q, ∀ b ∈ ats exInput q, decide (a.1 = b.1) = decide (a.2 = b.2) := by decide
  refine ⟨by decide, by decide, by decide, by decide, ?_, ?_, ?_, fun q h => (ats_unique (hq q h)).1, fun q h => (ats_unique (hq q h)).2⟩
  · show ∀ q < 2, ∀ e ∈ exInput.ents q, e.1.length = 2 ∧ ∀ n ∈ e.1, n < 4
    decide
  · show ∀ q < 2, (exInput.nodes q).Nodup ∧ ∀ n ∈ exInput.nodes q, n < 4
    decide
  · intro q hq c vs hc
    have hq : q < 2 := hq
    interval_cases q
    · match c, hc with
      | 0, hc =>
        obtain rfl : [0, 1, 2] = vs := by simpa [exInput] using hc
        refine ⟨[0, 1, 2], rfl, ?_⟩
        intro i hi
        match i, hi with
        | 0, _ => exact ⟨0, 0, rfl, rfl, by decide⟩
        | 1, _ => exact ⟨1, 1, rfl, rfl, by decide⟩
        | 2, _ => exact ⟨2, 2, rfl, rfl, by decide⟩
      | c + 1, hc => simp [exInput] at hc
    · match c, hc with
      | 0, hc =>
        obtain rfl : [1, 2, 0] = vs := by simpa [exInput] using hc
        refine ⟨[1, 0, 2], rfl, ?_⟩
        intro i hi
        match i, hi with
        | 0, _ => exact ⟨0, 1, rfl, rfl, by decide⟩
        | 1, _ => exact ⟨1, 0, rfl, rfl, by decide⟩
        | 2, _ => exact ⟨2, 2, rfl, rfl, by decide⟩
      | c + 1, hc => simp [exInput] at hc

example : ∃ out, distributeEntityData exInput = some out ∧ out.length = 2 :=
  let ⟨out, h1, h2, _⟩ := C73_distributed_partial exOk
  ⟨out, h1, h2⟩

/-- What the processes get: process 1 has the common edge at its vertices 1 and 0, with both values. -/
example : distributeEntityData exInput = some [[([1, 2], 5), ([0, 1], 7), ([1, 2], 4)], [([1, 0], 5), ([1, 0], 4), ([0, 2], 9)]] := by decide

/-- The tags on process 1: its edge 0 is the common edge. -/
example : createMeshtags [[0, 1], [2, 0], [1, 2]] [[1, 0], [1, 0], [0, 2]] [5, 4, 9] = .ok ⟨[0, 1], [4, 9]⟩ := by rfl

end Verif.Props
