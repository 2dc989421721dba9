import Verif.Lemmas.DofmapExchange
import Verif.Props.C24_Rcm
import Mathlib.Tactic.IntervalCases
/-!
# C42: degree-of-freedom maps of a distributed mesh
-/
namespace Verif.Props
open Verif.World Verif.Dofmap Verif.Spec

/-- Entities of dimension `d` and type number `et` carry a dof number `j`. -/
def HasDof (I : Dofmap.Input) (d et j : Nat) : Prop :=
  d ≤ I.D ∧ ∃ i s ds, i < I.nct ∧ ((I.layout i).getD d [])[s]? = some ds ∧ (I.types d)[et]? = some (I.etype i d s) ∧
    j < ds.length

/-- `num r d et e j` numbers dof `j` of every local entity `e` on every rank, consistently over the ranks of the index
map `W`. -/
structure DofNumbering (I : Dofmap.Input) (W : World) (num : Nat → Nat → Nat → Nat → Nat → Nat) : Prop where
  /-- Numbers are local indices of the index map. -/
  lt : ∀ r, r < I.P → ∀ d et e j, HasDof I d et j → e < numEnts I r d et →
    num r d et e j < W.size r + (W.ghosts r).length
  /-- Every local index is the number of a dof of a local entity. -/
  surj : ∀ r, r < I.P → ∀ x, x < W.size r + (W.ghosts r).length → ∃ d et e j, HasDof I d et j ∧ e < numEnts I r d et ∧
    num r d et e j = x
  /-- Dofs on any two ranks have the same global number exactly if they are the same dof of the same entity. -/
  same : ∀ r, r < I.P → ∀ r', r' < I.P → ∀ d et e j d' et' e' j', HasDof I d et j → e < numEnts I r d et →
    HasDof I d' et' j' → e' < numEnts I r' d' et' →
    (globalOf W r (num r d et e j) = globalOf W r' (num r' d' et' e' j') ↔
      d = d' ∧ et = et' ∧ j = j' ∧ globalOf (I.maps d et) r e = globalOf (I.maps d' et') r' e')
  /-- A dof is owned by the rank that owns its entity. -/
  owner : ∀ r, r < I.P → ∀ d et e j, HasDof I d et j → e < numEnts I r d et → ∀ g eg,
    globalOf W r (num r d et e j) = some g → globalOf (I.maps d et) r e = some eg →
    ∀ q, Owns W q g ↔ Owns (I.maps d et) q eg

variable {I : Dofmap.Input}

def kIdx (I : Dofmap.Input) (d et : Nat) : Nat := ((reqs I).map fun q => (q.d, q.et)).idxOf (d, et)

theorem hasDof_req (h : Dofmap.Ok I) (hP : 0 < I.P) {d et j : Nat} (hd : HasDof I d et j) :
    kIdx I d et < (reqs I).length ∧ (req (reqs I) (kIdx I d et)).d = d ∧ (req (reqs I) (kIdx I d et)).et = et ∧
      j < nk (reqs I) (kIdx I d et) := by
  obtain ⟨h1, i, s, ds, h2, h3, h4, h5⟩ := hd
  obtain ⟨k, hk, hkk⟩ := req_of_slot h hP h2 h1 h3 (by rintro rfl; simp at h5) h4
  have hkx : kIdx I d et = k := by
    have hget : ((reqs I).map fun q => (q.d, q.et))[k]? = some (d, et) := by
      rw [List.getElem?_map]
      unfold req at hkk
      rw [List.getD_eq_getElem?_getD, List.getElem?_eq_getElem hk, Option.getD_some] at hkk
      rw [List.getElem?_eq_getElem hk, hkk]; rfl
    obtain ⟨hlt, heq⟩ := List.getElem?_eq_some_iff.mp hget
    unfold kIdx
    conv_lhs => rw [← heq]
    exact (reqs_inv h hP).nodup.idxOf_getElem k hlt
  rw [hkx]
  refine ⟨hk, by rw [hkk], by rw [hkk], ?_⟩
  unfold nk
  rw [hkk]; exact h5

theorem req_hasDof (h : Dofmap.Ok I) (hP : 0 < I.P) {k j : Nat} (hk : k < (reqs I).length) (hj : j < nk (reqs I) k) :
    HasDof I (req (reqs I) k).d (req (reqs I) k).et j := by
  obtain ⟨i, s, ds, h1, h2, h3, h4, h5, h6⟩ := req_spec h hP hk
  unfold nk at hj
  exact ⟨h2, i, s, ds, h1, h3, h5, by omega⟩

theorem wk_kIdx (h : Dofmap.Ok I) (hP : 0 < I.P) {d et j : Nat} (hd : HasDof I d et j) :
    wk I (reqs I) (kIdx I d et) = I.maps d et := by
  obtain ⟨_, h2, h3, _⟩ := hasDof_req h hP hd
  unfold wk
  rw [h2, h3]

theorem dofWorld_total (h : Dofmap.Ok I) {r : Nat} (hr : r < I.P) :
    (dofWorld I (reqs I)).size r + ((dofWorld I (reqs I)).ghosts r).length = nDofs I r := by
  have := ownedSize_le (I := I) r
  simp only [dofWorld, List.length_map]
  rw [unownedDofs_length h hr]
  omega

theorem dofNumbering (h : Dofmap.Ok I) (hP : 0 < I.P) :
    DofNumbering I (dofWorld I (reqs I)) (fun r d et e j => nv I r (kIdx I d et) e j) := by
  have hval := dofWorld_valid h
  have key : ∀ r, r < I.P → ∀ d et e j, HasDof I d et j → e < numEnts I r d et → ∃ q, q < I.P ∧
      Owns (I.maps d et) q (ge I r (kIdx I d et) e) ∧ globalOf (I.maps d et) r e = some (ge I r (kIdx I d et) e) ∧
      ge I r (kIdx I d et) e - (I.maps d et).r0 q < (I.maps d et).size q ∧
      nv I q (kIdx I d et) (ge I r (kIdx I d et) e - (I.maps d et).r0 q) j < ownedSize I (reqs I) q ∧
      globalOf (dofWorld I (reqs I)) r (nv I r (kIdx I d et) e j) = some ((dofWorld I (reqs I)).r0 q +
        nv I q (kIdx I d et) (ge I r (kIdx I d et) e - (I.maps d et).r0 q) j) := by
    intro r hr d et e j hd he
    obtain ⟨hk, hk1, hk2, hj⟩ := hasDof_req h hP hd
    have hw := wk_kIdx h hP hd
    have he' : e < nloc I (reqs I) r (kIdx I d et) := by unfold nloc; rw [hw]; exact he
    obtain ⟨q, hq, a1, a2, _, _⟩ := entity_owner h hr hk he'
    have hg := globalOf_nv h hr hk he' hj hq a1 a2
    have hge := ge_eq r (kIdx I d et) he'
    have hlt : ge I r (kIdx I d et) e - (wk I (reqs I) (kIdx I d et)).r0 q < (wk I (reqs I) (kIdx I d et)).size q := by omega
    have hn := (nv_ghost h hq hk (e := ge I r (kIdx I d et) e - (wk I (reqs I) (kIdx I d et)).r0 q)
      (by unfold nloc; omega) hj).1.mpr hlt
    have hPw := (wk_valid h hP hk).1
    rw [hw] at a1 a2 hg hge hlt hn hPw
    exact ⟨q, hq, ⟨by omega, a1, a2⟩, hge, hlt, hn, hg⟩
  refine ⟨?_, ?_, ?_, ?_⟩
  · intro r hr d et e j hd he
    obtain ⟨hk, _, _, hj⟩ := hasDof_req h hP hd
    rw [dofWorld_total h hr]
    exact (nv_ghost h hr hk (by unfold nloc; rw [wk_kIdx h hP hd]; exact he) hj).2
  · intro r hr x hx
    rw [dofWorld_total h hr] at hx
    obtain ⟨k, e, j, hk, he, hj, rfl⟩ := nv_surj h hr hx
    have hd := req_hasDof h hP hk hj
    obtain ⟨hk', h1, h2, _⟩ := hasDof_req h hP hd
    have := req_inj h hP hk' hk h1 h2
    refine ⟨_, _, e, j, hd, ?_, by rw [this]⟩
    unfold nloc wk at he
    exact he
  · intro r hr r' hr' d et e j d' et' e' j' hd he hd' he'
    obtain ⟨q, hq, a1, a2, a3, a4, a5⟩ := key r hr d et e j hd he
    obtain ⟨q', hq', b1, b2, b3, b4, b5⟩ := key r' hr' d' et' e' j' hd' he'
    obtain ⟨hk, hk1, hk2, hj⟩ := hasDof_req h hP hd
    obtain ⟨hk', hk1', hk2', hj'⟩ := hasDof_req h hP hd'
    beta_reduce
    rw [a5, b5, a2, b2, Option.some.injEq, Option.some.injEq]
    constructor
    · intro heq
      obtain ⟨rfl, hnv⟩ := Offsets.excl_inj (ownedSize I (reqs I)) a4 b4 heq
      obtain ⟨hkk, hee, rfl⟩ := nv_inj h hq hk (by unfold nloc; rw [wk_kIdx h hP hd]; omega) hj hk'
        (by unfold nloc; rw [wk_kIdx h hP hd']; omega) hj' hnv
      have hdd : d = d' := by rw [← hk1, hkk, hk1']
      have hee' : et = et' := by rw [← hk2, hkk, hk2']
      subst hdd
      subst hee'
      refine ⟨rfl, rfl, rfl, ?_⟩
      have c1 := a1.2
      have c2 := b1.2
      omega
    · rintro ⟨rfl, rfl, rfl, heq⟩
      rw [← heq] at b1
      obtain rfl := range_unique (I.maps d et) a1.2 b1.2
      rw [heq]
  · intro r hr d et e j hd he g eg hg heg p
    obtain ⟨q, hq, a1, a2, a3, a4, a5⟩ := key r hr d et e j hd he
    rw [a5] at hg
    rw [a2] at heg
    obtain rfl := Option.some.inj hg
    obtain rfl := Option.some.inj heg
    constructor
    · rintro ⟨h1, h2⟩
      obtain rfl : p = q := range_unique (dofWorld I (reqs I)) h2 ⟨by omega, by
        have : (dofWorld I (reqs I)).size q = ownedSize I (reqs I) q := rfl
        omega⟩
      exact a1
    · intro h1
      obtain rfl : p = q := range_unique (I.maps d et) h1.2 a1.2
      refine ⟨hq, by omega, ?_⟩
      have : (dofWorld I (reqs I)).size p = ownedSize I (reqs I) p := rfl
      omega

/-- C42: for every consistent topology, mixed or not, distributed over any number of ranks, every layout of dofs on
entities, every reordering function that returns a permutation for undirected graphs, and every order in which messages
are completed, `build_dofmap_data` does not throw, it builds a valid index map, and there is a consistent numbering of the
dofs of all entities such that every cell dof has the number of the dof of the entity it is attached to. -/
theorem C42_dofmap (h : Dofmap.Ok I) (hP : 0 < I.P) :
    ∃ R, (∀ r, r < I.P → required I r = some R) ∧ (dofWorld I R).P = I.P ∧ (dofWorld I R).Valid ∧
      ∃ num, DofNumbering I (dofWorld I R) num ∧
        ∀ r, r < I.P → ∀ i, i < I.nct → (dofmap I R r i).length = numCells I r i * I.ndofs i ∧
          ∀ c, c < numCells I r i → ∀ l, l < I.ndofs i →
          ∃ d et e j, Attached I r i c l d et e j ∧ HasDof I d et j ∧ e < numEnts I r d et ∧
            (dofmap I R r i)[c * I.ndofs i + l]? = some (num r d et e j) := by
  refine ⟨reqs I, fun r hr => required_eq h hr, rfl, dofWorld_valid h, _, dofNumbering h hP, ?_⟩
  intro r hr i hi
  have hlen : (dofArray I (reqs I) r i).length = numCells I r i * I.ndofs i := by
    unfold dofArray
    rw [Offsets.length_flatMap_range]
    simp only [cellDofs_length]
    rw [excl_const, Nat.mul_comm]
  refine ⟨by unfold dofmap; rw [List.length_map, hlen], ?_⟩
  intro c hc l hl
  obtain ⟨d, et, e, j, ha⟩ := attached_exists h hr hi hc hl
  obtain ⟨k, hk, rfl, rfl, he, hj⟩ := attached_req h hr hi hc ha
  have hd := req_hasDof h hP hk hj
  obtain ⟨hk', h1, h2, _⟩ := hasDof_req h hP hd
  have hkk := req_inj h hP hk' hk h1 h2
  refine ⟨_, _, e, j, ha, hd, ?_, ?_⟩
  · unfold nloc wk at he
    exact he
  · have hget : (dofArray I (reqs I) r i)[c * I.ndofs i + l]? = some (pos I r k e j) := by
      unfold dofArray
      have := Offsets.getElem?_flatMap_range (cellDofs I (reqs I) r i) hc (k := l) (by rw [cellDofs_length]; exact hl)
      simp only [cellDofs_length] at this
      rw [excl_const, Nat.mul_comm] at this
      rw [this]
      exact cellDofs_get h hr hi hc hl hk ha
    unfold dofmap
    rw [List.getElem?_map, hget]
    simp only [Option.map_some]
    rw [hkk]; rfl

/-- The dof an entry stands for is unique. -/
theorem C42_attached_unique (h : Dofmap.Ok I) {r i c l d et e j d' et' e' j' : Nat} (hi : i < I.nct)
    (h1 : Attached I r i c l d et e j) (h2 : Attached I r i c l d' et' e' j') : d = d' ∧ et = et' ∧ e = e' ∧ j = j' :=
  attached_unique h hi h1 h2

/-- `reorder_rcm` is an admissible reordering function (C24). -/
theorem C42_rcm_admissible (srt : List Nat → List Nat) (hsrt : ∀ l, (srt l).Perm l) (g : List (List Nat))
    (hb : ∀ l ∈ g, ∀ b ∈ l, b < g.length) (hs : ∀ a b : Nat, b ∈ g.getD a [] → a ∈ g.getD b []) :
    (((Rcm.reorderRcm g srt).getD []).map Int.toNat).Perm (List.range g.length) := by
  obtain ⟨r, h1, h2⟩ := C24_permutation_partial g hb hs srt hsrt
  rw [h1, Option.getD_some]
  have := h2.map Int.toNat
  rw [List.map_map] at this
  refine this.trans (List.Perm.of_eq ?_)
  conv_rhs => rw [← List.map_id (List.range g.length)]
  apply List.map_congr_left
  intro a _
  simp

/-! ## A concrete case

Quadratic elements on two intervals, one per rank; rank 0 has the cell of rank 1 as a ghost. -/

private def dofExMap (d : Nat) : World where
  P := 2
  size r := if d = 0 then [2, 1].getD r 0 else [1, 1].getD r 0
  ghosts r := if d = 0 then [[2], [1]].getD r [] else [[1], []].getD r []
  owners r := if d = 0 then [[1], [0]].getD r [] else [[1], []].getD r []

private def dofExInput : Dofmap.Input where
  P := 2
  D := 1
  nct := 1
  types _ := [7]
  maps d _ := dofExMap d
  etype _ _ _ := 7
  conn r _ _ _ := some ([[[0, 1], [1, 2]], [[1, 0]]].getD r [])
  layout _ := [[[0], [1]], [[2]]]
  ndofs _ := 3
  reorder r := if r = 0 then none else some fun g => (List.range g.length).reverse
  wait _ := [1, 0]

private theorem dofExSlot {d s : Nat} {ds : List Nat} (h : ([[[0], [1]], [[2]]].getD d [])[s]? = some ds) :
    (d = 0 ∧ s = 0 ∧ ds = [0]) ∨ (d = 0 ∧ s = 1 ∧ ds = [1]) ∨ (d = 1 ∧ s = 0 ∧ ds = [2]) := by
  match d, s, h with
  | 0, 0, h => simp at h; simp [h]
  | 0, 1, h => simp at h; simp [h]
  | 0, s + 2, h => simp at h
  | 1, 0, h => simp at h; simp [h]
  | 1, s + 1, h => simp at h
  | d + 2, s, h => simp at h

private theorem dofExSingle {j l a : Nat} (h : [a][j]? = some l) : j = 0 ∧ l = a := by
  match j, h with
  | 0, h => simp at h; simp [h]
  | j + 1, h => simp at h

private theorem dofExOk : Dofmap.Ok dofExInput where
  valid d hd et _ := by
    refine ⟨rfl, ?_⟩
    have hd' : d ≤ 1 := hd
    show (dofExMap d).Valid
    have hown : ∀ r, r < 2 → ∀ k q g, ((dofExMap d).owners r)[k]? = some q → ((dofExMap d).ghosts r)[k]? = some g →
        k < 1 ∧ q = ((dofExMap d).owners r).getD 0 0 ∧ g = ((dofExMap d).ghosts r).getD 0 0 := by
      intro r hr k q g h1 h2
      interval_cases d <;> interval_cases r <;> rcases k with _ | k <;>
        simp [dofExMap] at h1 h2 <;> simp [dofExMap, ← h1, ← h2]
    have hz : ∀ k : Nat, ([] : List Nat)[k]? = none := fun _ => rfl
    refine ⟨?_, ?_, ?_⟩
    · interval_cases d <;> decide +kernel
    · interval_cases d <;> decide +kernel
    · intro r hr k q g h1 h2
      have hr' : r < 2 := hr
      obtain ⟨hk, rfl, rfl⟩ := hown r hr' k q g h1 h2
      interval_cases d <;> interval_cases r
      · decide
      · decide
      · decide
      · exact absurd h1 (by rw [show (dofExMap 1).owners 1 = [] from rfl, hz]; simp)
  types_nodup _ _ := by simp [dofExInput]
  types_cell := rfl
  etype_mem _ _ _ _ _ _ := by simp [dofExInput]
  etype_cell i hi := by
    have : i < 1 := hi
    obtain rfl : i = 0 := by omega
    rfl
  one_cell _ _ := Nat.le_refl 1
  dof_lt i _ d _ s ds h l hl := by
    show l < 3
    rcases dofExSlot h with ⟨_, _, rfl⟩ | ⟨_, _, rfl⟩ | ⟨_, _, rfl⟩ <;> simp at hl <;> omega
  dof_slot i _ l hl := by
    have hl' : l < 3 := hl
    interval_cases l
    · exact ⟨0, 0, 0, [0], by decide, rfl, rfl⟩
    · exact ⟨0, 1, 0, [1], by decide, rfl, rfl⟩
    · exact ⟨1, 0, 0, [2], by decide, rfl, rfl⟩
  dof_unique i _ l d s j ds d' s' j' ds' _ _ h1 h2 h3 h4 := by
    rcases dofExSlot h1 with ⟨rfl, rfl, rfl⟩ | ⟨rfl, rfl, rfl⟩ | ⟨rfl, rfl, rfl⟩ <;>
      rcases dofExSlot h3 with ⟨rfl, rfl, rfl⟩ | ⟨rfl, rfl, rfl⟩ | ⟨rfl, rfl, rfl⟩ <;>
      obtain ⟨rfl, rfl⟩ := dofExSingle h2 <;> obtain ⟨rfl, h⟩ := dofExSingle h4 <;> simp at h ⊢
  compat i _ i' _ d _ s s' ds ds' h1 h2 _ _ _ := by
    rcases dofExSlot h1 with ⟨_, _, rfl⟩ | ⟨_, _, rfl⟩ | ⟨_, _, rfl⟩ <;>
      rcases dofExSlot h2 with ⟨_, _, rfl⟩ | ⟨_, _, rfl⟩ | ⟨_, _, rfl⟩ <;> rfl
  conn r hr i hi d hd et s hs _ := by
    have hr' : r < 2 := hr
    have hd' : d < 1 := hd
    obtain rfl : d = 0 := by omega
    have hn : numCells dofExInput r i = [2, 1].getD r 0 := by interval_cases r <;> rfl
    have hc : (List.range ((dofExInput.layout i).getD 0 []).length).countP
      (fun s' => decide (dofExInput.etype i 0 s' = dofExInput.etype i 0 s)) = 2 := rfl
    have he : numEnts dofExInput r 0 et = [3, 2].getD r 0 := by interval_cases r <;> rfl
    refine ⟨_, rfl, ?_⟩
    intro c hcc
    rw [hn] at hcc
    rw [hc, he]
    interval_cases r
    · have : c < 2 := hcc
      interval_cases c
      · exact ⟨_, rfl, rfl, by decide⟩
      · exact ⟨_, rfl, rfl, by decide⟩
    · have : c < 1 := hcc
      interval_cases c
      exact ⟨_, rfl, rfl, by decide⟩
  reorder r _ f hf g _ _ := by
    change (if r = 0 then none else some fun g => (List.range g.length).reverse) = some f at hf
    by_cases h : r = 0
    · rw [if_pos h] at hf; cases hf
    · rw [if_neg h] at hf
      obtain rfl := Option.some.inj hf
      exact List.reverse_perm _
  wait r _ R hR := by
    have : required dofExInput r = some [⟨0, 0, 1⟩, ⟨1, 0, 1⟩] := rfl
    rw [this] at hR
    obtain rfl := Option.some.inj hR
    show [1, 0].Perm [0, 1]
    decide

example : required dofExInput 0 = some [⟨0, 0, 1⟩, ⟨1, 0, 1⟩] ∧
    dofmap dofExInput [⟨0, 0, 1⟩, ⟨1, 0, 1⟩] 0 0 = [0, 1, 2, 1, 3, 4] ∧
    dofmap dofExInput [⟨0, 0, 1⟩, ⟨1, 0, 1⟩] 1 0 = [2, 1, 0] ∧
    (dofWorld dofExInput [⟨0, 0, 1⟩, ⟨1, 0, 1⟩]).ghosts 0 = [4, 3] ∧
    (dofWorld dofExInput [⟨0, 0, 1⟩, ⟨1, 0, 1⟩]).ghosts 1 = [1] := by decide +kernel

example := C42_dofmap dofExOk (by decide)

end Verif.Props
