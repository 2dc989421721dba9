import Verif.Spec.Geometry
import Verif.Props.C27_LocalMaps
import Verif.Props.C09_DistributeData
import Verif.Lemmas.DofmapCheck
import Verif.Props.C69_Collapse
/-! C70: every cell of a mesh has the coordinates that were given for its nodes. -/
namespace Verif.Props
open Verif.World Verif.Spec Verif.Std Verif.Dofmap Verif.Geometry Verif.LocalMaps Verif.Exchange Verif.Group Verif.PostOffice

private theorem foldl_max_lt (l : List Nat) (a n : Nat) (ha : a < n) (h : ∀ x ∈ l, x < n) : l.foldl max a < n := by
  induction l generalizing a with
  | nil => exact ha
  | cons b l ih => exact ih (max a b) (by have := h b (by simp); omega) fun x hx => h x (by simp [hx])

private theorem nodes_length {loc : List Nat} {φ : Nat → Nat} {n : Nat} (hlt : ∀ x ∈ loc, x < n) (hall : ∀ x, x < n → x ∈ loc)
    (hinj : ∀ x, x < n → ∀ y, y < n → φ x = φ y → x = y) : (unique (sortNat (loc.map φ))).length = n := by
  have hp : (unique (sortNat (loc.map φ))).Perm ((List.range n).map φ) := by
    refine (List.perm_ext_iff_of_nodup (nodup_of_strict (unique_sortNat_sorted _)) ?_).mpr ?_
    · refine List.Nodup.map_on ?_ List.nodup_range
      intro x hx y hy
      exact hinj x (List.mem_range.mp hx) y (List.mem_range.mp hy)
    · intro a
      rw [mem_unique_sortNat, List.mem_map, List.mem_map]
      constructor
      · rintro ⟨x, hx, rfl⟩
        exact ⟨x, List.mem_range.mpr (hlt x hx), rfl⟩
      · rintro ⟨x, hx, rfl⟩
        exact ⟨x, hall x (List.mem_range.mp hx), rfl⟩
  rw [hp.length_eq, List.length_map, List.length_range]

/-- The map from dofs to rows of the coordinates. -/
private theorem l2l_spec {loc : List Nat} {φ : Nat → Nat} {n : Nat} (hlt : ∀ x ∈ loc, x < n) (hall : ∀ x, x < n → x ∈ loc) :
    ∃ g l, localToGlobal ((loc.map φ).map Int.ofNat) loc = some g ∧
      localToLocal g ((unique (sortNat (loc.map φ))).map Int.ofNat) = some l ∧ l.length = n ∧
      ∀ x, x < n → ∃ k, l[x]? = some k ∧ (unique (sortNat (loc.map φ)))[k]? = some (φ x) := by
  obtain ⟨g, hg, hg2⟩ := C27_local_to_global ((loc.map φ).map Int.ofNat) loc ⟨by simp, by
    intro i _ j _ hij
    simp only [List.getElem?_map, hij]⟩
  have hval : ∀ x, x < n → g[x]? = some (Int.ofNat (φ x)) := by
    intro x hx
    obtain ⟨i, hi⟩ := List.mem_iff_getElem?.mp (hall x hx)
    rw [hg2 i x hi]
    simp [hi]
  have hlen : g.length = n := by
    unfold localToGlobal at hg
    split at hg
    · rename_i he
      obtain rfl := Option.some.inj hg
      rcases Nat.eq_zero_or_pos n with h0 | h0
      · exact h0.symm
      · have := hall 0 h0
        rw [he.2] at this
        cases this
    · rename_i he
      rw [if_neg (by simp)] at hg
      obtain rfl := Option.some.inj hg
      rw [l2gStep_length, List.length_replicate]
      have hne : loc ≠ [] := by
        rintro rfl
        exact he ⟨rfl, rfl⟩
      obtain ⟨a, ha⟩ := List.exists_mem_of_ne_nil _ hne
      have hn := hlt a ha
      have h1 := foldl_max_lt loc 0 n (by omega) hlt
      have h2 := (le_foldl_max loc 0).1 (n - 1) (hall (n - 1) (by omega))
      omega
  have hnd : ((unique (sortNat (loc.map φ))).map Int.ofNat).Nodup :=
    (nodup_of_strict (unique_sortNat_sorted _)).map fun a b h => Int.ofNat.inj h
  obtain ⟨l, hl, hl2, hl3⟩ := C27_local_to_local g ((unique (sortNat (loc.map φ))).map Int.ofNat) hnd (by
    intro v hv
    obtain ⟨x, hx⟩ := List.mem_iff_getElem?.mp hv
    have hxn : x < n := hlen ▸ (List.getElem?_eq_some_iff.mp hx).1
    rw [hval x hxn] at hx
    obtain rfl := Option.some.inj hx
    exact List.mem_map_of_mem ((mem_unique_sortNat _ _).mpr (List.mem_map_of_mem (hall x hxn))))
  refine ⟨g, l, hg, hl, hl2.trans hlen, ?_⟩
  intro x hx
  have hk : l[x]? = some l[x] := List.getElem?_eq_getElem (by omega)
  refine ⟨_, hk, ?_⟩
  have := hl3 x _ hk
  rw [hval x hx, List.getElem?_map] at this
  cases hv : (unique (sortNat (loc.map φ)))[l[x]]? with
  | none => rw [hv] at this; simp at this
  | some v =>
    rw [hv] at this
    simp only [Option.map_some, Option.some.injEq] at this
    rw [Int.ofNat.inj this]

private theorem rows_eq {α : Type} (n : Nat) : ∀ (m : Nat) (l : List α), l.length = m * n →
    (List.range m).flatMap (fun c => (l.drop (c * n)).take n) = l
  | 0, l, h => by
    rw [Nat.zero_mul] at h
    rw [List.length_eq_zero_iff.mp h]
    rfl
  | m + 1, l, h => by
    have h1 : (l.drop n).length = m * n := by
      rw [List.length_drop, h, Nat.succ_mul]
      omega
    rw [List.range_succ_eq_map, List.flatMap_cons, List.flatMap_map, Nat.zero_mul, List.drop_zero]
    conv_rhs => rw [← List.take_append_drop n l, ← rows_eq n m (l.drop n) h1]
    congr 1
    apply List.flatMap_congr
    intro c _
    rw [List.drop_drop, Nat.succ_mul, Nat.add_comm]

private theorem flatMap_perm_congr {α : Type} (f g : Nat → List α) : ∀ l : List Nat, (∀ c ∈ l, (f c).Perm (g c)) →
    (l.flatMap f).Perm (l.flatMap g)
  | [], _ => List.Perm.refl _
  | a :: l, h => by
    rw [List.flatMap_cons, List.flatMap_cons]
    exact (h a (by simp)).append (flatMap_perm_congr f g l fun c hc => h c (by simp [hc]))

private theorem mapM_of_places {β γ : Type} (f : β → Option γ) : ∀ (l : List β) (m : List γ), l.length = m.length →
    (∀ (x : Nat) a b, l[x]? = some a → m[x]? = some b → f a = some b) → l.mapM f = some m
  | [], [], _, _ => rfl
  | a :: l, b :: m, hl, h => by
    rw [List.mapM_cons, h 0 a b rfl rfl, mapM_of_places f l m (by simpa using hl) fun x a b ha hb => h (x + 1) a b ha hb]
    rfl

section
variable {G : Geometry.Input} {R : List Req} {node : Nat → Nat → Nat → Nat → Nat → Nat}

/-- The hypotheses of the theorems below: a consistent topology with every entity in a cell, nodes that fit, permutation
functions that permute, and no permutations for several cell types. -/
structure GeometryOk (G : Geometry.Input) (R : List Req) (node : Nat → Nat → Nat → Nat → Nat → Nat) : Prop where
  ranks : 0 < G.I.P
  topo : Dofmap.Ok G.I
  req : ∀ r, r < G.I.P → required G.I r = some R
  inCells : InCells G.I
  nodes : NodesFit G node
  moves : ∀ i, i < G.I.nct → ∀ f, G.perm i = some f → ∀ info, Moves (G.I.ndofs i) (f info)
  single : 1 < G.I.nct → ∀ i, i < G.I.nct → G.perm i = none

/-- A row of the dofmap after the permutation. -/
private def movedRow (G : Geometry.Input) (R : List Req) (r i c : Nat) : List Nat :=
  let row := ((dofmap G.I R r i).drop (c * G.I.ndofs i)).take (G.I.ndofs i)
  match G.perm i with
  | none => row
  | some f => f (G.info r c) row

private theorem permuted_rows (h : GeometryOk G R node) {r i : Nat} (hi : i < G.I.nct)
    (hl : (dofmap G.I R r i).length = numCells G.I r i * G.I.ndofs i) :
    permuted G R r i = (List.range (numCells G.I r i)).flatMap (movedRow G R r i) := by
  unfold permuted movedRow
  cases hp : G.perm i with
  | none =>
    simp only
    rw [rows_eq _ _ _ hl]
    cases i with
    | zero => rw [hp]; rfl
    | succ i => rfl
  | some f =>
    have h0 : i = 0 := by
      by_contra hc
      rw [h.single (by omega) i hi] at hp
      cases hp
    subst h0
    rw [hp]
    rfl

private theorem take_row {l : List Nat} {m n c : Nat} (hl : l.length = m * n) (hc : c < m) : ((l.drop (c * n)).take n).length = n := by
  rw [List.length_take, List.length_drop, hl]
  have : (c + 1) * n ≤ m * n := Nat.mul_le_mul_right n hc
  rw [Nat.succ_mul] at this
  omega

private theorem take_get {l : List Nat} {n c k : Nat} (hk : k < n) : ((l.drop (c * n)).take n)[k]? = l[c * n + k]? := by
  rw [List.getElem?_take_of_lt hk, List.getElem?_drop]

/-- What is used of the dofmap: the nodes of all cells are the dofs, renamed. -/
private theorem renamed (h : GeometryOk G R node) : ∃ φ : Nat → Nat → Nat, (dofWorld G.I R).P = G.I.P ∧ (dofWorld G.I R).Valid ∧
    (∀ r, r < G.I.P → ∀ i, i < G.I.nct → G.cells r i = (permuted G R r i).map (φ r) ∧
      ∀ x ∈ permuted G R r i, x < (dofWorld G.I R).size r + ((dofWorld G.I R).ghosts r).length) ∧
    (∀ r, r < G.I.P → ∀ x, x < (dofWorld G.I R).size r + ((dofWorld G.I R).ghosts r).length →
      ∃ i, i < G.I.nct ∧ x ∈ permuted G R r i) ∧
    ∀ r, r < G.I.P → ∀ r', r' < G.I.P → ∀ x x', x < (dofWorld G.I R).size r + ((dofWorld G.I R).ghosts r).length →
      x' < (dofWorld G.I R).size r' + ((dofWorld G.I R).ghosts r').length →
      (globalOf (dofWorld G.I R) r x = globalOf (dofWorld G.I R) r' x' ↔ φ r x = φ r' x') := by
  obtain ⟨R0, h1, h2, h3, num, h4, h5⟩ := C42_dofmap h.topo h.ranks
  have := (h1 0 h.ranks).symm.trans (h.req 0 h.ranks)
  obtain rfl := Option.some.inj this
  have hphi : ∃ φ : Nat → Nat → Nat, ∀ r, r < G.I.P → ∀ d t e j, HasDof G.I d t j → e < numEnts G.I r d t →
      φ r (num r d t e j) = node r d t e j := by
    classical
    refine ⟨fun r x => if hx : ∃ q : Nat × Nat × Nat × Nat, HasDof G.I q.1 q.2.1 q.2.2.2 ∧ q.2.2.1 < numEnts G.I r q.1 q.2.1 ∧
      num r q.1 q.2.1 q.2.2.1 q.2.2.2 = x then
        node r hx.choose.1 hx.choose.2.1 hx.choose.2.2.1 hx.choose.2.2.2 else 0, ?_⟩
    intro r hr d t e j a1 a2
    have hx : ∃ q : Nat × Nat × Nat × Nat, HasDof G.I q.1 q.2.1 q.2.2.2 ∧ q.2.2.1 < numEnts G.I r q.1 q.2.1 ∧
      num r q.1 q.2.1 q.2.2.1 q.2.2.2 = num r d t e j := ⟨(d, t, e, j), a1, a2, rfl⟩
    simp only
    rw [dif_pos hx]
    obtain ⟨b1, b2, b3⟩ := hx.choose_spec
    exact (h.nodes.same r hr r hr _ _ _ _ _ _ _ _ b1 b2 a1 a2).mpr
      ((h4.same r hr r hr _ _ _ _ _ _ _ _ b1 b2 a1 a2).mp (by rw [b3]))
  obtain ⟨φ, hφ⟩ := hphi
  have hmoved : ∀ r, r < G.I.P → ∀ i, i < G.I.nct → ∀ c, c < numCells G.I r i →
      (movedRow G R0 r i c).Perm (((dofmap G.I R0 r i).drop (c * G.I.ndofs i)).take (G.I.ndofs i)) := by
    intro r hr i hi c hc
    unfold movedRow
    cases hp : G.perm i with
    | none => exact List.Perm.refl _
    | some f => exact (h.moves i hi f hp _).perm _ (take_row (h5 r hr i hi).1 hc)
  have hmem : ∀ r, r < G.I.P → ∀ i, i < G.I.nct → (permuted G R0 r i).Perm (dofmap G.I R0 r i) := by
    intro r hr i hi
    rw [permuted_rows h hi (h5 r hr i hi).1]
    conv_rhs => rw [← rows_eq _ _ _ (h5 r hr i hi).1]
    exact flatMap_perm_congr _ _ _ fun c hc => hmoved r hr i hi c (List.mem_range.mp hc)
  refine ⟨φ, h2, h3, ?_, ?_, ?_⟩
  · intro r hr i hi
    obtain ⟨hl, hcell⟩ := h5 r hr i hi
    constructor
    · rw [permuted_rows h hi hl, List.map_flatMap]
      conv_lhs => rw [← rows_eq _ _ _ (h.nodes.length r hr i hi)]
      apply List.flatMap_congr
      intro c hc
      rw [List.mem_range] at hc
      obtain ⟨raw, n1, n2, n3⟩ := h.nodes.row r hr i hi c hc
      have hrow := take_row hl hc
      have hraw : raw = (((dofmap G.I R0 r i).drop (c * G.I.ndofs i)).take (G.I.ndofs i)).map (φ r) := by
        apply List.ext_getElem?
        intro k
        by_cases hk : k < G.I.ndofs i
        · obtain ⟨d, t, e, j, a1, a2, a3, a4⟩ := hcell c hc k hk
          rw [n2 k d t e j a1, List.getElem?_map, take_get hk, a4, Option.map_some, hφ r hr d t e j a2 a3]
        · rw [List.getElem?_eq_none (by omega), List.getElem?_eq_none (by rw [List.length_map, hrow]; omega)]
      show G.row r i c = _
      rw [n3]
      unfold movedRow
      cases hp : G.perm i with
      | none => exact hraw
      | some f =>
        simp only
        rw [hraw, (h.moves i hi f hp _).natural _ hrow]
    · intro x hx
      rw [(hmem r hr i hi).mem_iff] at hx
      obtain ⟨k, hk⟩ := List.mem_iff_getElem?.mp hx
      have hk2 := (List.getElem?_eq_some_iff.mp hk).1
      rw [hl] at hk2
      have hn : 0 < G.I.ndofs i := by
        rcases Nat.eq_zero_or_pos (G.I.ndofs i) with h0 | h0
        · rw [h0] at hk2; omega
        · exact h0
      obtain ⟨d, t, e, j, a1, a2, a3, a4⟩ := hcell (k / G.I.ndofs i) ((Nat.div_lt_iff_lt_mul hn).mpr hk2) (k % G.I.ndofs i)
        (Nat.mod_lt _ hn)
      rw [Nat.mul_comm, Nat.div_add_mod, hk] at a4
      rw [Option.some.inj a4]
      exact h4.lt r hr d t e j a2 a3
  · intro r hr x hx
    obtain ⟨d, t, e, j, a1, a2, rfl⟩ := h4.surj r hr x hx
    obtain ⟨i, c, l, hi, hc, hl, hat⟩ := h.inCells r hr d t e j a1 a2
    refine ⟨i, hi, (hmem r hr i hi).mem_iff.mpr ?_⟩
    obtain ⟨d', t', e', j', b1, b2, b3, b4⟩ := (h5 r hr i hi).2 c hc l hl
    obtain ⟨rfl, rfl, rfl, rfl⟩ := C42_attached_unique h.topo hi hat b1
    exact List.mem_of_getElem? b4
  · intro r hr r' hr' x x' hx hx'
    obtain ⟨d, t, e, j, a1, a2, rfl⟩ := h4.surj r hr x hx
    obtain ⟨d', t', e', j', b1, b2, rfl⟩ := h4.surj r' hr' x' hx'
    rw [hφ r hr d t e j a1 a2, hφ r' hr' d' t' e' j' b1 b2]
    exact (h4.same r hr r' hr' _ _ _ _ _ _ _ _ a1 a2 b1 b2).trans (h.nodes.same r hr r' hr' _ _ _ _ _ _ _ _ a1 a2 b1 b2).symm

/-- `create_geometry` for coordinates `X` of all nodes. -/
private theorem create_right (h : GeometryOk G R node) {K : Type} [Zero K] (X : Nat → List K) :
    ∃ g : Nat → Geometry K, (∀ r, r < G.I.P → createGeometry G R r ((nodes G r).map X) = some (g r)) ∧
      Right G (dofWorld G.I R) X g := by
  obtain ⟨φ, hP, hv, hc, hs, hsame⟩ := renamed h
  have hall : ∀ r, r < G.I.P → allNodes G r = ((List.range G.I.nct).flatMap (permuted G R r)).map (φ r) := by
    intro r hr
    unfold allNodes
    rw [List.map_flatMap]
    apply List.flatMap_congr
    intro i hi
    exact (hc r hr i (List.mem_range.mp hi)).1
  have hg : ∀ r, r < G.I.P → createGeometry G R r ((nodes G r).map X) = some
      { dofmaps := (List.range G.I.nct).map (permuted G R r)
        x := (List.range ((dofWorld G.I R).size r + ((dofWorld G.I R).ghosts r).length)).map fun x => pad (X (φ r x))
        igi := (List.range ((dofWorld G.I R).size r + ((dofWorld G.I R).ghosts r).length)).map (φ r) } := by
    intro r hr
    have hlt : ∀ x ∈ (List.range G.I.nct).flatMap (permuted G R r),
        x < (dofWorld G.I R).size r + ((dofWorld G.I R).ghosts r).length := by
      intro x hx
      obtain ⟨i, hi, hx⟩ := List.mem_flatMap.mp hx
      exact (hc r hr i (List.mem_range.mp hi)).2 x hx
    have hmem : ∀ x, x < (dofWorld G.I R).size r + ((dofWorld G.I R).ghosts r).length →
        x ∈ (List.range G.I.nct).flatMap (permuted G R r) := by
      intro x hx
      obtain ⟨i, hi, hx⟩ := hs r hr x hx
      exact List.mem_flatMap.mpr ⟨i, List.mem_range.mpr hi, hx⟩
    have hinj : ∀ x, x < (dofWorld G.I R).size r + ((dofWorld G.I R).ghosts r).length → ∀ y,
        y < (dofWorld G.I R).size r + ((dofWorld G.I R).ghosts r).length → φ r x = φ r y → x = y := by
      intro x hx y hy hxy
      exact Dofmap.globalOf_inj hv (hP ▸ hr) hx hy ((hsame r hr r hr x y hx hy).mpr hxy)
    have hnl := nodes_length hlt hmem hinj
    obtain ⟨m, l, e1, e2, e3, e4⟩ := l2l_spec (φ := φ r) hlt hmem
    have hnodes : nodes G r = unique (sortNat (((List.range G.I.nct).flatMap (permuted G R r)).map (φ r))) := by
      unfold nodes
      rw [hall r hr]
    rw [← hnodes] at hnl e2 e4
    rw [← hall r hr] at e1
    generalize (dofWorld G.I R).size r + ((dofWorld G.I R).ghosts r).length = n at *
    have hl : l2l G R r = some l := by
      unfold l2l
      rw [e1]
      exact e2
    have hw : l.mapM (fun k => (nodes G r)[k]?) = some ((List.range n).map (φ r)) := by
      refine mapM_of_places _ _ _ (by simp [e3]) ?_
      intro x a b ha hb
      have hx : x < n := e3 ▸ (List.getElem?_eq_some_iff.mp ha).1
      obtain ⟨k, k1, k2⟩ := e4 x hx
      rw [k1] at ha
      obtain rfl := Option.some.inj ha
      rw [k2, ← hb, List.getElem?_map, List.getElem?_range hx]
      rfl
    have hi : inputIndices l (nodes G r) = some ((List.range n).map (φ r)) := by
      unfold inputIndices
      rw [hw]
      show (if _ then _ else _) = _
      rw [if_neg (by simp [hnl])]
      simp [hnl]
    have hx : (List.range ((nodes G r).map X).length).mapM (fun i => do some (pad (← ((nodes G r).map X)[← l[i]?]?))) =
        some ((List.range n).map fun x => pad (X (φ r x))) := by
      rw [List.length_map, hnl]
      refine mapM_of_places _ _ _ (by simp) ?_
      intro x a b ha hb
      have hx : x < n := by simpa using (List.getElem?_eq_some_iff.mp ha).1
      rw [List.getElem?_range hx] at ha
      obtain rfl := Option.some.inj ha
      obtain ⟨k, k1, k2⟩ := e4 x hx
      rw [List.getElem?_map, List.getElem?_range hx] at hb
      rw [k1]
      simp only [Option.bind_eq_bind, Option.bind_some, List.getElem?_map, k2, Option.map_some]
      simpa using hb
    unfold createGeometry
    rw [hl]
    simp only [Option.bind_eq_bind, Option.bind_some]
    rw [hi]
    simp only [Option.bind_some]
    simp only [Option.bind_eq_bind] at hx
    rw [hx]
    simp
  refine ⟨_, hg, hP, hv, fun r hr => by simp, fun r hr => by simp, ?_, ?_, ?_⟩
  · intro r hr i hi
    refine ⟨permuted G R r i, by simp [hi], by rw [(hc r hr i hi).1]; simp, ?_⟩
    intro k n hk
    rw [(hc r hr i hi).1, List.getElem?_map] at hk
    cases hx : (permuted G R r i)[k]? with
    | none => rw [hx] at hk; simp at hk
    | some x =>
      rw [hx] at hk
      refine ⟨x, rfl, ?_⟩
      rw [List.getElem?_map, List.getElem?_range ((hc r hr i hi).2 x (List.mem_of_getElem? hx))]
      exact hk
  · intro r hr x n hx
    simp only [List.getElem?_map] at hx ⊢
    cases hk : (List.range ((dofWorld G.I R).size r + ((dofWorld G.I R).ghosts r).length))[x]? with
    | none => rw [hk] at hx; simp at hx
    | some y =>
      rw [hk] at hx
      obtain rfl := Option.some.inj hx
      refine ⟨_, rfl, by simp [pad], ?_, ?_⟩
      · intro v hv
        simp only [pad, List.drop_left, List.mem_replicate] at hv
        exact hv.2
      · intro hle
        simp [pad]
        omega
  · intro r hr r' hr' x n x' n' hx hx'
    simp only [List.getElem?_map] at hx hx'
    have hxl : x < (dofWorld G.I R).size r + ((dofWorld G.I R).ghosts r).length := by
      by_contra hc
      rw [List.getElem?_eq_none (by simpa using hc)] at hx
      cases hx
    have hxl' : x' < (dofWorld G.I R).size r' + ((dofWorld G.I R).ghosts r').length := by
      by_contra hc
      rw [List.getElem?_eq_none (by simpa using hc)] at hx'
      cases hx'
    rw [List.getElem?_range hxl] at hx
    rw [List.getElem?_range hxl'] at hx'
    obtain rfl := Option.some.inj hx
    obtain rfl := Option.some.inj hx'
    exact hsame r hr r' hr' x x' hxl hxl'

/-- C70: for every mesh whose nodes fit its topology, however cells and coordinates are distributed, the geometry has for
each node of each cell the coordinates of the input node, and points are the same on all ranks exactly if the input
nodes are. -/
theorem C70_geometry (h : GeometryOk G R node) {K : Type} [Zero K] (comm1 : List Nat) (hn : comm1.Nodup) (hsub : ∀ q ∈ comm1, q < G.I.P)
    (xs : Nat → List (List K)) (hempty : ∀ q, q < G.I.P → q ∉ comm1 → xs q = []) (ps ds : Nat → List Nat)
    (h1 : InEdges G.I.P (dataInput G.I.P comm1 xs (nodes G) ps ds).sendDest ps)
    (h2 : InEdges G.I.P (dataInput G.I.P comm1 xs (nodes G) ps ds).src ds)
    (hin : ∀ r, r < G.I.P → ∀ i, i < G.I.nct → ∀ n ∈ G.cells r i, n < (comm1.flatMap xs).length) :
    ∃ g : Nat → Geometry K, (∀ r, r < G.I.P → geometryOf G R comm1 xs ps ds r = some (g r)) ∧
      Right G (dofWorld G.I R) (fun n => (comm1.flatMap xs).getD n []) g := by
  obtain ⟨g, hg, hr⟩ := create_right h fun n => (comm1.flatMap xs).getD n []
  refine ⟨g, ?_, hr⟩
  intro r hr
  unfold geometryOf
  rw [if_neg, C09_distribute_data G.I.P comm1 hn hsub xs hempty (nodes G) ps ds h1 h2 ?_ r hr]
  · exact hg r hr
  · intro q hq n hnm
    rw [nodes, mem_unique_sortNat] at hnm
    obtain ⟨i, hi, hnm⟩ := List.mem_flatMap.mp hnm
    exact hin q hq i (List.mem_range.mp hi) n hnm
  · rintro ⟨a1, a2⟩
    rw [List.any_eq_true] at a2
    obtain ⟨i, hi, a2⟩ := a2
    rw [h.single a1 i (List.mem_range.mp hi)] at a2
    cases a2

/-- Meshes of several cell types with an element that needs permutations are refused. -/
theorem C70_refused {K : Type} [Zero K] (comm1 : List Nat) (xs : Nat → List (List K)) (ps ds : Nat → List Nat) (ht : 1 < G.I.nct)
    {i : Nat} (hi : i < G.I.nct) (hp : G.perm i ≠ none) (r : Nat) : geometryOf G R comm1 xs ps ds r = none := by
  unfold geometryOf
  rw [if_pos]
  refine ⟨ht, List.any_eq_true.mpr ⟨i, List.mem_range.mpr hi, ?_⟩⟩
  cases h : G.perm i with
  | none => exact absurd h hp
  | some f => rfl

end

/-! ## Concrete cases -/

open SubSpace (slot slot_some getD_some)

/-- The local entity at place `s` of a cell, for one type of entities. -/
private def entAt (I : Dofmap.Input) (r c d s : Nat) : Nat :=
  if d = I.D then c else (((I.conn r 0 d 0).getD []).getD c []).getD (slotPos I 0 d s) 0

private def SameCheck (I : Dofmap.Input) (nd : Nat → Nat) (node : Nat → Nat → Nat → Nat → Nat) (r r' d d' : Nat) : Prop :=
  ∀ e < numEnts I r d 0, ∀ e' < numEnts I r' d' 0, ∀ j < nd d, ∀ j' < nd d',
    decide (node r d e j = node r' d' e' j') = decide ((d, j, globalOf (I.maps d 0) r e) = (d', j', globalOf (I.maps d' 0) r' e'))

private instance (I : Dofmap.Input) (nd : Nat → Nat) (node : Nat → Nat → Nat → Nat → Nat) (r r' d d' : Nat) :
    Decidable (SameCheck I nd node r r' d d') := by unfold SameCheck; infer_instance

private def RawCheck (I : Dofmap.Input) (node : Nat → Nat → Nat → Nat → Nat) (raw : List Nat) (r c d : Nat) : Prop :=
  ∀ s < ((I.layout 0).getD d []).length, ∀ j < (slot (I.layout 0) d s).length,
    raw[(slot (I.layout 0) d s).getD j 0]? = some (node r d (entAt I r c d s) j)

private instance (I : Dofmap.Input) (node : Nat → Nat → Nat → Nat → Nat) (raw : List Nat) (r c d : Nat) :
    Decidable (RawCheck I node raw r c d) := by unfold RawCheck; infer_instance

/-- The hypotheses of the theorem by computation, for one cell type. -/
private theorem geometryOk_of_check (G : Geometry.Input) (R : List Req) (nd : Nat → Nat) (node : Nat → Nat → Nat → Nat → Nat)
    (raw : Nat → Nat → List Nat) (hP : 0 < G.I.P) (ht : Dofmap.Ok G.I) (hR : ∀ r < G.I.P, required G.I r = some R)
    (h1 : G.I.nct = 1) (ht1 : ∀ d < G.I.D + 1, (G.I.types d).length = 1)
    (hnd : ∀ d < G.I.D + 1, ∀ s < ((G.I.layout 0).getD d []).length, (slot (G.I.layout 0) d s).length = nd d)
    (hsame : ∀ r < G.I.P, ∀ r' < G.I.P, ∀ d < G.I.D + 1, ∀ d' < G.I.D + 1, SameCheck G.I nd node r r' d d')
    (hlen : ∀ r < G.I.P, (G.cells r 0).length = numCells G.I r 0 * G.I.ndofs 0)
    (hraw : ∀ r < G.I.P, ∀ c < numCells G.I r 0, (raw r c).length = G.I.ndofs 0 ∧
      ∀ d < G.I.D + 1, RawCheck G.I node (raw r c) r c d)
    (hrow : ∀ r, r < G.I.P → ∀ c, c < numCells G.I r 0 → G.row r 0 c = match G.perm 0 with
      | none => raw r c
      | some f => f (G.info r c) (raw r c))
    (hin : ∀ r < G.I.P, ∀ d < G.I.D + 1, ∀ e < numEnts G.I r d 0, ∃ c ∈ List.range (numCells G.I r 0),
      ∃ s ∈ List.range ((G.I.layout 0).getD d []).length, entAt G.I r c d s = e)
    (hm : ∀ f, G.perm 0 = some f → ∀ info, Moves (G.I.ndofs 0) (f info)) :
    GeometryOk G R fun r d _ e j => node r d e j := by
  have hz : ∀ {i}, i < G.I.nct → i = 0 := by intro i hi; omega
  have hhas : ∀ {d t j}, HasDof G.I d t j → d < G.I.D + 1 ∧ t = 0 ∧ j < nd d := by
    rintro d t j ⟨a1, i, s, ds, a2, a3, a4, a5⟩
    obtain rfl := hz a2
    obtain ⟨b1, rfl⟩ := slot_some a3
    have := ht1 d (by omega)
    refine ⟨by omega, ?_, ?_⟩
    · have := (List.getElem?_eq_some_iff.mp a4).1
      omega
    · rw [← hnd d (by omega) s b1]
      exact a5
  have htype : ∀ d, d < G.I.D + 1 → ∀ s, s < ((G.I.layout 0).getD d []).length → (G.I.types d)[0]? = some (G.I.etype 0 d s) := by
    intro d hd s hs
    have h3 := ht.etype_mem 0 (by omega) d (by omega) s hs
    obtain ⟨k, hk⟩ := List.mem_iff_getElem?.mp h3
    have := (List.getElem?_eq_some_iff.mp hk).1
    have := ht1 d hd
    obtain rfl : k = 0 := by omega
    exact hk
  have hent : ∀ r, r < G.I.P → ∀ c, c < numCells G.I r 0 → ∀ d, d < G.I.D + 1 → ∀ s, s < ((G.I.layout 0).getD d []).length →
      (d = G.I.D ∧ entAt G.I r c d s = c) ∨ (d < G.I.D ∧ ∃ (cn : List (List Nat)) (row : List Nat), G.I.conn r 0 d 0 = some cn ∧
        cn[c]? = some row ∧ row[slotPos G.I 0 d s]? = some (entAt G.I r c d s)) := by
    intro r hr c hc d hd s hs
    by_cases hD : d = G.I.D
    · exact Or.inl ⟨hD, by unfold entAt; rw [if_pos hD]⟩
    · right
      refine ⟨by omega, ?_⟩
      obtain ⟨cn, c1, c2⟩ := ht.conn r hr 0 (by omega) d (by omega) 0 s hs (htype d hd s hs)
      obtain ⟨row, c3, c4, c5⟩ := c2 c hc
      refine ⟨cn, row, c1, c3, ?_⟩
      have hpos : slotPos G.I 0 d s < row.length := by
        rw [c4]
        unfold slotPos
        obtain ⟨k, hk⟩ : ∃ k, ((G.I.layout 0).getD d []).length = (s + 1) + k := ⟨_, (Nat.add_sub_cancel' hs).symm⟩
        have hadd : List.range (s + 1 + k) = List.range (s + 1) ++ (List.range k).map (s + 1 + ·) := List.range_add
        rw [hk, hadd, List.countP_append, List.range_succ, List.countP_append]
        simp
        omega
      unfold entAt
      rw [if_neg hD, c1, Option.getD_some, List.getD_eq_getElem?_getD (l := cn), c3, Option.getD_some,
        List.getD_eq_getElem?_getD, List.getElem?_eq_getElem hpos, Option.getD_some]
  refine ⟨hP, ht, hR, ?_, ⟨?_, ?_, ?_⟩, ?_, fun h => by omega⟩
  · intro r hr d t e j hj he
    obtain ⟨a1, rfl, a3⟩ := hhas hj
    obtain ⟨c, hc, s, hs, rfl⟩ := hin r hr d a1 e he
    rw [List.mem_range] at hc hs
    have hjl : j < (slot (G.I.layout 0) d s).length := by rw [hnd d a1 s hs]; exact a3
    have hsl : ((G.I.layout 0).getD d [])[s]? = some (slot (G.I.layout 0) d s) := by
      unfold slot
      rw [List.getD_eq_getElem?_getD (l := (G.I.layout 0).getD d []), List.getElem?_eq_getElem hs]
      rfl
    refine ⟨0, c, (slot (G.I.layout 0) d s)[j], by omega, hc, ht.dof_lt 0 (by omega) d (by omega) s _ hsl _ (List.getElem_mem _), ?_⟩
    exact ⟨s, _, hsl, List.getElem?_eq_getElem hjl, htype d a1 s hs, by omega, hent r hr c hc d a1 s hs⟩
  · intro r hr r' hr' d t e j d' t' e' j' b1 b2 b3 b4
    obtain ⟨a1, rfl, a3⟩ := hhas b1
    obtain ⟨a1', rfl, a3'⟩ := hhas b3
    rw [decide_eq_decide.mp (hsame r hr r' hr' d a1 d' a1' e b2 e' b4 j a3 j' a3')]
    simp only [Prod.mk.injEq, true_and]
  · intro r hr i hi
    obtain rfl := hz hi
    exact hlen r hr
  · intro r hr i hi c hc
    obtain rfl := hz hi
    refine ⟨raw r c, (hraw r hr c hc).1, ?_, hrow r hr c hc⟩
    rintro l d t e j ⟨s, ds, g1, g2, g3, g4, g5⟩
    obtain ⟨g6, rfl⟩ := slot_some g1
    obtain ⟨g7, g8⟩ := getD_some g2
    have := (hraw r hr c hc).2 d (by omega) s g6 j g7
    rw [g8] at this
    rw [this]
    obtain rfl : t = 0 := by
      have := (List.getElem?_eq_some_iff.mp g3).1
      have := ht1 d (by omega)
      omega
    congr 2
    rcases hent r hr c hc d (by omega) s g6 with ⟨k1, k2⟩ | ⟨k1, cn, row, k2, k3, k4⟩
    · rcases g5 with ⟨_, rfl⟩ | ⟨m1, _⟩
      · exact k2
      · omega
    · rcases g5 with ⟨m1, _⟩ | ⟨m1, cn', row', m2, m3, m4⟩
      · omega
      · rw [k2] at m2
        obtain rfl := Option.some.inj m2
        rw [k3] at m3
        obtain rfl := Option.some.inj m3
        rw [k4] at m4
        exact Option.some.inj m4
  · intro i hi f hf info
    obtain rfl := hz hi
    exact hm f hf info

/-- Two quadratic intervals on two ranks; rank 0 has the cell of rank 1 as a ghost. -/
private def lineMap (d : Nat) : World where
  P := 2
  size r := if d = 0 then [2, 1].getD r 0 else [1, 1].getD r 0
  ghosts r := if d = 0 then [[2], [1]].getD r [] else [[1], []].getD r []
  owners r := if d = 0 then [[1], [0]].getD r [] else [[1], []].getD r []

private def lineMesh : Geometry.Input where
  I := { P := 2, D := 1, nct := 1, types := fun _ => [7], maps := fun d _ => lineMap d, etype := fun _ _ _ => 7,
         conn := fun r _ _ _ => some ([[[0, 1], [1, 2]], [[1, 0]]].getD r []), layout := fun _ => [[[0], [1]], [[2]]],
         ndofs := fun _ => 3, reorder := fun _ => none, wait := fun _ => [0, 1] }
  perm _ := none
  info _ _ := 0
  cells r _ := [[0, 2, 1, 2, 4, 3], [2, 4, 3]].getD r []

private theorem lineMesh_ok : GeometryOk lineMesh [⟨0, 0, 1⟩, ⟨1, 0, 1⟩] fun r d _ e _ => 2 * (globalOf (lineMap d) r e).getD 0 + d :=
  geometryOk_of_check lineMesh _ (fun _ => 1) (fun r d e _ => 2 * (globalOf (lineMap d) r e).getD 0 + d)
    (fun r c => [[[0, 2, 1], [2, 4, 3]], [[2, 4, 3]]].getD r [] |>.getD c []) (by decide)
    (SubSpace.dofmapOk_of_check _ [⟨0, 0, 1⟩, ⟨1, 0, 1⟩] rfl (by decide +kernel) (by decide +kernel) (by decide +kernel) (by decide +kernel)
      (by decide +kernel) (by decide +kernel) (by decide +kernel) (by decide +kernel) (by decide +kernel) (by decide +kernel)
      (by decide +kernel) (fun _ _ _ h => by cases h) (by decide +kernel))
    (by decide +kernel) rfl (by decide +kernel) (by decide +kernel) (by decide +kernel) (by decide +kernel) (by decide +kernel)
    (by decide +kernel) (by decide +kernel) (fun _ h => by cases h)

private def lineX (r : Nat) : List (List Int) := if r = 1 then [[0], [5], [10], [15], [20]] else []

/-- All coordinates are on rank 1. -/
example := C70_geometry lineMesh_ok [1] (by decide) (by decide) lineX (by decide)
  (fun r => if r = 0 then [1] else []) (fun r => if r = 1 then [0] else [])
  (inEdges_of (by decide +kernel) (by decide +kernel) (by decide +kernel))
  (inEdges_of (by decide +kernel) (by decide +kernel) (by decide +kernel)) (by decide +kernel)

/-- Two cubic triangles `(0, 1, 2)` and `(2, 1, 3)`: they have the nodes 4 and 5 of the common edge in different order. -/
private def cubicMesh : Geometry.Input where
  I := { P := 1, D := 2, nct := 1, types := fun _ => [7]
         maps := fun d _ => { P := 1, size := fun _ => [4, 5, 2].getD d 0, ghosts := fun _ => [], owners := fun _ => [] }
         etype := fun _ _ _ => 7
         conn := fun _ _ d _ => some ([[[0, 1, 2], [2, 1, 3]], [[0, 1, 2], [3, 4, 0]]].getD d []), layout := fun _ => cubicEx.ed
         ndofs := fun _ => 10, reorder := fun _ => none, wait := fun _ => [0, 1, 2] }
  perm _ := cubicEx.perm
  info _ c := if c = 1 then 4 else 0
  cells _ _ := [0, 1, 2, 4, 5, 6, 7, 8, 9, 14] ++ [2, 1, 3, 10, 11, 12, 13, 5, 4, 15]

private theorem cubic_moves (info : Nat) : Moves 10 fun l =>
    swapEdge (info.testBit 2) 7 (swapEdge (info.testBit 1) 5 (swapEdge (info.testBit 0) 3 l)) := by
  generalize info.testBit 0 = x0
  generalize info.testBit 1 = x1
  generalize info.testBit 2 = x2
  constructor
  · intro l hl
    match l, hl with
    | [a0, a1, a2, a3, a4, a5, a6, a7, a8, a9], _ =>
      have h : ∀ (b : Bool) (x y : Nat) (l : List Nat), ((bif b then [y, x] else [x, y]) ++ l).Perm ([x, y] ++ l) := by
        intro b x y l
        cases b
        · exact List.Perm.refl _
        · exact List.Perm.swap _ _ _
      have he : swapEdge x2 7 (swapEdge x1 5 (swapEdge x0 3 [a0, a1, a2, a3, a4, a5, a6, a7, a8, a9])) =
          [a0, a1, a2] ++ ((bif x0 then [a4, a3] else [a3, a4]) ++ ((bif x1 then [a6, a5] else [a5, a6]) ++
            ((bif x2 then [a8, a7] else [a7, a8]) ++ [a9]))) := by
        cases x0 <;> cases x1 <;> cases x2 <;> rfl
      beta_reduce
      rw [he]
      exact List.Perm.append_left _ ((h x0 a3 a4 _).trans (List.Perm.append_left _ ((h x1 a5 a6 _).trans
        (List.Perm.append_left _ (h x2 a7 a8 _)))))
  · intro l hl g
    match l, hl with
    | [a0, a1, a2, a3, a4, a5, a6, a7, a8, a9], _ => cases x0 <;> cases x1 <;> cases x2 <;> rfl

private theorem cubicMesh_ok : GeometryOk cubicMesh [⟨0, 0, 1⟩, ⟨1, 0, 2⟩, ⟨2, 0, 1⟩] fun _ d _ e j => [e, 4 + 2 * e + j, 14 + e].getD d 0 :=
  geometryOk_of_check cubicMesh _ (fun d => [1, 2, 1].getD d 0) (fun _ d e j => [e, 4 + 2 * e + j, 14 + e].getD d 0)
    (fun _ c => [[0, 1, 2, 4, 5, 6, 7, 8, 9, 14], [2, 1, 3, 10, 11, 12, 13, 4, 5, 15]].getD c []) (by decide)
    (SubSpace.dofmapOk_of_check _ [⟨0, 0, 1⟩, ⟨1, 0, 2⟩, ⟨2, 0, 1⟩] rfl (by decide +kernel) (by decide +kernel) (by decide +kernel)
      (by decide +kernel) (by decide +kernel) (by decide +kernel) (by decide +kernel) (by decide +kernel) (by decide +kernel)
      (by decide +kernel) (by decide +kernel) (fun _ _ _ h => by cases h) (by decide +kernel))
    (by decide +kernel) rfl (by decide +kernel) (by decide +kernel) (by decide +kernel) (by decide +kernel) (by decide +kernel)
    (fun r hr c hc => by
      show cubicMesh.row r 0 c = _
      have h : ∀ c < 2, cubicMesh.row 0 0 c = swapEdge ((if c = 1 then 4 else 0).testBit 2) 7 (swapEdge ((if c = 1 then 4 else 0).testBit 1) 5
        (swapEdge ((if c = 1 then 4 else 0).testBit 0) 3 ([[0, 1, 2, 4, 5, 6, 7, 8, 9, 14], [2, 1, 3, 10, 11, 12, 13, 4, 5, 15]].getD c []))) := by
        decide +kernel
      obtain rfl : r = 0 := Nat.lt_one_iff.mp hr
      exact h c hc)
    (by decide +kernel) (fun f hf info => by
      obtain rfl := Option.some.inj hf
      exact cubic_moves info)

example := C70_geometry cubicMesh_ok [0] (by decide) (by decide) (fun r => if r = 0 then (List.range 16).map fun i => [(i : Int), 2 * i] else [])
  (by decide) (fun _ => []) (fun _ => [])
  (inEdges_of (by decide +kernel) (by decide +kernel) (by decide +kernel))
  (inEdges_of (by decide +kernel) (by decide +kernel) (by decide +kernel)) (by decide +kernel)

end Verif.Props
