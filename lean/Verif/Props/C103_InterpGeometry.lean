import Verif.Spec.InterpGeometry
import Verif.Props.C81_LocatePairs
/-!
# C103: interpolating the geometry of a mesh
-/
namespace Verif.Props
open Verif.InterpGeometry Verif.Spec.InterpGeometry Verif.World Verif.LocPairs

section
variable {T : Type} [CommRing T] {R : Type}

/-- Rows of the geometry's dofmap. -/
theorem geom_cell (g : Geometry R T) (n : Nat) (h : GeomOk g n) : g.numCells = n ∧ ∀ c, c < n → (g.cell c).length = g.cmap.nodes.length ∧
    ∀ i, i < g.cmap.nodes.length → (g.cell c)[i]? = some (g.dofmap.getD (c * g.cmap.nodes.length + i) 0) := by
  refine ⟨by unfold Geometry.numCells Elem.dim; rw [h.cells, Nat.mul_div_cancel _ h.nodes], fun c hc => ?_⟩
  have hb : (c + 1) * g.cmap.nodes.length ≤ n * g.cmap.nodes.length := Nat.mul_le_mul_right _ hc
  rw [Nat.succ_mul] at hb
  have hl := h.cells
  unfold Geometry.cell Elem.dim
  refine ⟨by rw [List.length_take, List.length_drop]; omega, fun i hi => ?_⟩
  rw [List.getElem?_take_of_lt hi, List.getElem?_drop, List.getD_eq_getElem?_getD, List.getElem?_eq_getElem (by omega)]
  rfl

theorem space_ok (g : Geometry R T) (e : Elem R T) (w : World) (q n : Nat) (cd : List (List Nat)) (h : GeomOk g n) (hd : DofsOk e w q n cd) :
    Spec.LocPairs.SpaceOk (space g e cd (w.size q + (w.ghosts q).length)) where
  gdim := h.gdim
  cells := by
    show ((List.range g.numCells).map g.cell).length = cd.length
    rw [List.length_map, List.length_range, (geom_cell g n h).1, hd.cells]
  points := fun c ds hc => (hd.rows ds (List.mem_of_getElem? hc)).le
  dofs := hd.inside
  nodes := by
    intro xs hxs m hm
    obtain ⟨c, -, rfl⟩ := List.mem_map.mp hxs
    exact h.inside m (List.mem_of_mem_drop (List.mem_of_mem_take hm))

theorem pointOn_of (g : Geometry R T) (e : Elem R T) (n N c j k : Nat) (X : R) (cd : List (List Nat)) (h : GeomOk g n) (hc : c < n) (hX : e.nodes[j]? = some X) (hk : k < 3) :
    Spec.LocPairs.PointOn (space g e cd N) c j k (pointOf g c X k) := by
  obtain ⟨hn, hrow⟩ := geom_cell g n h
  obtain ⟨hl, hget⟩ := hrow c hc
  refine ⟨g.cell c, fun i => g.x.getD (3 * g.dofmap.getD (c * g.cmap.nodes.length + i) 0 + k) 0, ?_, ?_, ?_⟩
  · show ((List.range g.numCells).map g.cell)[c]? = _
    rw [List.getElem?_map, List.getElem?_range (by omega)]; rfl
  · intro i m hi
    have hi' : i < g.cmap.nodes.length := by rw [← hl]; exact (List.getElem?_eq_some_iff.mp hi).1
    rw [hget i hi'] at hi
    have hm := Option.some.inj hi
    have hmem : m ∈ g.dofmap := by
      have := hget i hi'
      rw [hm] at this
      exact List.mem_of_mem_drop (List.mem_of_mem_take (List.mem_of_getElem? this))
    have hin := h.inside _ hmem
    show g.x[3 * m + k]? = some (g.x.getD (3 * g.dofmap.getD (c * g.cmap.nodes.length + i) 0 + k) 0)
    rw [hm, List.getD_eq_getElem?_getD, List.getElem?_eq_getElem (by omega)]
    rfl
  · unfold pointOf
    rw [hl]
    refine Finset.sum_congr rfl fun i _ => ?_
    show _ = ((e.nodes[j]?).map fun X => g.cmap.basis X i).getD 0 * _
    rw [hX]; rfl

theorem flatten_row (n : Nat) (l : List (List Nat)) (h : ∀ r ∈ l, r.length = n) (c : Nat) (r : List Nat) (hc : l[c]? = some r) (j : Nat) (hj : j < n) :
    l.flatten[c * n + j]? = r[j]? := by
  induction l generalizing c with
  | nil => cases hc
  | cons a l ih =>
    have ha := h a List.mem_cons_self
    rw [List.flatten_cons]
    cases c with
    | zero =>
      have : a = r := by simpa using hc
      subst this
      rw [Nat.zero_mul, Nat.zero_add, List.getElem?_append_left (by omega)]
    | succ c =>
      rw [Nat.succ_mul, List.getElem?_append_right (by omega), ← ih (fun r hr => h r (List.mem_cons_of_mem _ hr)) c (by simpa using hc)]
      congr 1
      omega

theorem flatten_len (n : Nat) (l : List (List Nat)) (h : ∀ r ∈ l, r.length = n) : l.flatten.length = l.length * n := by
  induction l with
  | nil => simp
  | cons a l ih =>
    rw [List.flatten_cons, List.length_append, ih (fun r hr => h r (List.mem_cons_of_mem _ hr)), h a List.mem_cons_self, List.length_cons, Nat.succ_mul, Nat.add_comm]

theorem l2g_spec (w : World) (q i : Nat) : (w.map q).localToGlobal i = Spec.globalOf w q i := by
  unfold IndexMap.Map.localToGlobal Spec.globalOf IndexMap.Map.sizeLocal World.map IndexMap.build World.r0
  simp

theorem globalOf_isSome (w : World) (q i : Nat) (h : i < w.size q + (w.ghosts q).length) : ∃ G, Spec.globalOf w q i = some G := by
  unfold Spec.globalOf
  split
  · exact ⟨_, rfl⟩
  · exact ⟨_, List.getElem?_eq_getElem (by omega)⟩

/-- **Interpolated geometry.**  The new geometry has the same cells and the new element; node `j` of cell `c` is where the old
geometry has the point of node `j`; nodes have the global numbers of the index map.  The new map of a cell interpolates the old one:
it is the same at nodes, and everywhere if the new element contains the old one. -/
theorem C103_geometry (g : Geometry R T) (e : Elem R T) (w : World) (q n : Nat) (cd : List (List Nat)) (h : GeomOk g n) (hd : DofsOk e w q n cd)
    (hpos : 0 < e.nodes.length) (hs : e.shape = g.cmap.shape) (hi : e.ident = true) (hc : Conforming g e cd) :
    ∃ g', interpolateGeometry g e w q cd = some g' ∧ GeomOk g' n ∧ g'.cmap = e ∧ g'.gdim = g.gdim ∧
      (∀ d, d < w.size q + (w.ghosts q).length → g'.igi[d]? = Spec.globalOf w q d) ∧
      (∀ (c j d : Nat) (ds : List Nat) (X : R), cd[c]? = some ds → ds[j]? = some d → e.nodes[j]? = some X →
        g'.dofmap[c * e.nodes.length + j]? = some d ∧ At g' d fun k => if k < g.gdim then pointOf g c X k else 0) ∧
      (Nodal e → ∀ (c j : Nat) (X : R), c < n → e.nodes[j]? = some X → ∀ k, k < g.gdim → pointOf g' c X k = pointOf g c X k) ∧
      (Contains e g.cmap → ∀ (c : Nat) (X : R), c < n → ∀ k, k < g.gdim → pointOf g' c X k = pointOf g c X k) := by
  obtain ⟨x, hx, hlen, hpt⟩ := C81_coordinates _ (space_ok g e w q n cd h hd) rfl rfl hi false
  have hg3 := h.gdim
  have hlen' : x.length = 3 * (w.size q + (w.ghosts q).length) := hlen
  obtain ⟨igi, higi⟩ := mapM_option_ok (fun i => (w.map q).localToGlobal i) (List.range (w.size q + (w.ghosts q).length)) (by
    intro i hi
    rw [l2g_spec]
    exact globalOf_isSome w q i (List.mem_range.mp hi))
  have hil : igi.length = w.size q + (w.ghosts q).length := by rw [mapM_len _ _ _ higi, List.length_range]
  have hrow : ∀ (c : Nat) (ds : List Nat), cd[c]? = some ds → ds.length = e.nodes.length := fun c ds hc => hd.rows ds (List.mem_of_getElem? hc)
  have hcn : ∀ (c : Nat) (ds : List Nat), cd[c]? = some ds → c < n := fun c ds hc => by rw [← hd.cells]; exact (List.getElem?_eq_some_iff.mp hc).1
  have hnode : ∀ (c j d : Nat) (ds : List Nat) (X : R), cd[c]? = some ds → ds[j]? = some d → e.nodes[j]? = some X →
      ∀ k, k < 3 → x[3 * d + k]? = some (if k < g.gdim then pointOf g c X k else 0) := by
    intro c j d ds X hcd hdj hX k hk
    have := hpt d (fun k => if k < g.gdim then pointOf g c X k else 0) ⟨?_, ⟨ds, List.mem_of_getElem? hcd, List.mem_of_getElem? hdj⟩, fun k hk => if_neg (by exact Nat.not_lt.mpr hk)⟩ k hk
    · rw [← this, Nat.mul_comm 3 d]; rfl
    · intro c' j' ds' hcd' hdj' k hk
      have hk : k < g.gdim := hk
      have hj' : j' < e.nodes.length := by rw [← hrow c' ds' hcd']; exact (List.getElem?_eq_some_iff.mp hdj').1
      simp only
      rw [if_pos hk, hc c c' j j' ds ds' d X _ hcd hcd' hdj hdj' hX (List.getElem?_eq_getElem hj') k hk]
      exact pointOn_of g e n _ c' j' k _ cd h (hcn c' ds' hcd') (List.getElem?_eq_getElem hj') (by omega)
  have hmap : ∀ (c j d : Nat) (ds : List Nat), cd[c]? = some ds → ds[j]? = some d → cd.flatten[c * e.nodes.length + j]? = some d := by
    intro c j d ds hcd hdj
    rw [flatten_row _ cd hd.rows c ds hcd j (by rw [← hrow c ds hcd]; exact (List.getElem?_eq_some_iff.mp hdj).1)]
    exact hdj
  let g' : Geometry R T := ⟨g.gdim, cd.flatten, e, x, igi⟩
  -- the new map of a cell
  have hpoint : ∀ (c : Nat) (X : R), c < n → ∀ k, k < g.gdim → ∀ v : Nat → T, (∀ (j : Nat) (Y : R), e.nodes[j]? = some Y → v j = pointOf g c Y k) →
      pointOf g' c X k = ∑ j ∈ Finset.range e.nodes.length, e.basis X j * v j := by
    intro c X hcn k hk v hv
    have hcd : cd[c]? = some (cd[c]'(by rw [hd.cells]; exact hcn)) := List.getElem?_eq_getElem _
    generalize cd[c]'(by rw [hd.cells]; exact hcn) = ds at hcd
    unfold pointOf
    refine Finset.sum_congr rfl fun j hj => ?_
    have hj := Finset.mem_range.mp hj
    have hj : j < e.nodes.length := hj
    have hdj : ds[j]? = some (ds[j]'(by rw [hrow c ds hcd]; exact hj)) := List.getElem?_eq_getElem _
    generalize ds[j]'(by rw [hrow c ds hcd]; exact hj) = d at hdj
    have h1 := hmap c j d ds hcd hdj
    have h2 := hnode c j d ds _ hcd hdj (List.getElem?_eq_getElem hj) k (by omega)
    rw [if_pos hk] at h2
    show e.basis X j * x.getD (3 * cd.flatten.getD (c * e.nodes.length + j) 0 + k) 0 = _
    have h3 : cd.flatten.getD (c * e.nodes.length + j) 0 = d := by rw [List.getD_eq_getElem?_getD, h1]; rfl
    rw [h3, List.getD_eq_getElem?_getD, h2, Option.getD_some, hv j _ (List.getElem?_eq_getElem hj)]
  refine ⟨g', ?_, ⟨h.gdim, hpos, ?_, ?_⟩, rfl, rfl, ?_, fun c j d ds X hcd hdj hX => ⟨hmap c j d ds hcd hdj, hnode c j d ds X hcd hdj hX⟩, ?_, ?_⟩
  · unfold interpolateGeometry
    rw [if_neg (not_not.mpr hs)]
    simp only
    rw [hx, Option.bind_some, higi, Option.bind_some]
    unfold mkGeometry
    rw [hlen', Nat.mul_mod_right, if_neg (by simp), Nat.mul_div_cancel_left _ (by decide), if_neg (by rw [hil]; simp)]
  · show cd.flatten.length = n * e.nodes.length
    rw [flatten_len _ cd hd.rows, hd.cells]
  · intro d hdm
    show 3 * d + 3 ≤ x.length
    obtain ⟨ds, hds, hdd⟩ := List.mem_flatten.mp hdm
    have := hd.inside ds hds d hdd
    omega
  · intro d hdl
    show igi[d]? = _
    obtain ⟨y, hy, hyf⟩ := mapM_getElem _ _ _ higi d d (List.getElem?_range hdl)
    rw [hy, ← hyf, l2g_spec]
  · intro hn c j X hcn hX k hk
    have hj := (List.getElem?_eq_some_iff.mp hX).1
    let v : Nat → T := fun j => ((e.nodes[j]?).map fun Y => pointOf g c Y k).getD 0
    have hv : ∀ (j : Nat) (Y : R), e.nodes[j]? = some Y → v j = pointOf g c Y k := fun j Y hY => by simp only [v]; rw [hY]; rfl
    rw [hpoint c X hcn k hk v hv, Finset.sum_eq_single j]
    · rw [hn j j X hX hj, if_pos rfl, one_mul, hv j X hX]
    · intro i hi hne
      rw [hn i j X hX (Finset.mem_range.mp hi), if_neg hne, zero_mul]
    · intro hno
      exact absurd (Finset.mem_range.mpr hj) hno
  · intro hcon c X hcn k hk
    let v : Nat → T := fun j => ((e.nodes[j]?).map fun Y => pointOf g c Y k).getD 0
    have hv : ∀ (j : Nat) (Y : R), e.nodes[j]? = some Y → v j = pointOf g c Y k := fun j Y hY => by simp only [v]; rw [hY]; rfl
    rw [hpoint c X hcn k hk v hv]
    let b : Nat → Nat → T := fun i j => ((e.nodes[j]?).map fun Y => g.cmap.basis Y i).getD 0
    have hb : ∀ (i j : Nat) (Y : R), e.nodes[j]? = some Y → b i j = g.cmap.basis Y i := fun i j Y hY => by simp only [b]; rw [hY]; rfl
    conv_rhs => unfold pointOf
    have e1 : ∀ i ∈ Finset.range g.cmap.nodes.length, g.cmap.basis X i * g.x.getD (3 * g.dofmap.getD (c * g.cmap.nodes.length + i) 0 + k) 0 =
        ∑ j ∈ Finset.range e.nodes.length, e.basis X j * (b i j * g.x.getD (3 * g.dofmap.getD (c * g.cmap.nodes.length + i) 0 + k) 0) := by
      intro i hi
      rw [hcon X i (b i) (Finset.mem_range.mp hi) (hb i), Finset.sum_mul]
      exact Finset.sum_congr rfl fun j _ => by ring
    rw [Finset.sum_congr rfl e1, Finset.sum_comm]
    refine Finset.sum_congr rfl fun j hj => ?_
    have hY := List.getElem?_eq_getElem (Finset.mem_range.mp hj)
    rw [hv j _ hY, ← Finset.mul_sum]
    congr 1
    unfold pointOf
    exact Finset.sum_congr rfl fun i _ => by rw [hb i j _ hY]

/-- **Refused.**  Other cell shapes, and elements whose dofs are not point values. -/
theorem C103_refused (g : Geometry R T) (e : Elem R T) (w : World) (q : Nat) (cd : List (List Nat)) (h : e.shape ≠ g.cmap.shape ∨ e.ident = false) :
    interpolateGeometry g e w q cd = none := by
  unfold interpolateGeometry
  rcases h with h | h
  · rw [if_pos h]
  · split
    · rfl
    · have : tabulate (space g e cd (w.size q + (w.ghosts q).length)) false = none := by
        unfold tabulate space
        simp [h]
      simp only [this, Option.bind_none]

/-- **All ranks.**  If cells of all ranks agree on the points of shared dofs, nodes of the new geometries with the same global number
have the same coordinates. -/
theorem C103_ranks (g : Nat → Geometry R T) (e : Elem R T) (w : World) (n : Nat → Nat) (cd : Nat → List (List Nat)) (h : ∀ q, q < w.P → GeomOk (g q) (n q))
    (hd : ∀ q, q < w.P → DofsOk e w q (n q) (cd q)) (hpos : 0 < e.nodes.length) (hs : ∀ q, q < w.P → e.shape = (g q).cmap.shape) (hi : e.ident = true)
    (hdim : ∀ q, q < w.P → (g q).gdim = (g 0).gdim) (hc : ConformingRanks g e w cd) :
    ∃ g' : Nat → Geometry R T, (∀ q, q < w.P → interpolateGeometry (g q) e w q (cd q) = some (g' q)) ∧
      ∀ q q' d d' G, q < w.P → q' < w.P → d ∈ (cd q).flatten → d' ∈ (cd q').flatten → (g' q).igi[d]? = some G → (g' q').igi[d']? = some G →
        ∃ x, At (g' q) d x ∧ At (g' q') d' x := by
  have hex : ∀ q, ∃ g', q < w.P → interpolateGeometry (g q) e w q (cd q) = some g' ∧
      (∀ d, d < w.size q + (w.ghosts q).length → g'.igi[d]? = Spec.globalOf w q d) ∧
      (∀ (c j d : Nat) (ds : List Nat) (X : R), (cd q)[c]? = some ds → ds[j]? = some d → e.nodes[j]? = some X →
        At g' d fun k => if k < (g q).gdim then pointOf (g q) c X k else 0) := by
    intro q
    by_cases hq : q < w.P
    · obtain ⟨g', h1, h2, h3, h4, h5, h6, h7, h8⟩ := C103_geometry (g q) e w q (n q) (cd q) (h q hq) (hd q hq) hpos (hs q hq) hi
        (fun c c' j j' ds ds' d X X' a1 a2 a3 a4 a5 a6 => hc q q c c' j j' ds ds' d d X X' hq hq a1 a2 a3 a4 rfl a5 a6)
      exact ⟨g', fun _ => ⟨h1, h5, fun c j d ds X a1 a2 a3 => (h6 c j d ds X a1 a2 a3).2⟩⟩
    · exact ⟨g q, fun h => absurd h hq⟩
  choose g' hg' using hex
  refine ⟨g', fun q hq => (hg' q hq).1, ?_⟩
  intro q q' d d' G hq hq' hdm hdm' hG hG'
  obtain ⟨ds, hds, hdd⟩ := List.mem_flatten.mp hdm
  obtain ⟨ds', hds', hdd'⟩ := List.mem_flatten.mp hdm'
  obtain ⟨c, hc1⟩ := List.mem_iff_getElem?.mp hds
  obtain ⟨c', hc1'⟩ := List.mem_iff_getElem?.mp hds'
  obtain ⟨j, hj⟩ := List.mem_iff_getElem?.mp hdd
  obtain ⟨j', hj'⟩ := List.mem_iff_getElem?.mp hdd'
  rw [(hg' q hq).2.1 d ((hd q hq).inside ds hds d hdd)] at hG
  rw [(hg' q' hq').2.1 d' ((hd q' hq').inside ds' hds' d' hdd')] at hG'
  have hjl : j < e.nodes.length := by rw [← (hd q hq).rows ds hds]; exact (List.getElem?_eq_some_iff.mp hj).1
  have hjl' : j' < e.nodes.length := by rw [← (hd q' hq').rows ds' hds']; exact (List.getElem?_eq_some_iff.mp hj').1
  have hX := List.getElem?_eq_getElem hjl
  have hX' := List.getElem?_eq_getElem hjl'
  refine ⟨_, (hg' q hq).2.2 c j d ds _ hc1 hj hX, ?_⟩
  have := (hg' q' hq').2.2 c' j' d' ds' _ hc1' hj' hX'
  intro k hk
  rw [this k hk, hdim q' hq', hdim q hq]
  simp only
  split
  · rename_i hlt
    rw [hc q q' c c' j j' ds ds' d d' _ _ hq hq' hc1 hc1' hj hj' (hG.trans hG'.symm) hX hX' k (by rw [hdim q hq]; exact hlt)]
  · rfl

end

section examples
/-- Linear and quadratic elements on an interval. -/
def segment1 : Elem ℚ ℚ := ⟨1, [0, 1], fun X i => if i = 0 then 1 - X else X, true⟩
def segment2 : Elem ℚ ℚ := ⟨1, [0, 1, 1/2], fun X i => if i = 0 then (1 - 2 * X) * (1 - X) else if i = 1 then X * (2 * X - 1) else 4 * X * (1 - X), true⟩

/-- Two cells, with nodes at 0, 1 and 3. -/
def twoSegments : Geometry ℚ ℚ := ⟨1, [0, 1, 1, 2], segment1, [0, 0, 0, 1, 0, 0, 3, 0, 0], [0, 1, 2]⟩

def segmentDofs : List (List Nat) := [[0, 1, 3], [1, 2, 4]]
def segmentWorld : World := { P := 1, size := fun _ => 5, ghosts := fun _ => [], owners := fun _ => [] }

example : GeomOk twoSegments 2 := ⟨by decide, by decide, by decide, by decide⟩
example : DofsOk segment2 segmentWorld 0 2 segmentDofs := ⟨by decide, by decide, by decide⟩
example : Conforming twoSegments segment2 segmentDofs := by
  intro c c' j j' ds ds' d X X' hc hc' hj hj' hX hX' k hk
  have hk : k = 0 := by
    have : k < 1 := hk
    omega
  subst hk
  have h1 : c < 2 := (List.getElem?_eq_some_iff.mp hc).1
  have h2 : c' < 2 := (List.getElem?_eq_some_iff.mp hc').1
  have h3 : j < 3 := (List.getElem?_eq_some_iff.mp hX).1
  have h4 : j' < 3 := (List.getElem?_eq_some_iff.mp hX').1
  interval_cases c <;> interval_cases c' <;> cases hc <;> cases hc' <;> interval_cases j <;> interval_cases j' <;> cases hj <;> cases hj' <;> cases hX <;> cases hX' <;>
    simp [pointOf, twoSegments, segment1, Finset.sum_range_succ]
example : Contains segment2 segment1 := by
  intro X i v hi hv
  have hi : i < 2 := hi
  have h0 := hv 0 0 rfl
  have h1 := hv 1 1 rfl
  have h2 := hv 2 (1/2) rfl
  show _ = ∑ j ∈ Finset.range 3, _
  rw [Finset.sum_range_succ, Finset.sum_range_succ, Finset.sum_range_succ, Finset.sum_range_zero, h0, h1, h2]
  interval_cases i <;> simp [segment1, segment2] <;> ring
example : Nodal segment2 := by
  intro i j X hX hi
  have hj : j < 3 := (List.getElem?_eq_some_iff.mp hX).1
  have hi : i < 3 := hi
  interval_cases j <;> cases hX <;> interval_cases i <;> simp [segment2] <;> norm_num
end examples
end Verif.Props
