import Verif.Model.UniformRefine
import Verif.Spec.MixedMesh
import Verif.Spec.GlobalIndex
import Mathlib.Data.Finset.Card
/-!
Specification: the input of uniform refinement describes one mesh on `P` ranks.  Kinds of entities are vertices (0), edges (1),
quadrilaterals (2) and hexahedra (3); `ev j g` is the vertex set of entity `g` of kind `j`.
-/
namespace Verif.Spec.UniformMesh
open Verif.World Verif.Uniform Verif.Spec Verif.Spec.RefCell Verif.Spec.Mixed
open Verif.Connectivity (CellType)

/-- Types of cells that are divided into cells of the same type. -/
def Plain (t : CellType) : Prop := t = .triangle ∨ t = .quadrilateral ∨ t = .tetrahedron ∨ t = .prism ∨ t = .hexahedron

/-- Global numbers of the vertices of a cell. -/
def gverts (I : Input) (r : Nat) (k : Conns) : List Nat := k.verts.map fun v => (globalOf (I.map 0) r v).getD 0

/-- All cells, on all ranks and of all types. -/
def allCells (I : Input) (P : Nat) : List Cell :=
  (List.range P).flatMap fun r => (List.range I.types.length).flatMap fun k => (I.cells r k).map fun c => (I.types.getD k .point, gverts I r c)

/-- Parts of a cell with `n` vertices, in the order of the reference cell. -/
def parts (t : CellType) (n : Nat) : List (List Nat) := (pts t).filter fun l => l.length = n

/-- Local entities `loc` of kind `j` are the parts `ls` of the cell with vertices `V`. -/
def Named (I : Input) (ev : Nat → Nat → Finset Nat) (r j : Nat) (V : List Nat) (loc : List Nat) (ls : List (List Nat)) : Prop :=
  loc.length = ls.length ∧ ∀ (i e : Nat) (l : List Nat), loc[i]? = some e → ls[i]? = some l → ∃ g, globalOf (I.map j) r e = some g ∧ ev j g = part V l

/-- The input describes a mesh of cells of types `A`. -/
structure InputOk (A : CellType → Prop) (I : Input) (P : Nat) (ev : Nat → Nat → Finset Nat) : Prop where
  dims : I.tdim = 2 ∨ I.tdim = 3
  types : ∀ t ∈ I.types, A t ∧ dim t = I.tdim
  kinds : 2 ≤ I.maps.length
  created : ∀ j < I.maps.length, I.created j = true
  valid : ∀ j < I.maps.length, (I.map j).Valid ∧ (I.map j).P = P
  single : ∀ g < (I.map 0).r0 P, ev 0 g = {g}
  card : ∀ j < I.maps.length, ∀ g < (I.map j).r0 P, (ev j g).card = 2 ^ j
  inj : ∀ j < I.maps.length, ∀ g < (I.map j).r0 P, ∀ g' < (I.map j).r0 P, ev j g = ev j g' → g = g'
  verts : ∀ r < P, ∀ k t, I.types[k]? = some t → ∀ c ∈ I.cells r k, c.verts.length = nverts t ∧ ∀ v ∈ c.verts, ∃ g, globalOf (I.map 0) r v = some g
  edges : ∀ r < P, ∀ k t, I.types[k]? = some t → ∀ c ∈ I.cells r k, Named I ev r 1 (gverts I r c) c.edges (parts t 2)
  quads : I.tdim = 3 → ∀ r < P, ∀ k t, I.types[k]? = some t → (parts t 4 ≠ [] → 2 < I.maps.length) ∧ ∀ c ∈ I.cells r k,
    Named I ev r 2 (gverts I r c) c.quads (parts t 4)
  flat : ∀ r < P, ∀ k, I.types[k]? = some .quadrilateral → 2 < I.maps.length ∧ (I.cells r k).length ≤ (I.map 2).size r ∧
    ∀ (i : Nat) (c : Conns), (I.cells r k)[i]? = some c → ev 2 ((I.map 2).r0 r + i) = part (gverts I r c) (List.range 4)
  hexes : ∀ r < P, ∀ k, I.types[k]? = some .hexahedron → 3 < I.maps.length ∧ (I.cells r k).length ≤ (I.map 3).size r ∧
    ∀ (i : Nat) (c : Conns), (I.cells r k)[i]? = some c → ev 3 ((I.map 3).r0 r + i) = part (gverts I r c) (List.range 8)
  mesh : MeshCells (allCells I P)

/-- `s` is the vertex set of an entity that has a new vertex in its middle (or is one). -/
def IsPoint (I : Input) (P : Nat) (ev : Nat → Nat → Finset Nat) (s : Finset Nat) : Prop :=
  ∃ j < I.maps.length, ∃ g < (I.map j).r0 P, s = ev j g

/-- New cells of all types of one rank. -/
def typed (I : Input) (out : List (List (List Nat))) : List Cell :=
  (List.range I.types.length).flatMap fun k => (out.getD k []).map fun c => (I.types.getD k .point, c)

/-- A side of a new cell of any rank either is a part of an old facet and belongs to as many new cells as there are old cells at the
facet; or it is inside of an old cell and belongs to two new cells. -/
def Fits (I : Input) (P : Nat) (ev : Nat → Nat → Finset Nat) (name : Finset Nat → Nat) (out : Nat → List (List (List Nat))) : Prop :=
  ∀ s ∈ ((List.range P).flatMap fun r => typed I (out r)).flatMap facetSets,
    (∃ C ∈ allCells I P, ∃ F ∈ facetSets C, (∀ y ∈ s, ∃ p ⊆ F, IsPoint I P ev p ∧ y = name p) ∧
      (((List.range P).flatMap fun r => typed I (out r)).flatMap facetSets).count s = (allCells I P).countP fun C' => decide (F ∈ facetSets C')) ∨
    (∃ C ∈ allCells I P, (∀ y ∈ s, ∃ p ⊆ vertSet C, IsPoint I P ev p ∧ y = name p) ∧
      (((List.range P).flatMap fun r => typed I (out r)).flatMap facetSets).count s = 2)

/-- `out r` is the refined mesh on rank `r`.  `name s` is the new number of the vertex in the middle of `s`, `T t` are the new cells of a cell
of type `t` by points of the reference cell. -/
structure IsUniform (I : Input) (P : Nat) (ev : Nat → Nat → Finset Nat) (name : Finset Nat → Nat) (N : Nat) (T : CellType → List (List Nat))
    (out : Nat → List (List (List Nat))) : Prop where
  lt : ∀ s, IsPoint I P ev s → name s < N
  inj : ∀ s s', IsPoint I P ev s → IsPoint I P ev s' → name s = name s' → s = s'
  onto : ∀ x < N, ∃ s, IsPoint I P ev s ∧ name s = x
  /-- The new cells of each rank and type, cell after cell. -/
  cells : ∀ r < P, (out r).length = I.types.length ∧ ∀ k t, I.types[k]? = some t → (out r)[k]? = some ((I.cells r k).flatMap fun c =>
    (T t).map fun l => l.map fun i => name (part (gverts I r c) ((pts t).getD i [])))
  /-- Their vertices are points of the mesh. -/
  points : ∀ r < P, ∀ k t, I.types[k]? = some t → ∀ c ∈ I.cells r k, ∀ l ∈ T t, l.length = nverts t ∧
    ∀ i ∈ l, i < (pts t).length ∧ IsPoint I P ev (part (gverts I r c) ((pts t).getD i []))
  /-- They tile the old cells. -/
  tiles : ∀ t ∈ I.types, ∀ (K : Type) [Field K] [LinearOrder K] [IsStrictOrderedRing K], Tiles K t (T t)
  /-- They fit together. -/
  fits : Fits I P ev name out

/-- The geometry of rank `r` is that of a mesh whose vertices have the positions `pos`. -/
structure GeoOk {X : Type} (I : Input) (ev : Nat → Nat → Finset Nat) (pos : Nat → X) (r : Nat) (m : Geo X) : Prop where
  len : ∀ k < I.types.length, (m.c2v k).length = (m.xdof k).length
  vertex : ∀ k < I.types.length, ∀ (c : Nat) (vs ds : List Nat), (m.c2v k)[c]? = some vs → (m.xdof k)[c]? = some ds → ∀ i v, vs[i]? = some v →
    ∀ g, globalOf (I.map 0) r v = some g → m.x (ds.getD (m.vdof k i) 0) = pos g
  used : ∀ v < (I.map 0).size r + ((I.map 0).ghosts r).length, ∃ k < I.types.length, ∃ (c : Nat) (vs : List Nat) (i : Nat),
    (m.c2v k)[c]? = some vs ∧ vs[i]? = some v
  ents : ∀ j < I.maps.length, ∀ w < (I.map j).size r, ∃ gs : List Nat, (m.e2v j w).map (globalOf (I.map 0) r) = gs.map some ∧ gs.Nodup ∧
    gs.toFinset = ev j ((I.map j).r0 r + w)

end Verif.Spec.UniformMesh
