import Verif.Model.Coefficients
/-!
# Specification: the same entity in several meshes, and values of functions on cells
-/
namespace Verif.Spec.Coefficients
open Verif.Coefficients
open Verif.Integration (Kind)

/-- Entity `x` of a mesh is cell `j` of another mesh: a map of sub-mesh to mesh says so, in one direction or the other. -/
def Same (maps : List EMap) (mesh m0 : MeshId) (x j : Nat) : Prop :=
  ∃ em ∈ maps, (em.topo = mesh.topo ∧ em.sub = m0.topo ∧ em.map[j]? = some (x : Int)) ∨
    (em.topo = m0.topo ∧ em.sub = mesh.topo ∧ em.map[x]? = some (j : Int))

/-- What `maps` must be for a pair of meshes with different topologies: there is just one map between them, every entity of the sub-mesh is
another one of the mesh (`create_submesh`, C62). -/
def MapsOk (maps : List EMap) (mesh m0 : MeshId) : Prop :=
  mesh.topo ≠ m0.topo ∧
  (∃ em ∈ maps, (em.topo = mesh.topo ∧ em.sub = m0.topo) ∨ (em.topo = m0.topo ∧ em.sub = mesh.topo)) ∧
  (∀ em ∈ maps, ∀ em' ∈ maps,
    (em.topo = mesh.topo ∧ em.sub = m0.topo) ∨ (em.topo = m0.topo ∧ em.sub = mesh.topo) →
    (em'.topo = mesh.topo ∧ em'.sub = m0.topo) ∨ (em'.topo = m0.topo ∧ em'.sub = mesh.topo) → em' = em) ∧
  (∀ em ∈ maps, em.map.Nodup ∧ ∀ x ∈ em.map, 0 ≤ x)

/-- If the first mesh is the sub-mesh, all its entities `x` with `P x` are entities of the other one. -/
def Covered (maps : List EMap) (mesh m0 : MeshId) (P : Nat → Prop) : Prop :=
  (∃ em ∈ maps, em.topo = m0.topo ∧ em.sub = mesh.topo) → ∀ x, P x → ∃ j, Same maps mesh m0 x j

/-- Numbers per row of entities: a cell, a cell with local number of an entity, or two of these. -/
def width : Kind → Nat
  | .cell => 1
  | .interiorFacet => 4
  | _ => 2

/-- Number of sides. -/
def sides : Kind → Nat
  | .interiorFacet => 2
  | _ => 1

/-- Position of the cell on side `s` of row `e`. -/
def cellPos (t : Kind) (e s : Nat) : Nat := width t * e + 2 * s

/-- `j` is the cell of mesh `m0` for the entity with local number `lf` of `cell`: the cell itself, the same cell of a mesh of the same dimension,
or the cell of a mesh of lower dimension that is the entity. -/
def IsCell (mesh m0 : MeshId) (same : Prop) [Decidable same] (maps : List EMap) (c2e : Nat → List (List Nat)) (cell lf j : Nat) : Prop :=
  if same then j = cell
  else if m0.dim = mesh.dim then Same maps mesh m0 cell j
  else ∃ fs f, (c2e (mesh.dim - m0.dim))[cell]? = some fs ∧ fs[lf]? = some f ∧ Same maps mesh m0 f j

/-- The values of `u` on a cell, before transformation: those of all dofs of the cell, blocks of `bs` numbers. -/
def LocalValues {T : Type} (u : Fn T) (cell : Nat) (vals : List T) : Prop :=
  ∃ ds, u.dofs[cell]? = some ds ∧ vals.length = u.spaceDim ∧
    ∀ i d : Nat, ds[i]? = some d → ∀ k < u.bs, ∃ y : T, u.x[u.bs * d + k]? = some y ∧ vals[u.bs * i + k]? = some y

/-- A function is made up properly: the dofs of a cell, times the block size, are as many as the element has; their values are there. -/
def FnOk {T : Type} (u : Fn T) : Prop :=
  (∀ ds ∈ u.dofs, ds.length * u.bs = u.spaceDim ∧ ∀ d ∈ ds, u.bs * d + u.bs ≤ u.x.length) ∧
  ∀ c l, (u.transform c l).length = l.length

/-- Number of values of the coefficients before number `c`. -/
def before {T : Type} (us : List (Fn T)) (c : Nat) : Nat := ((us.take c).map Fn.spaceDim).sum

/-- Where kernels expect value `k` of coefficient `c` on side `s` (UFCx): all values of one coefficient together, those of the first
side before those of the second. -/
def place {T : Type} (us : List (Fn T)) (t : Kind) (c s k : Nat) : Nat :=
  sides t * before us c + s * ((us[c]?.map Fn.spaceDim).getD 0) + k

/-- What the entities of an integral must be to be found in mesh `m0`. -/
def DomainOk {T : Type} (F : Form T) (m0 : MeshId) (t : Kind) (ents : List Int) : Prop :=
  (∃ n, ents.length = width t * n) ∧ (∀ x ∈ ents, 0 ≤ x) ∧
  (m0.id ≠ F.mesh.id → (t = .cell ∨ t = .exteriorFacet ∨ t = .interiorFacet) ∧ MapsOk F.maps F.mesh m0 ∧
    (m0.dim = F.mesh.dim ∨ t ≠ .cell ∧ m0.dim + 1 = F.mesh.dim) ∧
    (m0.dim = F.mesh.dim → Covered F.maps F.mesh m0 fun x => (x : Int) ∈ ents) ∧
    (m0.dim + 1 = F.mesh.dim → (∀ e s (cell lf : Nat), s < sides t → ents[cellPos t e s]? = some (cell : Int) →
        ents[cellPos t e s + 1]? = some (lf : Int) → ∃ fs f, (F.c2e 1)[cell]? = some fs ∧ fs[lf]? = some f) ∧
      ∀ em ∈ F.maps, ¬ (em.topo = m0.topo ∧ em.sub = F.mesh.topo)))

/-- The entities of an integral are found in mesh `m0`: local numbers are kept, cells are those of `m0`, or `-1` if there is none. -/
def Mapped {T : Type} (F : Form T) (m0 : MeshId) (t : Kind) (ents out : List Int) : Prop :=
  out.length = ents.length ∧
  (∀ e s, s < sides t → t ≠ .cell → out[cellPos t e s + 1]? = ents[cellPos t e s + 1]?) ∧
  ∀ e s (cell lf : Nat), s < sides t → ents[cellPos t e s]? = some (cell : Int) →
    (t ≠ .cell → ents[cellPos t e s + 1]? = some (lf : Int)) →
      (∀ j, IsCell F.mesh m0 (m0.id = F.mesh.id) F.maps F.c2e cell lf j → out[cellPos t e s]? = some (j : Int)) ∧
      ((∀ j, ¬ IsCell F.mesh m0 (m0.id = F.mesh.id) F.maps F.c2e cell lf j) → out[cellPos t e s]? = some (-1))

/-- `cell`, with `lf` unless the integral is over cells, is side `s` of row `e` of the entities. -/
def SideOf (t : Kind) (ents : List Int) (e s cell lf : Nat) : Prop :=
  s < sides t ∧ ents[cellPos t e s]? = some (cell : Int) ∧ (t ≠ .cell → ents[cellPos t e s + 1]? = some (lf : Int))

/-- A form is made up properly: integrals of each type are numbered from 0 (`num_integrals`), active coefficients exist, their
functions are made up properly, entities can be found in the meshes of these, and cells of these meshes have dofs. -/
structure FormOk {T : Type} (F : Form T) : Prop where
  keys : (F.integrals.map Prod.fst).Nodup
  numbered : ∀ t i, (t, i) ∈ F.integrals.map Prod.fst ↔ i < F.integrals.countP fun p => p.1.1 == t
  meshes : ∀ u ∈ F.coefficients, u.mesh.id = F.mesh.id → u.mesh = F.mesh
  rows : ∀ p ∈ F.integrals, ∃ n, p.2.entities.length = width p.1.1 * n
  active : ∀ p ∈ F.integrals, ∀ c ∈ p.2.coeffs, ∃ u, F.coefficients[c]? = some u ∧ FnOk u ∧ DomainOk F u.mesh p.1.1 p.2.entities ∧
    ∀ e s cell lf j, SideOf p.1.1 p.2.entities e s cell lf →
      IsCell F.mesh u.mesh (u.mesh.id = F.mesh.id) F.maps F.c2e cell lf j → j < u.dofs.length

/-- Storage for an integral: any values, as many as are needed. -/
def StorageOk {T : Type} (F : Form T) (p : (Kind × Nat) × (List T × Nat)) : Prop :=
  ∃ d, (p.1, d) ∈ F.integrals ∧ p.2.2 = before F.coefficients F.coefficients.length ∧
    p.2.1.length = d.entities.length / width p.1.1 * (sides p.1.1 * p.2.2)

/-- What kernels get for an integral with entities and active coefficients `d` after packing: values of active coefficients on the cell that is
the entity, and for other coefficients and entities that are not in the mesh of the coefficient what was there before. -/
def Filled {T : Type} (F : Form T) (t : Kind) (d : IData) (old new : List T × Nat) : Prop :=
  ∀ e s cell lf, SideOf t d.entities e s cell lf → ∀ (c : Nat) (u : Fn T), F.coefficients[c]? = some u →
    (c ∈ d.coeffs → ∀ j, IsCell F.mesh u.mesh (u.mesh.id = F.mesh.id) F.maps F.c2e cell lf j →
      ∃ vals, LocalValues u j vals ∧ ∀ k < u.spaceDim, ∃ y : T,
        kernelCoeff t new e (place F.coefficients t c s k) = some y ∧ (u.transform j vals)[k]? = some y) ∧
    ((c ∉ d.coeffs ∨ ∀ j, ¬ IsCell F.mesh u.mesh (u.mesh.id = F.mesh.id) F.maps F.c2e cell lf j) →
      ∀ k < u.spaceDim, ∃ y : T, kernelCoeff t new e (place F.coefficients t c s k) = some y ∧
        kernelCoeff t old e (place F.coefficients t c s k) = some y)

/-! ## Expressions -/

/-- Row `e` of the entities of an expression. -/
def RowOf (ents : Ents) (e cell lf : Nat) : Prop :=
  match ents with
  | .cells l => l[e]? = some (cell : Int)
  | .pairs l => l[e]? = some ((cell : Int), (lf : Int))

/-- What the entities of an expression must be to be found in mesh `m0`. -/
def EntsOk (mesh m0 : MeshId) (maps : List EMap) (c2e : Nat → List (List Nat)) (ents : Ents) : Prop :=
  (∀ e < ents.cell.length, ∃ cell lf, RowOf ents e cell lf) ∧
  (m0.topo ≠ mesh.topo → MapsOk maps mesh m0 ∧
    (m0.dim = mesh.dim → Covered maps mesh m0 fun x => (x : Int) ∈ ents.cell) ∧
    (m0.dim ≠ mesh.dim → m0.dim < mesh.dim ∧ (∀ em ∈ maps, ¬ (em.topo = m0.topo ∧ em.sub = mesh.topo)) ∧
      ∃ l, ents = .pairs l ∧ ∀ p ∈ l, ∃ cell lf : Nat, p = ((cell : Int), (lf : Int)) ∧
        ∃ fs f, (c2e (mesh.dim - m0.dim))[cell]? = some fs ∧ fs[lf]? = some f))

end Verif.Spec.Coefficients
