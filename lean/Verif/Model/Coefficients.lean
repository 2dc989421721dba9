import Verif.Model.IntegrationDomains
import Verif.Model.EntityMap
/-!
# Coefficients and constants packed for kernels

`cpp/dolfinx/fem/pack.h` (whole file), the constructor of `Form` and its lookups (`cpp/dolfinx/fem/Form.h` L169-325, L421-566, L584-596),
`coefficient_offsets` of `Expression` (`Expression.h` L128-138), and the place where assemblers read packed values (`assemble_scalar_impl.h` L58,
L105, L163, L195-197, L218-219, L257; `assemble_matrix_impl.h` L152, L334, L578; `assemble_vector_impl.h` L106, L201, L312), on one process.

Simplifications: one cell type (`element()` and `dofmap()` throw for more), so the index of the kernel is left out; meshes and topologies are
numbers that are compared; a dof transformation (`element->dof_transformation_fn(transpose)` with the permutation data of the cell) is any function
from values to values; copies of `pack_impl` for block sizes 1, 2, 3 are one function.  `none` is an exception, a failed assertion or an
access outside of an array.
-/
namespace Verif.Coefficients
open Verif.Integration (Kind)

/-- A mesh: itself, its topology and its dimension. -/
structure MeshId where
  id : Nat
  topo : Nat
  dim : Nat
deriving DecidableEq, Repr

/-- A `Function`: mesh, block size and `cell_dofs` of its dofmap, `space_dimension` of its element, dof transformation of a cell, values. -/
structure Fn (T : Type) where
  mesh : MeshId
  bs : Nat
  dofs : List (List Nat)
  spaceDim : Nat
  transform : Nat → List T → List T
  x : List T

/-- An `EntityMap`: `topology`, `sub_topology` and the entities, `mesh/EntityMap.h`. -/
structure EMap where
  topo : Nat
  sub : Nat
  map : List Int
deriving DecidableEq, Repr

/-- `sub_topology_to_topology`, `mesh/EntityMap.h` L104-152. -/
def EMap.apply (m : EMap) (ents : List Int) (inverse : Bool) : Option (List Int) :=
  if inverse then some (EntityMap.backward m.map ents)
  else ents.mapM fun i => if i < 0 then none else m.map[i.toNat]?

/-- `get_entity_map`, Form.h L180-200 and pack.h L520-540. -/
def findMap (maps : List EMap) (mesh mesh0 : MeshId) : Option EMap :=
  maps.find? fun em => (em.topo == mesh0.topo && em.sub == mesh.topo) || (em.sub == mesh0.topo && em.topo == mesh.topo)

/-! ## Forms -/

/-- `integral_data`, Form.h L50-90, without the kernel. -/
structure IData where
  entities : List Int
  coeffs : List Nat
deriving DecidableEq, Repr

/-- Members of a form.  `args` are the meshes of its function spaces, `c2e k` the connectivity from cells to entities of codimension `k`,
`integrals` the entries of `_integrals` in the order of keys. -/
structure Form (T : Type) where
  mesh : MeshId
  args : List MeshId
  integrals : List ((Kind × Nat) × IData)
  coefficients : List (Fn T)
  maps : List EMap
  c2e : Nat → List (List Nat)

variable {T : Type}

/-- Pairs of a flat array of cells and local indices. -/
def pairs : List Int → List (Int × Int)
  | a :: b :: l => (a, b) :: pairs l
  | _ => []

/-- The entity of a cell with a local number, `c_to_f->links(c)[i]`. -/
def entityAt (c2e : List (List Nat)) (p : Int × Int) : Option Int :=
  if p.1 < 0 ∨ p.2 < 0 then none else (c2e[p.1.toNat]?.bind fun l => l[p.2.toNat]?).map Int.ofNat

/-- `compute_facet_domains`, Form.h L202-252. -/
def facetDomains (ents : List Int) (codim : Int) (c2f : List (List Nat)) (em : EMap) (inverse : Bool) : Option (List Int) := do
  let l ← if codim = 0 then some ((pairs ents).map Prod.fst)
    else if codim = 1 then (pairs ents).mapM (entityAt c2f)
    else none
  let cells ← em.apply l inverse
  some (cells.zipIdx.foldl (fun e c => e.set (2 * c.2) c.1) ents)

/-- Entities of the mesh of the form in the mesh of an argument or coefficient, Form.h L263-302 and L309-339. -/
def mapDomain (F : Form T) (mesh0 : MeshId) (t : Kind) (ents : List Int) : Option (List Int) :=
  if mesh0.id = F.mesh.id then some ents
  else do
    let em ← findMap F.maps F.mesh mesh0
    let inverse := em.sub == mesh0.topo
    match t with
    | .cell => em.apply ents inverse
    | .exteriorFacet | .interiorFacet => facetDomains ents ((F.mesh.dim : Int) - mesh0.dim) (F.c2e 1) em inverse
    | _ => none

/-- `_edata`, Form.h L254-305. -/
def edata (F : Form T) : Option (List (List ((Kind × Nat) × List Int))) :=
  F.args.mapM fun m => F.integrals.mapM fun p => (mapDomain F m p.1.1 p.2.entities).map fun e => (p.1, e)

/-- `domain_arg`, Form.h L531-541. -/
def domainArg (ed : List (List ((Kind × Nat) × List Int))) (t : Kind) (rank i : Nat) : Option (List Int) :=
  ed[rank]?.bind fun v => v.lookup (t, i)

/-- `_cdata`, Form.h L307-342: `insert` keeps an entry that is there. -/
def cdata (F : Form T) : Option (List ((Kind × Nat × Nat) × List Int)) :=
  F.integrals.foldlM (fun cd p => p.2.coeffs.foldlM (fun cd c => do
    let u ← F.coefficients[c]?
    let e ← mapDomain F u.mesh p.1.1 p.2.entities
    some (if (cd.lookup (p.1.1, p.1.2, c)).isSome then cd else cd ++ [((p.1.1, p.1.2, c), e)])) cd) []

/-- `domain_coeff`, Form.h L556-564. -/
def domainCoeff (cd : List ((Kind × Nat × Nat) × List Int)) (t : Kind) (i c : Nat) : Option (List Int) := cd.lookup (t, i, c)

/-- `domain`, Form.h L493-500. -/
def domain (F : Form T) (t : Kind) (i : Nat) : Option (List Int) := (F.integrals.lookup (t, i)).map IData.entities

/-- `active_coeffs`, Form.h L421-432. -/
def activeCoeffs (F : Form T) (t : Kind) (i : Nat) : Option (List Nat) :=
  (F.integrals.find? fun p => p.1.1 == t && p.1.2 == i).map fun p => p.2.coeffs

/-- `num_integrals`, Form.h L450-458. -/
def numIntegrals (F : Form T) (t : Kind) : Nat := F.integrals.countP fun p => p.1.1 == t

/-- `coefficient_offsets`, Form.h L584-596 and Expression.h L128-138. -/
def coefficientOffsets (us : List (Fn T)) : List Nat :=
  us.foldl (fun n u => n ++ [n.getLastD 0 + u.spaceDim]) [0]

/-! ## Packing -/

/-- `coeffs[i] = v[j]`. -/
def copyAt (coeffs v : List T) (i j : Nat) : Option (List T) :=
  match v[j]? with
  | some y => if i < coeffs.length then some (coeffs.set i y) else none
  | none => none

/-- `pack_impl`, pack.h L77-103. -/
def packImpl (u : Fn T) (coeffs : List T) (cell : Nat) : Option (List T) := do
  let dofs ← u.dofs[cell]?
  let co ← dofs.zipIdx.foldlM (fun co (d : Nat × Nat) =>
    (List.range u.bs).foldlM (fun co k => copyAt co u.x (u.bs * d.2 + k) (u.bs * d.1 + k)) co) coeffs
  some (u.transform cell co)

/-- `pack_coefficient_entity`, pack.h L122-175. -/
def packEntity (u : Fn T) (c : List T) (cstride : Nat) (cells : List Int) (offset : Nat) : Option (List T) :=
  cells.zipIdx.foldlM (fun c (p : Int × Nat) =>
    if p.1 < 0 then some c
    else
      let s := p.2 * cstride + offset
      if s + u.spaceDim ≤ c.length then
        (packImpl u ((c.drop s).take u.spaceDim) p.1.toNat).map fun co => c.take s ++ co ++ c.drop (s + u.spaceDim)
      else none) c

/-- Column `j` of an array with `w` columns. -/
def column (w j : Nat) (l : List Int) : Option (List Int) := (List.range (l.length / w)).mapM fun e => l[w * e + j]?

/-- Storage for an integral, pack.h L184-216. -/
def allocateOne [Zero T] (F : Form T) (t : Kind) (i : Nat) : Option (List T × Nat) :=
  if F.coefficients.isEmpty then some ([], 0)
  else do
    let cstride := (coefficientOffsets F.coefficients).getLastD 0
    let d ← domain F t i
    let n := if t = .cell then d.length else d.length / 2
    some (List.replicate (n * cstride) 0, cstride)

/-- `integral_types`, Form.h L402-408: a set, in the order of the enumeration. -/
def integralTypes (F : Form T) : List Kind :=
  [Kind.cell, .exteriorFacet, .interiorFacet, .vertex, .ridge].filter fun t => F.integrals.any fun p => p.1.1 == t

/-- Packed coefficients with their stride, for each integral. -/
abbrev Packed (T : Type) := List ((Kind × Nat) × (List T × Nat))

/-- `allocate_coefficient_storage`, pack.h L223-243. -/
def allocate [Zero T] (F : Form T) : Option (Packed T) :=
  ((integralTypes F).flatMap fun t => (List.range (numIntegrals F t)).map fun i => (t, i)).mapM fun k =>
    (allocateOne F k.1 k.2).map fun d => (k, d)

/-- One coefficient of one integral, pack.h L289-389. -/
def packOne (F : Form T) (cd : List ((Kind × Nat × Nat) × List Int)) (offsets : List Nat) (t : Kind) (i cstride : Nat) (c : List T) (k : Nat) :
    Option (List T) := do
  let u ← F.coefficients[k]?
  let o ← offsets[k]?
  match t with
  | .cell =>
    if u.mesh.dim < F.mesh.dim then none
    else
      let cells ← domainCoeff cd t i k
      packEntity u c cstride cells o
  | .interiorFacet =>
    let facets ← domainCoeff cd t i k
    let o1 ← offsets[k + 1]?
    let cells0 ← column 4 0 facets
    let c ← packEntity u c (2 * cstride) cells0 (2 * o)
    let cells1 ← column 4 2 facets
    packEntity u c (2 * cstride) cells1 (o + o1)
  | _ =>
    let entities ← domainCoeff cd t i k
    let cells ← column 2 0 entities
    packEntity u c cstride cells o

/-- `pack_coefficients` for a form, pack.h L268-395. -/
def packCoefficients (F : Form T) (cd : List ((Kind × Nat × Nat) × List Int)) (b : Packed T) : Option (Packed T) :=
  b.mapM fun p =>
    if F.coefficients.isEmpty then some p
    else do
      let act ← activeCoeffs F p.1.1 p.1.2
      let c ← act.foldlM (packOne F cd (coefficientOffsets F.coefficients) p.1.1 p.1.2 p.2.2) p.2.1
      some (p.1, (c, p.2.2))

/-- Value number `j` that the kernel gets for row `e` of the entities of an integral: `coeffs(e, 0)` is the first, and `coeffs(e, 0, 0)` in an array
with rows of twice the stride for interior facets. -/
def kernelCoeff (t : Kind) (d : List T × Nat) (e j : Nat) : Option T :=
  d.1[(if t = .interiorFacet then 2 * d.2 else d.2) * e + j]?

/-! ## Expressions -/

/-- Entities of an expression: cells, or cells with local numbers. -/
inductive Ents where
  | cells (l : List Int)
  | pairs (l : List (Int × Int))

/-- The cells. -/
def Ents.cell : Ents → List Int
  | .cells l => l
  | .pairs l => l.map Prod.fst

/-- `extract_coefficient_cells_from_entities` and the choice of the map, pack.h L413-487 and L545-562. -/
def extractCells (mesh mesh0 : MeshId) (maps : List EMap) (c2e : Nat → List (List Nat)) (ents : Ents) : Option (List Int) :=
  if mesh0.topo = mesh.topo then some ents.cell
  else do
    let em ← findMap maps mesh mesh0
    let inverse := em.sub == mesh0.topo
    match ents with
    | .cells l => if mesh0.dim = mesh.dim then em.apply l inverse else none
    | .pairs l =>
      if mesh0.dim = mesh.dim then em.apply (l.map Prod.fst) inverse
      else if inverse = false ∨ mesh.dim < mesh0.dim then none
      else do
        let fs ← l.mapM (entityAt (c2e (mesh.dim - mesh0.dim)))
        em.apply fs inverse

/-- `pack_coefficients` over a list of entities, pack.h L504-571, with the offsets of the expression. -/
def packExpression (us : List (Fn T)) (mesh : MeshId) (ents : Ents) (maps : List EMap) (c2e : Nat → List (List Nat)) (c : List T) :
    Option (List T) :=
  let offsets := coefficientOffsets us
  let cstride := offsets.getLastD 0
  if c.length < ents.cell.length * cstride then none
  else us.zipIdx.foldlM (fun c (p : Fn T × Nat) => do
    let cells ← extractCells mesh p.1.mesh maps c2e ents
    packEntity p.1 c cstride cells (offsets.getD p.2 0)) c

/-! ## Constants -/

/-- `pack_constants`, pack.h L579-601: values of each constant are copied to the end of those before. -/
def packConstants [Zero T] (cs : List (List T)) : Option (List T) :=
  (cs.foldlM (fun (s : List T × Nat) v =>
    if s.2 + v.length ≤ s.1.length then some (s.1.take s.2 ++ v ++ s.1.drop (s.2 + v.length), s.2 + v.length) else none)
    (List.replicate (cs.foldl (fun n v => n + v.length) 0) 0, 0)).map Prod.fst

end Verif.Coefficients
