import Verif.Model.Vtkhdf
import Verif.Model.EntityData
import Verif.Model.MeshTags
/-!
# Model: meshes and mesh tags in XDMF files with HDF5 encoding

`cpp/dolfinx/io/xdmf_mesh.cpp` (whole file), `add_meshtags` of `xdmf_mesh.h` (L95-142), `add_data_item` and `get_dataset` of `xdmf_utils.h`
(L75-285, HDF5 encoding), `get_cell_type` and `vtk_cell_type_str` of `xdmf_utils.cpp`, and `XDMFFile::read_meshtags` (`XDMFFile.cpp` L352-419), on
all processes.

Simplifications: a data set is the list of its rows; names of cell types, which are compared without regard to case (L57-59), are the values of an
inductive type; other XML attributes are left out.  `.layout` is an exception; `.range` is an access outside of an array, a division by zero or a
failed assertion.  If one process fails, the whole call fails.  Local to global conversion of nodes (L85-89, L131-134) is `IndexMap.localToGlobal`.
-/
namespace Verif.Xdmf
open Verif.CellPerm (Err permVtk transpose readVtk)
open Verif.Connectivity (CellType)
open Verif.Vtkhdf (writeDataset readDataset)
open Verif.LocalRange (localRange)
open Verif.Std

/-! ## Types -/

/-- `TopologyType`. -/
inductive Name where
  | polyvertex | polyline | edge3 | triangle | triangle6 | triangle10 | quadrilateral | quadrilateral8 | quadrilateral9 | quadrilateral16
  | wedge | tetrahedron | tetrahedron10 | tetrahedron20 | hexahedron | hexahedron20 | hexahedron27
deriving DecidableEq, Repr

/-- `vtk_cell_type_str`, xdmf_utils.cpp L180-210. -/
def vtkCellTypeStr (t : CellType) (n : Nat) : Except Err Name :=
  match t with
  | .point => if n = 1 then .ok .polyvertex else .error .layout
  | .interval => if n = 2 then .ok .polyline else if n = 3 then .ok .edge3 else .error .layout
  | .triangle => if n = 3 then .ok .triangle else if n = 6 then .ok .triangle6 else if n = 10 then .ok .triangle10 else .error .layout
  | .quadrilateral => if n = 4 then .ok .quadrilateral else if n = 8 then .ok .quadrilateral8 else if n = 9 then .ok .quadrilateral9
    else if n = 16 then .ok .quadrilateral16 else .error .layout
  | .prism => if n = 6 then .ok .wedge else .error .layout
  | .tetrahedron => if n = 4 then .ok .tetrahedron else if n = 10 then .ok .tetrahedron10 else if n = 20 then .ok .tetrahedron20
    else .error .layout
  | .hexahedron => if n = 8 then .ok .hexahedron else if n = 27 then .ok .hexahedron27 else if n = 20 then .ok .hexahedron20
    else .error .layout
  | .pyramid => .error .layout

/-- `get_cell_type`, xdmf_utils.cpp L28-67: type and degree. -/
def getCellType : Name → Except Err (CellType × Nat)
  | .polyvertex => .ok (.point, 1)
  | .polyline => .ok (.interval, 1)
  | .edge3 => .ok (.interval, 2)
  | .triangle => .ok (.triangle, 1)
  | .triangle6 => .ok (.triangle, 2)
  | .tetrahedron => .ok (.tetrahedron, 1)
  | .tetrahedron10 => .ok (.tetrahedron, 2)
  | .quadrilateral => .ok (.quadrilateral, 1)
  | .quadrilateral8 => .ok (.quadrilateral, 2)
  | .quadrilateral9 => .ok (.quadrilateral, 2)
  | .quadrilateral16 => .ok (.quadrilateral, 3)
  | .hexahedron => .ok (.hexahedron, 1)
  | .hexahedron20 => .ok (.hexahedron, 2)
  | .wedge => .ok (.prism, 1)
  | .hexahedron27 => .ok (.hexahedron, 2)
  | .triangle10 => .error .layout
  | .tetrahedron20 => .error .layout

/-- `cell_dim`, mesh/cell_types.h and cell_types.cpp. -/
def cellDim : CellType → Nat
  | .point => 0
  | .interval => 1
  | .triangle | .quadrilateral => 2
  | _ => 3

/-- `cell_facet_type(type, 0)`, cell_types.h L75-108. -/
def firstFacetType : CellType → CellType
  | .point => .point
  | .interval => .point
  | .triangle | .quadrilateral => .interval
  | .tetrahedron => .triangle
  | .hexahedron => .quadrilateral
  | .prism => .triangle
  | .pyramid => .quadrilateral

/-- `cell_entity_type(type, d, 0)`, cell_types.h L110-121. -/
def entityType (t : CellType) (d : Nat) : CellType :=
  if d = cellDim t then t else if d = 1 then .interval else if d + 1 = cellDim t then firstFacetType t else .point

/-- `cell_num_entities(type, 0)`. -/
def numVertices : CellType → Nat
  | .point => 1
  | .interval => 2
  | .triangle => 3
  | .quadrilateral | .tetrahedron => 4
  | .pyramid => 5
  | .prism => 6
  | .hexahedron => 8

/-! ## Data items -/

/-- A `DataItem`: the attribute `Dimensions`, the shape of the HDF5 data set and its rows. -/
structure Item (β : Type) where
  dims : List Nat
  shape : List Nat
  rows : List (List β)
deriving DecidableEq

/-- `add_data_item`, xdmf_utils.h L75-150, on all processes, with the offsets that its callers compute by `MPI_Exscan`; `width` is `shape[1]`. -/
def addDataItem {β : Type} (width : Nat) (parts : List (List (List β))) : Except Err (Item β) := do
  let len := fun r => (parts.getD r []).length
  let n := (parts.map List.length).sum
  let rows ← writeDataset [] (n : Int) (parts.zipIdx.map fun p =>
    (((Offsets.excl len p.2 : Nat) : Int), ((Offsets.excl len p.2 + p.1.length : Nat) : Int), p.1))
  return ⟨[n, width], [n, width], rows⟩

/-- The range of rows that a process reads, xdmf_utils.h L198-243.  In the second case, the call of `local_range` has the rank in place of
the size (L237-238). -/
def datasetRange (dims shape : List Nat) (rank size : Nat) : Except Err (Nat × Nat) :=
  if shape.headD 0 = 0 then .error .range
  else if dims = shape then .ok (localRange rank (shape.headD 0) size)
  else if dims ≠ [] ∧ shape.length = 1 then
    let d := dims.prod
    if d * dims.headD 0 ≠ shape.headD 0 then .error .layout
    else if rank = 0 then .error .range
    else
      let r := localRange rank (dims.headD 0) rank
      .ok (r.1 * d, r.2 * d)
  else .error .layout

/-- `get_dataset`, xdmf_utils.h L152-285, format `HDF`. -/
def getDataset {β : Type} (it : Item β) (rank size : Nat) : Except Err (List β) := do
  let r ← datasetRange it.dims it.shape rank size
  let rows ← readDataset it.rows (r.1 : Int) (r.2 : Int)
  return rows.flatten

/-! ## Writing -/

/-- What is used of a mesh.  `closure d e` is `entity_closure_dofs(d, e)` of the coordinate element; `e2c d r`, `c2e d r` are the connectivities
between entities of dimension `d` and cells on process `r`; `owned d r` is the number of owned entities. -/
structure Mesh (α : Type) where
  type : CellType
  gdim : Nat
  geom : World.World
  x : Nat → List (List α)
  closure : Nat → Nat → List Nat
  dofmap : Nat → List (List Nat)
  owned : Nat → Nat → Nat
  e2c : Nat → Nat → List (List Nat)
  c2e : Nat → Nat → List (List Nat)

variable {α : Type}

/-- Nodes of an entity in VTK's order, xdmf_mesh.cpp L83-91 and L127-137: `ed` are the dofs of the entity in the cell. -/
def nodeRow (g : IndexMap.Map) (vtkMap ed xs : List Nat) : Option (List Int) :=
  (List.range ed.length).mapM fun i => do
    let k ← vtkMap[i]?
    let d ← ed[k]?
    let v ← xs[d]?
    let n ← g.localToGlobal v
    some (n : Int)

/-- The row of one entity, xdmf_mesh.cpp L79-138. -/
def entityRow (m : Mesh α) (dim r : Nat) (vtkMap : List Nat) (e : Nat) : Option (List Int) :=
  if dim = cellDim m.type then do
    let xs ← (m.dofmap r)[e]?
    nodeRow (m.geom.map r) vtkMap (List.range xs.length) xs
  else do
    let cells ← (m.e2c dim r)[e]?
    let c ← cells[0]?
    let ents ← (m.c2e dim r)[c]?
    if e ∈ ents then
      let xs ← (m.dofmap r)[c]?
      nodeRow (m.geom.map r) vtkMap (m.closure dim (ents.idxOf e)) xs
    else none

/-- A `Topology` node. -/
structure Topo where
  name : Name
  item : Item Int
deriving DecidableEq

/-- An access that may be outside of an array. -/
def checked {β : Type} : Option β → Except Err β
  | some b => .ok b
  | none => .error .range

/-- `add_topology_data`, xdmf_mesh.cpp L25-163. -/
def addTopologyData (m : Mesh α) (dim : Nat) (ents : Nat → List Nat) : Except Err Topo := do
  if cellDim m.type = 2 ∧ (m.type = .prism ∨ m.type = .pyramid) then .error .layout
  else
    let et := entityType m.type dim
    let n := (m.closure dim 0).length
    let name ← vtkCellTypeStr et n
    let perm ← permVtk et n
    let vtkMap ← transpose perm
    let rows ← checked ((List.range m.geom.P).mapM fun r => (ents r).mapM (entityRow m dim r vtkMap))
    let item ← addDataItem n rows
    return ⟨name, item⟩

/-- A `Geometry` node: whether `GeometryType` is `XYZ` or `XY`, and the data. -/
structure Geom (α : Type) where
  xyz : Bool
  item : Item α
deriving DecidableEq

/-- `add_geometry_data`, xdmf_mesh.cpp L167-218. -/
def addGeometryData [Zero α] (m : Mesh α) : Except Err (Geom α) := do
  if m.gdim = 0 ∨ 3 < m.gdim then .error .layout
  else
    let width := if m.gdim = 1 then 2 else m.gdim
    let rows ← checked ((List.range m.geom.P).mapM fun r => (List.range (m.geom.size r)).mapM fun i =>
      (m.x r)[i]?.map fun row => row.take m.gdim ++ List.replicate (width - m.gdim) 0)
    let item ← addDataItem width rows
    return ⟨decide (m.gdim = 3), item⟩

/-- `add_mesh`, xdmf_mesh.cpp L221-252. -/
def addMesh [Zero α] (m : Mesh α) : Except Err (Topo × Geom α) := do
  let t ← addTopologyData m (cellDim m.type) fun r => List.range (m.owned (cellDim m.type) r)
  let g ← addGeometryData m
  return (t, g)

/-- Tags on the processes: sorted indices with values. -/
structure Tags (V : Type) where
  indices : Nat → List Nat
  values : Nat → List V

/-- `num_active_entities`, xdmf_mesh.h L111-116. -/
def numActive (m : Mesh α) (dim : Nat) (t : Tags V) (r : Nat) : Nat :=
  lowerBound (fun i => decide (i < m.owned dim r)) (t.indices r)

/-- `add_meshtags`, xdmf_mesh.h L95-142. -/
def addMeshtags (m : Mesh α) (dim : Nat) (t : Tags V) : Except Err (Topo × Item V) := do
  let topo ← addTopologyData m dim fun r => (t.indices r).take (numActive m dim t r)
  let vals ← addDataItem 1 ((List.range m.geom.P).map fun r => ((t.values r).take (numActive m dim t r)).map fun v => [v])
  return (topo, vals)

/-! ## Reading -/

/-- `read_topology_data`, xdmf_mesh.cpp L301-333: cells one after another, and the number of nodes of a cell. -/
def readTopologyData (t : Topo) (rank size : Nat) : Except Err (List Int × Nat) := do
  let ct ← getCellType t.name
  match t.item.dims[1]? with
  | none => .error .range
  | some np =>
    let data ← getDataset t.item rank size
    let cells ← readVtk data (data.length / np) np ct.1
    return (cells, np)

/-- `read_geometry_data`, xdmf_mesh.cpp L261-299: coordinates and geometric dimension. -/
def readGeometryData (g : Geom α) (rank size : Nat) : Except Err (List α × Nat) := do
  let gdim := if g.xyz then 3 else 2
  if g.item.dims.length ≠ 2 ∨ g.item.dims[1]? ≠ some gdim then .error .range
  else
    let data ← getDataset g.item rank size
    return (data, gdim)

/-- What `read_meshtags` uses of the mesh on the processes that read. -/
structure Target where
  Q : Nat
  type : CellType
  N : Nat
  closure : Nat → List Nat
  vertexDofs : List Nat
  nodes : Nat → List Nat
  c2v : Nat → List (List Nat)
  xdofs : Nat → List (List Nat)
  etov : Nat → Nat → List (List Nat)

/-- Rows of an array. -/
def cut {β : Type} (l : List β) (rows cols : Nat) : List (List β) := (List.range rows).map fun c => (l.drop (c * cols)).take cols

/-- What one process has read, XDMFFile.cpp L367-399: rows of nodes (node numbers are not negative) with values. -/
def readTagData {V : Type} (f : Topo × Item V) (rank size : Nat) : Except Err (List (List Nat × V)) := do
  let e ← readTopologyData f.1 rank size
  let vals ← getDataset f.2 rank size
  let ct ← getCellType f.1.name
  let rows := e.1.length / e.2
  let ents1 ← readVtk e.1 rows e.2 ct.1
  if vals.length < rows then .error .range
  else return ((cut ents1 rows e.2).map fun row => row.map Int.toNat).zip vals

/-- The arguments of `distribute_entity_data`, XDMFFile.cpp L400-406. -/
def Target.input {V : Type} (m : Target) (dim : Nat) (ents : Nat → List (List Nat × V)) : EntityData.Input V :=
  { P := m.Q, N := m.N, layout := m.closure dim, numVert := numVertices (entityType m.type dim), vertexDofs := m.vertexDofs, ents := ents,
    nodes := m.nodes, c2v := m.c2v, xdofs := m.xdofs }

/-- `XDMFFile::read_meshtags`, XDMFFile.cpp L352-419: the tags on all processes. -/
def readMeshtags {V : Type} [LinearOrder V] (f : Topo × Item V) (m : Target) : Except Err (List (List Int × List V)) := do
  let data ← (List.range m.Q).mapM fun q => readTagData f q m.Q
  let ct ← getCellType f.1.name
  let dim := cellDim ct.1
  let out ← checked (EntityData.distributeEntityData (m.input dim fun q => data.getD q []))
  out.zipIdx.mapM fun o => match MeshTags.createMeshtags (m.etov dim o.2) (o.1.map Prod.fst) (o.1.map Prod.snd) with
    | .ok t => .ok (t.indices, t.values)
    | .error _ => .error .layout

end Verif.Xdmf
