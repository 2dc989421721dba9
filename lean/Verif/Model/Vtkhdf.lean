import Verif.Model.CellPerm
import Verif.Model.World
import Verif.Model.LocalRange
/-!
# Model: meshes in VTKHDF files

`cpp/dolfinx/io/VTKHDF.h`: `write_mesh` (L30-155) on `P` processes and the part of `read_mesh` (L318-457) before the call
of `create_mesh`, on `Q` processes. `cpp/dolfinx/io/cells.h` and `cells.cpp`: numbers of cell types.

Simplifications: a data set is the list of its rows (L144-240 and L295-393 of `HDF5Interface.h`); a value that no process
writes is HDF5's default fill value 0; `MPI_Allgather(v)` concatenates; groups, attributes and the scalar data sets
`NumberOfConnectivityIds` and `NumberOfCells`, which are not read back, are left out. If one process throws, the whole
call fails.
-/
namespace Verif.Vtkhdf
open Verif.CellPerm (Err permVtk transpose cellDegree)
open Verif.Connectivity (CellType)
open Verif.LocalRange (localRange)
open Verif.Std

/-- Conversion of a 64 bit integer to `int`. -/
def wrap32 (x : Int) : Int := (x + 2147483648) % 4294967296 - 2147483648

/-- `std::accumulate(begin, end, 0)`: the type of the sum is that of the literal `0`. -/
def accumulate (l : List Nat) : Int := l.foldl (fun a (x : Nat) => wrap32 (a + (x : Int))) 0

/-- `std::inner_product(begin0, end0, begin1, 0)`, likewise. -/
def innerProduct (l : List (Nat × Nat)) : Int := l.foldl (fun a (p : Nat × Nat) => wrap32 (a + (p.1 : Int) * (p.2 : Int))) 0

/-- `std::partial_sum`, with the sum of the preceding values. -/
def partialSum (a : Int) : List Int → List Int
  | [] => []
  | x :: l => (a + x) :: partialSum (a + x) l

/-- One process writes the rows `[start, stop)` of a data set from a buffer; HDF5 fails if the data set does not have
these rows. Rows that the buffer does not have are an access outside of an array. -/
def writeRows {β : Type} (size : Int) (start stop : Int) (buf : List β) (data : List β) : Except Err (List β) :=
  if start < 0 ∨ stop < start ∨ size < stop then .error .range
  else if (buf.length : Int) < stop - start then .error .range
  else .ok (data.take start.toNat ++ buf.take (stop - start).toNat ++ data.drop stop.toNat)

/-- `hdf5::write_dataset` on all processes. -/
def writeDataset {β : Type} (fill : β) (size : Int) (parts : List (Int × Int × List β)) : Except Err (List β) :=
  if size < 0 then .error .range
  else parts.foldlM (fun d p => writeRows size p.1 p.2.1 p.2.2 d) (List.replicate size.toNat fill)

/-- `hdf5::read_dataset` on one process. -/
def readDataset {β : Type} (data : List β) (start stop : Int) : Except Err (List β) :=
  if start < 0 ∨ stop < start ∨ (data.length : Int) < stop then .error .range
  else .ok ((data.drop start.toNat).take (stop - start).toNat)

/-- `get_vtk_cell_type`, cells.cpp L717-749, for cells of the highest dimension. -/
def vtkType : CellType → Nat
  | .point => 1
  | .interval => 68
  | .triangle => 69
  | .quadrilateral => 70
  | .tetrahedron => 71
  | .hexahedron => 72
  | .pyramid => 14
  | .prism => 73

/-- `vtk_to_dolfinx`, cells.h L185-248; an unknown type is an error. -/
def vtkToDolfinx (n : Nat) : Except Err (CellType × Int) :=
  if n = 1 then .ok (.point, -1) else if n = 3 then .ok (.interval, 1) else if n = 5 then .ok (.triangle, 1)
  else if n = 9 then .ok (.quadrilateral, 1) else if n = 10 then .ok (.tetrahedron, 1)
  else if n = 12 then .ok (.hexahedron, 1) else if n = 13 then .ok (.prism, 1) else if n = 14 then .ok (.pyramid, 1)
  else if n = 21 then .ok (.interval, 2) else if n = 22 then .ok (.triangle, 2)
  else if n = 23 then .ok (.quadrilateral, 2) else if n = 24 then .ok (.tetrahedron, 2)
  else if n = 25 then .ok (.hexahedron, 2) else if n = 26 then .ok (.prism, 2) else if n = 27 then .ok (.pyramid, 2)
  else if n = 35 then .ok (.interval, 3) else if n = 68 then .ok (.interval, -1) else if n = 69 then .ok (.triangle, -1)
  else if n = 70 then .ok (.quadrilateral, -1) else if n = 71 then .ok (.tetrahedron, -1)
  else if n = 72 then .ok (.hexahedron, -1) else if n = 73 then .ok (.prism, -1) else if n = 74 then .ok (.pyramid, -1)
  else .error .layout

/-- Cells of one type: nodes per cell, number of owned cells of every process, and the dofmap of the geometry of every
process (owned cells followed by ghost cells). -/
structure Kind where
  type : CellType
  nodes : Nat
  owned : Nat → Nat
  dofmap : Nat → List (List Nat)

/-- What `write_mesh` uses of a mesh. Coordinates are rows of three numbers. -/
structure Mesh (α : Type) where
  kinds : List Kind
  geom : World.World
  x : Nat → List (List α)

/-- The data sets of a file. -/
structure File (α : Type) where
  points : List (List α)
  npoints : Int
  offsets : List Int
  connectivity : List Int
  types : List Nat
deriving DecidableEq

/-- The values of an array at a list of positions. -/
def gather {β : Type} (row : List β) (p : List Nat) : Except Err (List β) :=
  p.mapM fun k => match row[k]? with
    | some x => .ok x
    | none => .error .range

/-- The nodes of the owned cells of one type in VTK's order with global numbers, L73-86. -/
def kindTopology (g : IndexMap.Map) (k : Kind) (r : Nat) : Except Err (List Int) := do
  let perm ← permVtk k.type k.nodes
  let inversePerm ← transpose perm
  let cells ← (List.range (k.owned r)).mapM fun j => match (k.dofmap r)[j]? with
    | none => .error .range
    | some row => gather row inversePerm
  cells.flatten.mapM fun v => match g.localToGlobal v with
    | some i => .ok (i : Int)
    | none => .error .range

/-- `topology_flattened`, L64-87. -/
def topology (m : Mesh α) (r : Nat) : Except Err (List Int) := do
  let t ← m.kinds.mapM fun k => kindTopology (m.geom.map r) k r
  return t.flatten

/-- Start of the cells of a process in the list of all cells of one type (`local_range()[0]`). -/
def Kind.start (k : Kind) (r : Nat) : Nat := Offsets.excl k.owned r

/-- `topology_start`, L115-117. -/
def topologyStart (m : Mesh α) (r : Nat) : Int := innerProduct (m.kinds.map fun k => (k.nodes, k.start r))

/-- `topology_offsets`, L88-89, L96-97 and L119-121. -/
def topologyOffsets (m : Mesh α) (r : Nat) : List Int :=
  (partialSum 0 (m.kinds.flatMap fun k => List.replicate (k.dofmap r).length (k.nodes : Int))).map (· + topologyStart m r)

/-- `vtkcelltypes`, L90-92. -/
def cellTypes (m : Mesh α) (r : Nat) : List Nat := m.kinds.flatMap fun k => List.replicate (k.owned r) (vtkType k.type)

/-- `offset_start_position` and `offset_stop_position`, L109-112. -/
def cellStart (m : Mesh α) (r : Nat) : Int := accumulate (m.kinds.map fun k => k.start r)
@[inherit_doc cellStart] def cellStop (m : Mesh α) (r : Nat) : Int := accumulate (m.kinds.map fun k => k.start r + k.owned r)

/-- `write_mesh`, L30-155. -/
def writeMesh (m : Mesh α) : Except Err (File α) := do
  let P := m.geom.P
  let npoints : Int := ((List.range P).map m.geom.size).sum
  let points ← writeDataset [] npoints ((List.range P).map fun r =>
    ((m.geom.r0 r : Int), ((m.geom.r0 r + m.geom.size r : Nat) : Int), m.x r))
  let topo ← (List.range P).mapM (topology m)
  let ncells := accumulate (m.kinds.map fun k => k.start P)
  let offsets ← writeDataset 0 (ncells + 1) ((List.range P).map fun r =>
    (cellStart m r + 1, cellStop m r + 1, topologyOffsets m r))
  let size := innerProduct (m.kinds.map fun k => (k.nodes, k.start P))
  let connectivity ← writeDataset 0 size (topo.zipIdx.map fun t =>
    (topologyStart m t.2, topologyStart m t.2 + t.1.length, t.1))
  let types ← writeDataset 0 ncells ((List.range P).map fun r => (cellStart m r, cellStop m r, cellTypes m r))
  return ⟨points, npoints, offsets, connectivity, types⟩

/-- Order of pairs of numbers (`std::array<std::uint8_t, 2>`). -/
def pairLe (a b : Nat × Nat) : Bool := decide (a.1 < b.1 ∨ (a.1 = b.1 ∧ a.2 ≤ b.2))

/-- The data read by one process: VTK types, degrees and offsets of its cells, L321-362. -/
def readTypes (f : File α) (Q q : Nat) : Except Err (List Nat × List Nat × List Int) := do
  let range := localRange q f.types.length Q
  let types ← readDataset f.types range.1 range.2
  let offsets ← readDataset f.offsets range.1 (range.2 + 1)
  let degrees ← (List.range types.length).mapM fun i =>
    match types[i]?, offsets[i + 1]?, offsets[i]? with
    | some ty, some b, some a => do
      let (t, degree) ← vtkToDolfinx ty
      if degree = -1 then
        let d ← cellDegree t (b - a).toNat
        return (d % 256).toNat
      else return degree.toNat
    | _, _, _ => .error .range
  return (types, degrees, offsets)

/-- The pairs of VTK type and degree on all processes, L359-392. -/
def allTypes (parts : List (List Nat × List Nat × List Int)) : List (Nat × Nat) :=
  unique (sort pairLe (parts.flatMap fun p => unique (sort pairLe (p.1.zip p.2.1))))

/-- The nodes of one cell in the order of DOLFINx, L449-455. -/
def readCell (topo : List Int) (ty : Nat) (a b : Int) : Except Err (List Int) := do
  let (t, _) ← vtkToDolfinx ty
  let perm ← permVtk t (b - a).toNat
  (List.range (b - a).toNat).mapM fun (k : Nat) => match perm[k]? with
    | none => .error .range
    | some p => if (p : Int) + a < 0 then .error .range else
      match topo[((p : Int) + a).toNat]? with
      | none => .error .range
      | some v => .ok v

/-- The cells of one process, sorted by type, L434-456. -/
def readCells (f : File α) (kinds : List (Nat × Nat)) (p : List Nat × List Nat × List Int) : Except Err (Nat → List Int) := do
  match p.2.2.head?, p.2.2.getLast? with
  | some front, some back =>
    let topo ← readDataset f.connectivity front back
    let offsets := p.2.2.map (· - front)
    (List.range p.1.length).foldlM (fun out j =>
      match p.1[j]?, p.2.1[j]?, offsets[j]?, offsets[j + 1]? with
      | some ty, some d, some a, some b =>
        if (ty, d) ∈ kinds then do
          let row ← readCell topo ty a b
          return fun k => if k = kinds.idxOf (ty, d) then out k ++ row else out k
        else .error .range
      | _, _, _, _ => .error .range) (fun _ => [])
  | _, _ => .error .range

/-- The points of one process with the first `gdim` coordinates, L408-432. -/
def readPoints (f : File α) (Q gdim q : Nat) : Except Err (List (List α)) := do
  let range := localRange q f.npoints.toNat Q
  let pts ← readDataset f.points range.1 range.2
  if gdim > 3 then .error .layout else return pts.map (·.take gdim)

/-- Input of `create_mesh`: cell types with degrees of the coordinate elements, and the cells (of each type) and points
of every process. -/
structure Parts (α : Type) where
  kinds : List (CellType × Nat)
  cells : List (Nat → List Int)
  points : List (List (List α))

/-- `read_mesh`, L318-471, up to the call of `create_mesh`. -/
def readMesh (f : File α) (Q gdim : Nat) : Except Err (Parts α) := do
  let parts ← (List.range Q).mapM (readTypes f Q)
  let kinds := allTypes parts
  let elements ← kinds.mapM fun k => do
    let (t, _) ← vtkToDolfinx k.1
    return (t, k.2)
  let points ← (List.range Q).mapM (readPoints f Q gdim)
  let cells ← parts.mapM (readCells f kinds)
  return ⟨elements, cells, points⟩

end Verif.Vtkhdf
