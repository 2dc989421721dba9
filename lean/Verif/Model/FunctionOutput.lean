import Verif.Model.Xdmf
/-!
# Functions in files for visualisation

Model of `write_function`, `io/VTKFile.cpp` L319-598 (the data of a process; XML is left out), `tabulate_lagrange_dof_coordinates` and
`vtk_mesh_from_space`, `io/vtk_utils.h` L54-239, `xdmf_function::add_function`, `io/xdmf_function.cpp` L46-209, and `vtx_write_data`,
`vtx_write_mesh_from_space`, `VTXWriter`, `io/ADIOS2Writers.h` L132-165, L226-287, L369-438, L500-684 (release build: the check of dofmaps at L567-579 is compiled
in debug builds only).

Simplifications: scalars are of any type (a complex function is written as two real ones, each in this way); the transformation of coordinates that
is applied at vtk_utils.h L140-141 is the identity for elements of point evaluations; names and the active fields are left out.  A read or
write outside of an array is `none`.
-/
namespace Verif.FunOut

variable {R T : Type}

/-- What is used of a `FiniteElement`.  `basix` is the Basix element, up to equality; mixed elements have none. -/
structure Element where
  basix : Option Nat
  ident : Bool
  dim : Nat
  bs : Nat
  shape : List Nat
deriving DecidableEq

/-- What is used of a `FunctionSpace` on a process: the object (compared by address), its mesh, component, element, the dofs of all cells, block size of
the dofmap, first, owned and ghost indices of the index map, its block size, and the element dof layout, up to equality. -/
structure Space where
  id : Nat
  mesh : Nat
  component : List Nat
  elem : Element
  dofs : List (List Nat)
  bs : Nat
  first : Nat
  owned : Nat
  ghosts : List Nat
  mapBs : Nat
  layout : Nat

/-- A `Function`: its space and the local array of its vector, ghosts included. -/
structure Fn (R : Type) where
  space : Space
  x : List R

/-- What is used of a `Mesh` on a process. `nodes` is the geometry dofmap of all cells, `x` the coordinates, three for each node. -/
structure Mesh (T : Type) where
  gdim : Nat
  ownedCells : Nat
  nodes : List (List Nat)
  x : List T
  xOwned : Nat
  xIds : List Nat
  cmapDim : Nat
  cmapLayout : Nat
  degree : Nat
  variantOk : Bool

/-- `is_cellwise`, vtk_utils.h L168-172. -/
def Element.cellwise (e : Element) : Bool := decide (e.dim / e.bs = 1)

/-- Number of components in the file, VTKFile.cpp L475-480: at least `3^rank`. -/
def numComponents (shape : List Nat) : Nat := if shape.prod < 3 ^ shape.length then 3 ^ shape.length else shape.prod

/-- `a[p] = v`, where `v` was read from an array. -/
def put (a : List R) (w : Nat × Option R) : Option (List R) :=
  w.2.bind fun v => if w.1 < a.length then some (a.set w.1 v) else none

/-- Number of blocks of dofs on a process, vtk_utils.h L82-84. -/
def Space.numNodes (V : Space) : Nat := V.mapBs * (V.owned + V.ghosts.length) / V.bs

/-- `pad_data`, VTKFile.cpp L516-531. -/
def padData [Zero R] (V : Space) (nc : Nat) (u : List R) : Option (List R) :=
  (List.range V.numNodes).foldlM (fun d i => (List.range V.mapBs).foldlM (fun d k =>
    put d (i * nc + k, u[i * V.mapBs + k]?)) d) (List.replicate (V.numNodes * nc) 0)

/-- The loop over cells, VTKFile.cpp L561-576: values of a function with dofmap `V` at the dofs of `V0`. -/
def remap [Zero R] (V0 V : Space) (u : List R) : Option (List R) :=
  (List.range V0.dofs.length).foldlM (fun d c =>
    ((V0.dofs.getD c []).zipIdx).foldlM (fun d p => (List.range V.bs).foldlM (fun d k =>
      put d (V.bs * p.1 + k, ((V.dofs.getD c [])[p.2]?).bind fun q => u[V.bs * q + k]?)) d) d)
    (List.replicate u.length 0)

/-- A field in a file: for cells or points, number of components, values. -/
structure DataField (R : Type) where
  cell : Bool
  nc : Nat
  values : List R
deriving DecidableEq

/-- Values at cells, VTKFile.cpp L486-506. -/
def cellData [Zero R] (V : Space) (nc numCells : Nat) (u : List R) : Option (List R) :=
  (List.range numCells).foldlM (fun d c => ((V.dofs.getD c []).zipIdx).foldlM (fun d p => (List.range V.bs).foldlM (fun d k =>
    put d (nc * c + k, u[V.bs * p.1 + k]?)) d) d) (List.replicate (numCells * nc) 0)

/-- Values at points, VTKFile.cpp L507-597. -/
def pointData [Zero R] (gdim : Nat) (V0 : Space) (u : Fn R) : Option (List R) :=
  let nc := numComponents u.space.elem.shape
  if u.space.id = V0.id then
    if gdim = 3 then some u.x else padData u.space nc u.x
  else
    (remap V0 u.space u.x).bind fun v => if gdim = 3 then some v else padData u.space nc u.x

/-- The field of a function, VTKFile.cpp L467-598. -/
def vtkField [Zero R] (gdim numCells : Nat) (V0 : Space) (u : Fn R) : Option (DataField R) :=
  let nc := numComponents u.space.elem.shape
  if u.space.elem.cellwise then (cellData u.space nc numCells u.x).map (DataField.mk true nc)
  else (pointData gdim V0 u).map (DataField.mk false nc)

/-- The space that gives the points: the first one that is not cell-wise, else the first, VTKFile.cpp L329-342. -/
def chooseSpace (us : List (Fn R)) : Option Space :=
  match us.find? fun u => !u.space.elem.cellwise with
  | some u => some u.space
  | none => us.head?.map Fn.space

/-- Exceptions, and accesses outside of arrays. -/
inductive Err where
  | refused | range
deriving DecidableEq

/-- `*e == *element0`, fem/FiniteElement.cpp L260-276: throws if there is no Basix element. -/
def sameElement (e e0 : Element) : Except Err Bool :=
  match e.basix, e0.basix with
  | some a, some b => .ok (decide (a = b))
  | _, _ => .error .refused

/-- Checks for a function, VTKFile.cpp L344-385. -/
def vtkCheck (V0 V : Space) : Except Err Unit :=
  if V.mesh ≠ V0.mesh then .error .refused
  else if V.component ≠ [] then .error .refused
  else if V.elem.ident = false then .error .refused
  else if V.elem.cellwise then .ok ()
  else match sameElement V.elem V0.elem with
    | .ok true => .ok ()
    | _ => .error .refused

/-- Points and cells in a file. -/
structure Grid (T : Type) where
  x : List T
  ids : List Nat
  ghost : List Nat
  cells : List Nat
  width : Nat
deriving DecidableEq

/-- `tabulate_lagrange_dof_coordinates`, vtk_utils.h L54-166, coordinates: `pts c i j` is coordinate `j` of node `i` of cell `c` (C83). -/
def dofCoordinates [Zero T] (V : Space) (gdim : Nat) (pts : Nat → Nat → Nat → T) : Option (List T) :=
  (List.range V.dofs.length).foldlM (fun d c => ((V.dofs.getD c []).zipIdx).foldlM (fun d p =>
    (List.range gdim).foldlM (fun d j => put d (3 * p.1 + j, some (pts c p.2 j))) d) d) (List.replicate (V.numNodes * 3) 0)

/-- `x_id`, vtk_utils.h L153-159: global indices of the index map. -/
def dofIds (V : Space) : List Nat := (List.range V.owned).map (V.first + ·) ++ V.ghosts

/-- `id_ghost`, vtk_utils.h L161-163. -/
def dofGhosts (V : Space) : List Nat := List.replicate V.owned 0 ++ List.replicate (V.numNodes - V.owned) 1

/-- Cells in the order of nodes `perm` (`transpose(perm_vtk(...))`, C64): the loops vtk_utils.h L224-231 and vtk_utils.cpp L39-44. -/
def permuted (perm : List Nat) (cells : List (List Nat)) : Option (List Nat) :=
  (cells.mapM fun (row : List Nat) => (List.range row.length).mapM fun i => (perm[i]?).bind fun k => row[k]?).map List.flatten

/-- `vtk_mesh_from_space`, vtk_utils.h L192-239. -/
def meshFromSpace [Zero T] (V : Space) (gdim : Nat) (pts : Nat → Nat → Nat → T) (perm : List Nat) : Except Err (Grid T) :=
  if V.elem.basix = none then .error .refused
  else match dofCoordinates V gdim pts, permuted perm V.dofs with
    | some x, some cells => .ok ⟨x, dofIds V, dofGhosts V, cells, V.elem.dim / V.elem.bs⟩
    | _, _ => .error .range

/-- The grid of the mesh itself, VTKFile.cpp L411-425. -/
def meshGrid (m : Mesh T) (perm : List Nat) : Except Err (Grid T) :=
  match permuted perm m.nodes with
  | some cells => .ok ⟨m.x, m.xIds, List.replicate m.xOwned 0 ++ List.replicate (m.x.length / 3 - m.xOwned) 1, cells, m.cmapDim⟩
  | none => .error .range

/-- `write_function`, VTKFile.cpp L319-598, on a process: `perm` orders the nodes of the space, `permX` those of the mesh. -/
def vtkWrite [Zero R] [Zero T] (m : Mesh T) (pts : Nat → Nat → Nat → T) (perm permX : List Nat) (us : List (Fn R)) :
    Except Err (Option (Grid T × List (DataField R))) :=
  match chooseSpace us with
  | none => .ok none
  | some V0 =>
    match us.mapM fun u => vtkCheck V0 u.space with
    | .error e => .error e
    | .ok _ =>
      match if V0.elem.cellwise then meshGrid m permX else meshFromSpace V0 m.gdim pts perm with
      | .error e => .error e
      | .ok g =>
        match us.mapM (vtkField m.gdim m.nodes.length V0) with
        | some fs => .ok (some (g, fs))
        | none => .error .range

/-! ## XDMF -/

/-- Values at nodes, xdmf_function.cpp L129-151. -/
def nodeData [Zero R] (m : Mesh T) (V : Space) (nc : Nat) (u : List R) : Option (List R) :=
  (List.range m.nodes.length).foldlM (fun d c => ((V.dofs.getD c []).zipIdx).foldlM (fun d p =>
    ((m.nodes.getD c [])[p.2]?).bind fun g =>
      if g < m.xOwned then (List.range V.bs).foldlM (fun d j => put d (nc * g + j, u[V.bs * p.1 + j]?)) d else some d) d)
    (List.replicate (m.xOwned * nc) 0)

/-- `add_function`, xdmf_function.cpp L46-151: the data of a process. -/
def xdmfField [Zero R] (m : Mesh T) (u : Fn R) : Except Err (DataField R) :=
  let e := u.space.elem
  let nc := numComponents e.shape
  if e.ident = false then .error .refused
  else if e.dim / e.bs = 1 then
    match cellData u.space nc m.ownedCells u.x with
    | some d => .ok ⟨true, nc, d⟩
    | none => .error .range
  else if m.cmapDim ≠ e.dim / e.bs then .error .refused
  else if u.space.layout ≠ m.cmapLayout then .error .refused
  else if 2 < m.degree ∧ m.variantOk = false then .error .refused
  else match nodeData m u.space nc u.x with
    | some d => .ok ⟨false, nc, d⟩
    | none => .error .range

/-- Rows of `nc` values. -/
def rows (nc n : Nat) (d : List R) : List (List R) := (List.range n).map fun i => (d.drop (i * nc)).take nc

/-- `add_function`, xdmf_function.cpp L153-208, on all processes: the data set.  `num_local` is the size divided by the number of components. -/
def xdmfWrite (fields : List (DataField R)) (nc : Nat) : Except CellPerm.Err (Xdmf.Item R) :=
  Xdmf.addDataItem nc (fields.map fun f => rows nc (f.values.length / nc) f.values)

/-! ## VTX -/

/-- `vtx_write_data`, ADIOS2Writers.h L226-287. -/
def vtxField [Zero R] (u : Fn R) : Option (DataField R) :=
  let V := u.space
  let nc := numComponents V.elem.shape
  ((List.range V.numNodes).foldlM (fun d i => (List.range V.mapBs).foldlM (fun d j =>
    put d (i * nc + j, u.x[i * V.mapBs + j]?)) d) (List.replicate (V.numNodes * nc) 0)).map (DataField.mk V.elem.cellwise nc)

/-- Checks of the constructor, ADIOS2Writers.h L500-588, without the check of dofmaps that release builds leave out. -/
def vtxCheck (V0 V : Space) : Except Err Unit :=
  if V.mesh ≠ V0.mesh then .error .refused
  else match sameElement V.elem V0.elem with
    | .ok b => if b = false ∧ V.elem.cellwise = false then .error .refused else .ok ()
    | .error e => .error e

/-- `VTXWriter` and `write` for functions, ADIOS2Writers.h L500-684: the grid is made from the first function unless all are cell-wise. -/
def vtxWrite [Zero R] [Zero T] (m : Mesh T) (pts : Nat → Nat → Nat → T) (perm permX : List Nat) (us : List (Fn R)) :
    Except Err (Grid T × List (DataField R)) :=
  match chooseSpace us, us.head? with
  | some V0, some u0 =>
    if V0.elem.basix = none ∨ V0.elem.ident = false then .error .refused
    else match us.mapM fun u => vtxCheck V0 u.space with
      | .error e => .error e
      | .ok _ =>
        match if us.all fun u => u.space.elem.cellwise then meshGrid m permX else meshFromSpace u0.space m.gdim pts perm with
        | .error e => .error e
        | .ok g =>
          match us.mapM vtxField with
          | some fs => .ok (g, fs)
          | none => .error .range
  | _, _ => .error .refused

end Verif.FunOut
