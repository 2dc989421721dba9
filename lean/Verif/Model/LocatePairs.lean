import Verif.Model.LocateDofs
import Verif.Model.Interpolate
/-!
# Locating dofs in a sub-space and its collapsed space, and locating dofs geometrically

`locate_dofs_topological` for two spaces (`cpp/dolfinx/fem/DirichletBC.cpp` L313-453), `FunctionSpace::tabulate_dof_coordinates` (`cpp/dolfinx/fem/FunctionSpace.h` L229-353) and
`locate_dofs_geometrical` for one and two spaces (`cpp/dolfinx/fem/DirichletBC.h` L97-243).

Simplifications: `radix_sort` (C03) is a stable sort by key.  The neighbourhood `allgatherv` delivers the lists of all neighbours in order.  Meshes have one cell type.  A marker is a function of
the point.  Elements of point evaluations need no dof transformations.
-/
namespace Verif.LocPairs
open Verif.Std Verif.World Verif.Locate

/-! ## Topologically -/

/-- What a rank reads: connectivities, closure dofs of the entities of a cell, both dof maps with their block sizes, and the block size of the element. -/
structure Input2 where
  e2c : List (List Nat)
  c2e : Nat → List Nat
  closure : Nat → List Nat
  cellDofs0 : Nat → List Nat
  cellDofs1 : Nat → List Nat
  bs0 : Nat
  bs1 : Nat
  ebs : Nat

/-- The part that `find_local_entity_index` reads. -/
def Input2.one (I : Input2) : Input := ⟨I.e2c, I.c2e, I.cellDofs0, I.closure, I.bs0, I.ebs⟩

/-- `bs * cell_dofs[pos.quot] + pos.rem`, DirichletBC.cpp L369-374. -/
def dofAt (bs : Nat) (ds : List Nat) (pos : Nat) : Option Nat := (ds[pos / bs]?).map fun b => bs * b + pos % bs

/-- The dofs of an entity in both spaces, L354-379. -/
def entityPairs (I : Input2) (x : Nat × Nat) : Option (List (Nat × Nat)) :=
  if I.bs0 * (I.cellDofs0 x.1).length ≠ I.bs1 * (I.cellDofs1 x.1).length then none
  else ((I.closure x.2).flatMap fun index => (List.range I.ebs).map fun k => I.ebs * index + k).mapM fun pos =>
    (dofAt I.bs0 (I.cellDofs0 x.1) pos).bind fun d0 => (dofAt I.bs1 (I.cellDofs1 x.1) pos).map fun d1 => (d0, d1)

/-- Sorting both lists by the first one and removing repetitions from each, L383-398 and L433-448. -/
def sortPairs (l0 l1 : List Nat) : List Nat × List Nat :=
  let perm := sort (fun i j => decide (l0.getD i 0 ≤ l0.getD j 0)) (List.range l0.length)
  (unique (perm.map fun i => l0.getD i 0), unique (perm.map fun i => l1.getD i 0))

/-- What a rank finds on its own, L331-398. -/
def localPairs (I : Input2) (entities : List Nat) : Option (List Nat × List Nat) :=
  (entities.mapM (findLocal I.one)).bind fun xs => (xs.mapM (entityPairs I)).map fun l => sortPairs (l.flatten.map Prod.fst) (l.flatten.map Prod.snd)

/-- `get_remote_dofs`, L95-196, with the neighbours of a given communicator. -/
def remoteVia (ns : List Nat) (w : World) (B : Nat) (loc : Nat → List Nat) (q : Nat) : List Nat :=
  if ns = [] then [] else (ns.flatMap (globalDofs w B loc)).filterMap (toLocal w B q)

/-- `locate_dofs_topological` for two spaces on rank `q` after all ranks found their own dofs, L400-452.  `w0`, `w1` are the index maps, `B0`, `B1` their block sizes.  The communicator is made
from the first map. -/
def locatePairs (w0 w1 : World) (B0 B1 : Nat) (loc : Nat → List Nat × List Nat) (remote : Bool) (q : Nat) : Option (List Nat × List Nat) :=
  if !remote then some (loc q)
  else
    let l0 := (loc q).1 ++ remoteVia (neighbours w0 q) w0 B0 (fun p => (loc p).1) q
    let l1 := (loc q).2 ++ remoteVia (neighbours w0 q) w1 B1 (fun p => (loc p).2) q
    if l0.length ≠ l1.length then none
    else
      let r := sortPairs l0 l1
      if r.1.length ≠ r.2.length then none else some r

/-! ## Geometrically -/

variable {T : Type} [CommRing T]

/-- Coordinate `k` of dof `j` of a cell: `push_forward` of point `j`, FunctionSpace.h L321-329; `xdofs` are the nodes of the cell, `x_g` has three coordinates for each. -/
def dofPoint (phi : Nat → Nat → T) (xdofs : List Nat) (xg : List T) (j k : Nat) : Option T :=
  (xdofs.mapM fun n => xg[3 * n + k]?).map fun cs => Verif.Interp.sumTo cs.length fun i => phi j i * cs.getD i 0

/-- A space as `tabulate_dof_coordinates` sees it: whether it is a sub-space or mixed, whether its element is one of point evaluations, number of points, dofs of the cells, number of dofs
(blocks), and the same of the geometry. -/
structure Space (T : Type) where
  isSub : Bool
  isMixed : Bool
  ident : Bool
  npts : Nat
  cellDofs : List (List Nat)
  numDofs : Nat
  gdim : Nat
  phi : Nat → Nat → T
  xdofs : List (List Nat)
  xg : List T

/-- The copying loops, FunctionSpace.h L334-347. -/
def copyPoint (transpose : Bool) (numDofs d k : Nat) (y : T) (coords : List T) : Option (List T) :=
  Verif.Interp.setAt coords (if transpose then k * numDofs + d else d * 3 + k) y

/-- A cell of `tabulate_dof_coordinates`, FunctionSpace.h L318-348. -/
def tabulateCell (V : Space T) (transpose : Bool) (coords : List T) (c : Nat) : Option (List T) :=
  (V.cellDofs[c]?).bind fun dofs => (V.xdofs[c]?).bind fun xdofs =>
    dofs.zipIdx.foldlM (fun coords d => (List.range V.gdim).foldlM (fun coords k =>
      if V.npts ≤ d.2 then none else (dofPoint V.phi xdofs V.xg d.2 k).bind fun y => copyPoint transpose V.numDofs d.1 k y coords) coords) coords

/-- `tabulate_dof_coordinates`, FunctionSpace.h L229-353. -/
def tabulate (V : Space T) (transpose : Bool) : Option (List T) :=
  if V.isSub then none
  else if V.isMixed then none
  else if !V.ident then none
  else (List.range V.cellDofs.length).foldlM (tabulateCell V transpose) (List.replicate (3 * V.numDofs) 0)

/-- The marker at each point of the array with three rows, DirichletBC.h L120-121, L184-185. -/
def marks (marker : (Nat → T) → Bool) (numDofs : Nat) (x : List T) : List Bool :=
  (List.range numDofs).map fun d => marker fun k => x.getD (k * numDofs + d) 0

/-- `locate_dofs_geometrical` for one space, DirichletBC.h L97-131. -/
def locateGeometrical (V : Space T) (marker : (Nat → T) → Bool) : Option (List Nat) :=
  if V.isMixed then none
  else (tabulate V true).map fun x => (marks marker V.numDofs x).zipIdx.filterMap fun m => if m.1 then some m.2 else none

/-- Comparison of pairs by `std::ranges::sort`, DirichletBC.h L219. -/
def pairLe (a b : Nat × Nat) : Bool := decide (a.1 < b.1 ∨ (a.1 = b.1 ∧ a.2 ≤ b.2))

/-- Dofs of a cell in both spaces, DirichletBC.h L188-216. -/
def cellPairs (ebs bs0 bs1 : Nat) (marked : List Bool) (ds0 ds1 : List Nat) : Option (List (Nat × Nat)) :=
  (ds1.zipIdx.mapM fun x : Nat × Nat => (marked[x.1]?).bind fun m : Bool =>
    if m then (List.range ebs).mapM fun k => (dofAt bs0 ds0 (ebs * x.2 + k)).bind fun d0 => (dofAt bs1 ds1 (ebs * x.2 + k)).map fun d1 => (d0, d1) else some []).map List.flatten

/-- `locate_dofs_geometrical` for two spaces, DirichletBC.h L149-243. -/
def locateGeometricalPairs (sameMesh sameElement : Bool) (ebs bs0 bs1 : Nat) (cellDofs0 : List (List Nat)) (V1 : Space T) (marker : (Nat → T) → Bool) : Option (List Nat × List Nat) :=
  if !sameMesh then none
  else if !sameElement then none
  else (tabulate V1 true).bind fun x =>
    ((List.range V1.cellDofs.length).mapM fun c => (cellDofs0[c]?).bind fun ds0 => (V1.cellDofs[c]?).bind fun ds1 => cellPairs ebs bs0 bs1 (marks marker V1.numDofs x) ds0 ds1).map
      fun l => let s := unique (sort pairLe l.flatten); (s.map Prod.fst, s.map Prod.snd)

end Verif.LocPairs
