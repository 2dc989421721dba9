import Verif.Model.DofmapBuilder
import Verif.Model.LocalMaps
import Verif.Model.PostOffice
/-!
# Mesh geometry

Model of `create_geometry`, `cpp/dolfinx/mesh/Geometry.h` L229-323, and of the part of `create_mesh`,
`cpp/dolfinx/mesh/utils.h` L1217-1254, that prepares its arguments.

A row of coordinates is a list of at most three numbers.  Nodes are naturals.  An exception, a failed assertion and
an access outside an array are `none`.
-/
namespace Verif.Geometry
open Verif.World Verif.Std Verif.Dofmap

/-- Arguments on all ranks: `I` has the topology and the layouts of the coordinate elements, `perm i` is `permute_inv`
of the element of cell type `i` if it needs dof permutations, `info r c` the permutation info of cell `c` of the first
type, and `cells r i` are the nodes of the cells of type `i` on rank `r` (`cells1[i]`). -/
structure Input where
  I : Dofmap.Input
  perm : Nat → Option (Nat → List Nat → List Nat)
  info : Nat → Nat → Nat
  cells : Nat → Nat → List Nat

/-- A geometry on one rank: dofmaps, `x` by rows, and `input_global_indices`. -/
structure Geometry (K : Type) where
  dofmaps : List (List Nat)
  x : List (List K)
  igi : List Nat

variable (G : Input) (R : List Req)

/-- `nodes2` on rank `r`, `utils.h` L1240-1243. -/
def allNodes (r : Nat) : List Nat := (List.range G.I.nct).flatMap (G.cells r)

/-- `nodes1`, `utils.h` L1238-1247. -/
def nodes (r : Nat) : List Nat := unique (sortNat (allNodes G r))

/-- The dofmaps after the permutation of the first one, `Geometry.h` L263-282. -/
def permuted (r i : Nat) : List Nat :=
  let m := dofmap G.I R r i
  match i, G.perm 0 with
  | 0, some f => (List.range (numCells G.I r 0)).flatMap fun c =>
      f (G.info r c) ((m.drop (c * G.I.ndofs 0)).take (G.I.ndofs 0))
  | _, _ => m

/-- `l2l`, `Geometry.h` L290-295. -/
def l2l (r : Nat) : Option (List Nat) := do
  let g ← LocalMaps.localToGlobal ((allNodes G r).map Int.ofNat) ((List.range G.I.nct).flatMap (permuted G R r))
  LocalMaps.localToLocal g ((nodes G r).map Int.ofNat)

/-- A row of `xg`, `Geometry.h` L307-312. -/
def pad {K : Type} [Zero K] (p : List K) : List K := p ++ List.replicate (3 - p.length) 0

/-- `igi`, `Geometry.h` L298-300: `transform` writes from the start of an array of the size of `nodes`. -/
def inputIndices (l : List Nat) (nodes : List Nat) : Option (List Nat) := do
  let w ← l.mapM fun k => nodes[k]?
  if nodes.length < w.length then none else some (w ++ List.replicate (nodes.length - w.length) 0)

/-- `create_geometry` on rank `r`, for the rows `x` of the coordinates of `nodes`. -/
def createGeometry {K : Type} [Zero K] (r : Nat) (x : List (List K)) : Option (Geometry K) := do
  let l ← l2l G R r
  let igi ← inputIndices l (nodes G r)
  let xg ← (List.range x.length).mapM fun i => do some (pad (← x[← l[i]?]?))
  if xg.length ≠ igi.length then none
  else some { dofmaps := (List.range G.I.nct).map (permuted G R r), x := xg, igi := igi }

/-- The end of `create_mesh` on rank `r`: cell permutations are refused for several cell types
(`Topology.cpp` L898-908, called from `create_entity_permutations`), then coordinates are fetched and the geometry is
created. `comm1` and `xs` are the ranks of `commg` and their rows, `ps` and `ds` the ranks found by the
exchanges of `distribute_data`. -/
def geometryOf {K : Type} [Zero K] (comm1 : List Nat) (xs : Nat → List (List K)) (ps ds : Nat → List Nat) (r : Nat) :
    Option (Geometry K) := do
  if 1 < G.I.nct ∧ (List.range G.I.nct).any (fun i => (G.perm i).isSome) then none
  else
    let coords ← PostOffice.distributeData G.I.P comm1 xs (nodes G) ps ds r
    createGeometry G R r coords

end Verif.Geometry
