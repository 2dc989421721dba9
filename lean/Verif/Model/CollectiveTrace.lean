import Verif.Model.World
/-!
# Collective operations executed by transpose and matmul

The sequence of collective MPI calls each rank makes in `la/mattrans.h` `transpose`
(L127-438) and `la/matmul.h` `matmul` (L548-580, `fetch_ghost_rows` L107-390).
Only the calls are modelled, not their data (see `Model/Transpose`, `Model/MatMul`).
-/
namespace Verif.CollectiveTrace
open Verif.World

/-- Collective MPI operations used. -/
inductive Coll
  | commDup | commFree | exscan | allreduce | nbxBarrier | distGraphCreate
  | neighborAlltoall | neighborAlltoallv
deriving DecidableEq, Repr

open Coll

/-- `IndexMap(comm, local_size)`, `common/IndexMap.cpp` L865-888. -/
def indexMapNoGhosts : List Coll := [commDup, exscan, allreduce]

/-- `IndexMap(comm, local_size, ghosts, owners)`, `common/IndexMap.cpp` L890-933 with
`build_src_dest` L31-49 (no consensus on one rank). -/
def indexMapGhosts (P : Nat) : List Coll :=
  (if P = 1 then [] else [nbxBarrier]) ++ [commDup, exscan, allreduce]

/-- `MatrixCSR` constructor in compact mode, `la/MatrixCSR.h` L716-801. -/
def matrixCSR : List Coll := [distGraphCreate, neighborAlltoall, neighborAlltoallv]

/-- The test at `mattrans.h` L161 and `matmul.h` L133: one process, or no neighbours. -/
def fastPath (w : World) (r : Nat) : Bool :=
  decide (w.P = 1) || ((w.src r).isEmpty && (w.dest r).isEmpty)

/-- `transpose`, L161-179 (fast path) and L202-425. -/
def transposeTrace (w : World) (r : Nat) : List Coll :=
  if fastPath w r then indexMapNoGhosts ++ indexMapNoGhosts ++ matrixCSR
  else [distGraphCreate, neighborAlltoall, neighborAlltoallv, neighborAlltoallv, neighborAlltoallv, commFree]
    ++ indexMapGhosts w.P ++ indexMapNoGhosts ++ matrixCSR

/-- `matmul` with `fetch_ghost_rows` L133-141 (fast path) and L153-358; `w` is the column map
of the left factor. -/
def matmulTrace (w : World) (r : Nat) : List Coll :=
  (if fastPath w r then indexMapGhosts w.P
   else [distGraphCreate, distGraphCreate, neighborAlltoall, neighborAlltoallv, neighborAlltoall,
     neighborAlltoallv, neighborAlltoallv, neighborAlltoallv, neighborAlltoallv, commFree, commFree]
     ++ indexMapGhosts w.P) ++ indexMapNoGhosts ++ matrixCSR

end Verif.CollectiveTrace
