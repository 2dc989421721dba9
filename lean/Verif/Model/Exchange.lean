/-!
# Neighbourhood exchange

`MPI_Neighbor_alltoallv` / `MPI_Ineighbor_alltoallv` on a distributed graph
communicator, as a pure function on the families of buffers of all ranks
(trusted MPI assumption: the data block that rank `q` addresses to its
out-neighbour `r` arrives unchanged in the block of `r` for its in-neighbour `q`;
blocks of the receive buffer are ordered like the in-neighbour list).
-/
namespace Verif.Exchange

variable {α : Type}

/-- Cut a buffer into consecutive blocks (`sendcounts` + contiguous `sdispls`). -/
def chunks : List Nat → List α → List (List α)
  | [], _ => []
  | n :: ns, l => l.take n :: chunks ns (l.drop n)

/-- Block that rank `q` addresses to rank `r`: the block at the position of `r` in
the out-neighbour list of `q`. -/
def blockFor (outs : List Nat) (blocks : List (List α)) (r : Nat) : List α :=
  ((outs.zip blocks).lookup r).getD []

/-- Receive buffer of rank `r`: concatenation over its in-neighbours. -/
def neighborAlltoallv (outs ins : Nat → List Nat) (blocks : Nat → List (List α)) (r : Nat) : List α :=
  (ins r).flatMap fun q => blockFor (outs q) (blocks q) r

/-- `MPI_Neighbor_alltoall` with one item per neighbour. -/
def neighborAlltoall (outs ins : Nat → List Nat) (items : Nat → List α) (r : Nat) : List α :=
  neighborAlltoallv outs ins (fun q => (items q).map fun a => [a]) r

end Verif.Exchange
