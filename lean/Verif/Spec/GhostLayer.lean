import Verif.Spec.DualGraph
/-! # Specification: nodes of a distributed graph and where they go

Written without reference to the model (except for the type of the cells of C44). -/
namespace Verif.Spec.Ghost

/-- Number of node `j` of rank `q` when the nodes of all ranks are numbered in order. -/
def number (links : Nat → List (List Nat)) (q j : Nat) : Nat := ((List.range q).map fun p => (links p).length).sum + j

/-- The links are nodes, and if a node is linked to another one then the other one is linked to it. -/
structure Undirected (P : Nat) (links : Nat → List (List Nat)) : Prop where
  node : ∀ (q j n : Nat) (l : List Nat), q < P → (links q)[j]? = some l → n ∈ l →
    ∃ q' j', q' < P ∧ j' < (links q').length ∧ n = number links q' j'
  symm : ∀ (q j q' j' : Nat) (l l' : List Nat), q < P → q' < P → (links q)[j]? = some l → (links q')[j']? = some l' →
    number links q' j' ∈ l → number links q j ∈ l'

/-- Rank `x` needs node `i` of rank `r`: the node is assigned to it, or a node that is linked to it is. -/
def Needs (P : Nat) (links : Nat → List (List Nat)) (part : Nat → List Nat) (r i x : Nat) : Prop :=
  (part r)[i]? = some x ∨
    ∃ (q j : Nat) (l : List Nat), q < P ∧ (links q)[j]? = some l ∧ number links r i ∈ l ∧ (part q)[j]? = some x

/-- A row of destinations is right: the rank that the node is assigned to comes first, and every rank that needs the node is
listed, once. -/
def RowOk (P : Nat) (links : Nat → List (List Nat)) (part : Nat → List Nat) (r i : Nat) (row : List Nat) : Prop :=
  row.head? = (part r)[i]? ∧ row.Nodup ∧ ∀ x, x ∈ row ↔ Needs P links part r i x

open Verif.DualGraph (CellList)
open Verif.Spec.Dual (Adjacent)

/-- With a layer of ghost cells: cell `c` of rank `q` (all types counted) belongs on rank `r`, because it is assigned to `r` or
has a facet in common with a cell that is. -/
def Belongs (P : Nat) (types : Nat → List CellList) (part : Nat → List Nat) (r q c : Nat) : Prop :=
  (part q)[c]? = some r ∨ ∃ q' c', q' < P ∧ Adjacent types q c q' c' ∧ (part q')[c']? = some r

end Verif.Spec.Ghost
