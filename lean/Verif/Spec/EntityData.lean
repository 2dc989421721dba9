import Mathlib.Data.List.Forall2
import Verif.Model.EntityData
/-! Specification: data on entities that are given by the nodes of the input. -/
namespace Verif.Spec.EntityData
open Verif.EntityData

variable {V : Type} (I : Input V)

/-- The nodes of an input entity that are vertices: those at places which hold a vertex dof of the cell. -/
def vertexNodes (row : List Nat) : List Nat :=
  ((row.zip I.layout).filter fun x => decide (x.2 ∈ I.vertexDofs)).map Prod.fst

/-- On process `q`, vertex `v` is at input node `n`: some cell has both at the same place. -/
def At (q n v : Nat) : Prop :=
  ∃ (c i d k : Nat) (vs xs : List Nat), (I.c2v q)[c]? = some vs ∧ vs[i]? = some v ∧ I.vertexDofs[i]? = some d ∧
    (I.xdofs q)[c]? = some xs ∧ xs[d]? = some k ∧ (I.nodes q)[k]? = some n

/-- The input entity `row` lies, on process `q`, at the local vertices `vs`, which are ordered by the numbers of their nodes. -/
def Lies (q : Nat) (row vs : List Nat) : Prop :=
  ∃ ns : List Nat, ns.Perm (vertexNodes I row) ∧ ns.Pairwise (· ≤ ·) ∧ List.Forall₂ (At I q) ns vs

/-- All input entities with their values. -/
def allEnts : List (List Nat × V) := (List.range I.P).flatMap I.ents

/-- `v` is the smallest value given for an entity with these vertex nodes. -/
def Value [LE V] (ns : List Nat) (v : V) : Prop :=
  (∃ e ∈ allEnts I, e.2 = v ∧ (vertexNodes I e.1).Perm ns) ∧ ∀ e ∈ allEnts I, (vertexNodes I e.1).Perm ns → v ≤ e.2

/-- What the arguments must satisfy for input nodes `0, …, M - 1`: cells have one dof per vertex, input entities have one node per dof of the
entity; the nodes of the processes are known, each process has a node once; and vertices and vertex nodes are in correspondence. -/
structure OkNodes (M : Nat) : Prop where
  vertexDofs : I.vertexDofs.Nodup
  layout : I.layout.Nodup
  numVert : I.numVert = (I.layout.filter fun d => decide (d ∈ I.vertexDofs)).length
  pos : 0 < I.numVert
  rows : ∀ q < I.P, ∀ e ∈ I.ents q, e.1.length = I.layout.length ∧ ∀ n ∈ e.1, n < M
  nodes : ∀ q < I.P, (I.nodes q).Nodup ∧ ∀ n ∈ I.nodes q, n < M
  cells : ∀ q < I.P, ∀ (c : Nat) (vs : List Nat), (I.c2v q)[c]? = some vs → ∃ xs : List Nat, (I.xdofs q)[c]? = some xs ∧
    ∀ i < vs.length, ∃ d k, I.vertexDofs[i]? = some d ∧ xs[d]? = some k ∧ k < (I.nodes q).length
  vertex : ∀ q < I.P, ∀ n v v', At I q n v → At I q n v' → v = v'
  node : ∀ q < I.P, ∀ n n' v, At I q n v → At I q n' v → n = n'

/-- The input has as many nodes as the geometry. -/
def Ok : Prop := OkNodes I I.N

end Verif.Spec.EntityData
