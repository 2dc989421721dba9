import Verif.Model.Geometry
import Verif.Props.C42_Dofmap
/-! Specification of the geometry of a mesh: input nodes that fit the topology, and a geometry that is right. -/
namespace Verif.Geometry
open Verif.World Verif.Spec Verif.Dofmap

/-- The function moves the entries of a list of `n` entries, whatever they are. -/
structure Moves (n : Nat) (f : List Nat → List Nat) : Prop where
  perm : ∀ l, l.length = n → (f l).Perm l
  natural : ∀ l, l.length = n → ∀ g : Nat → Nat, f (l.map g) = (f l).map g

/-- The nodes of cell `c` of type `i`. -/
def Input.row (G : Input) (r i c : Nat) : List Nat := ((G.cells r i).drop (c * G.I.ndofs i)).take (G.I.ndofs i)

/-- The nodes that were given for the cells are those of a mesh with this topology: `node r d t e j` is the node `j` of
the local entity `e`, nodes are the same exactly if they are the same node of the same entity, and the nodes of a cell
are those of its entities, moved by the permutation of the cell if the element has one. -/
structure NodesFit (G : Input) (node : Nat → Nat → Nat → Nat → Nat → Nat) : Prop where
  same : ∀ r, r < G.I.P → ∀ r', r' < G.I.P → ∀ d t e j d' t' e' j', Props.HasDof G.I d t j → e < numEnts G.I r d t →
    Props.HasDof G.I d' t' j' → e' < numEnts G.I r' d' t' →
    (node r d t e j = node r' d' t' e' j' ↔
      d = d' ∧ t = t' ∧ j = j' ∧ globalOf (G.I.maps d t) r e = globalOf (G.I.maps d' t') r' e')
  length : ∀ r, r < G.I.P → ∀ i, i < G.I.nct → (G.cells r i).length = numCells G.I r i * G.I.ndofs i
  row : ∀ r, r < G.I.P → ∀ i, i < G.I.nct → ∀ c, c < numCells G.I r i → ∃ raw : List Nat, raw.length = G.I.ndofs i ∧
    (∀ l d t e j, Attached G.I r i c l d t e j → raw[l]? = some (node r d t e j)) ∧
    G.row r i c = match G.perm i with
      | none => raw
      | some f => f (G.info r c) raw

/-- Every entity on a rank is in a cell on the rank. -/
def InCells (I : Dofmap.Input) : Prop :=
  ∀ r, r < I.P → ∀ d t e j, Props.HasDof I d t j → e < numEnts I r d t →
    ∃ i c l, i < I.nct ∧ c < numCells I r i ∧ l < I.ndofs i ∧ Attached I r i c l d t e j

/-- The geometry `g` on all ranks, with the index map `W`, has for all cells the nodes that were given, where `X n` are
the coordinates of the input node `n`. -/
structure Right {K : Type} [Zero K] (G : Input) (W : World) (X : Nat → List K) (g : Nat → Geometry K) : Prop where
  ranks : W.P = G.I.P
  valid : W.Valid
  size : ∀ r, r < G.I.P → (g r).x.length = W.size r + (W.ghosts r).length ∧ (g r).igi.length = W.size r + (W.ghosts r).length
  types : ∀ r, r < G.I.P → (g r).dofmaps.length = G.I.nct
  /-- Cell by cell, the entries of the dofmap stand for the given nodes. -/
  cell : ∀ r, r < G.I.P → ∀ i, i < G.I.nct → ∃ m, (g r).dofmaps[i]? = some m ∧ m.length = (G.cells r i).length ∧
    ∀ k n : Nat, (G.cells r i)[k]? = some n → ∃ x, m[k]? = some x ∧ (g r).igi[x]? = some n
  /-- Rows of the coordinates belong to the input nodes. -/
  coord : ∀ r, r < G.I.P → ∀ x n : Nat, (g r).igi[x]? = some n →
    ∃ p, (g r).x[x]? = some p ∧ p.take (X n).length = X n ∧ (∀ v ∈ p.drop (X n).length, v = 0) ∧ ((X n).length ≤ 3 → p.length = 3)
  /-- Points are the same, also on different ranks, exactly if they are the same input node. -/
  same : ∀ r, r < G.I.P → ∀ r', r' < G.I.P → ∀ x n x' n' : Nat, (g r).igi[x]? = some n → (g r').igi[x']? = some n' →
    (globalOf W r x = globalOf W r' x' ↔ n = n')

end Verif.Geometry
