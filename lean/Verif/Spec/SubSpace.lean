import Verif.Model.SubSpace
import Verif.Spec.SubMap
/-! Specification of sub-spaces: where the degrees of freedom of a sub-element are on a cell. -/
namespace Verif.SubSpace
open Verif.World Verif.Spec

/-- Number of sub-elements. -/
def Elem.numSubs : Elem → Nat
  | .base _ => 0
  | .blocked bs _ => bs
  | .mixed es => es.length

/-- Sub-element `i`: its dof `j` is the dof `o + s * j` of the element, where dofs are counted with all components.
Mixed elements have their sub-elements one after the other, and blocked elements have all components of a point
together. -/
def part1 : Elem → Nat → Option (Nat × Nat × Elem)
  | .base _, _ => none
  | .blocked bs b, i => if i < bs then some (i, bs, .base b) else none
  | .mixed es, i => (es[i]?).map fun e => (((es.take i).map Elem.dim).sum, 1, e)

/-- Sub-element of a sub-element of …. -/
def part : Elem → List Nat → Option (Nat × Nat × Elem)
  | e, [] => some (0, 1, e)
  | e, i :: path => do
    let (o, s, e1) ← part1 e i
    let (o', s', e2) ← part e1 path
    some (o + s * o', s * s', e2)

/-- Total number of entity dofs. -/
def countDofs (ed : EDofs) : Nat := (ed.map fun d => (d.map List.length).sum).sum

/-- A Basix element with dofs, on a cell with `sh[d]` entities of each dimension `d`. -/
def Basix.Ok (sh : List Nat) (b : Basix) : Prop := 0 < b.dim ∧ b.ed.map List.length = sh ∧ countDofs b.ed = b.dim

mutual
/-- An element on a cell with `sh[d]` entities of each dimension `d`. -/
def Elem.Ok (sh : List Nat) : Elem → Prop
  | .base b => b.Ok sh
  | .blocked bs b => 0 < bs ∧ b.Ok sh
  | .mixed es => es ≠ [] ∧ Oks sh es
def Oks (sh : List Nat) : List Elem → Prop
  | [] => True
  | e :: es => e.Ok sh ∧ Oks sh es
end

/-- An element on a cell with `sh[d]` entities of each dimension `d` and types `etype d s`: every dof is on an entity,
entities of the same type have the same number of dofs, and `permute_inv` permutes the dofs of each entity among
themselves. -/
structure Basix.Good (sh : List Nat) (etype : Nat → Nat → Nat) (b : Basix) : Prop where
  cover : ∀ i, i < b.dim → ∃ d s, s < sh.getD d 0 ∧ i ∈ (b.ed.getD d []).getD s []
  range : ∀ d s, ∀ i ∈ (b.ed.getD d []).getD s [], i < b.dim
  even : ∀ d s s', s < sh.getD d 0 → s' < sh.getD d 0 → etype d s = etype d s' →
    ((b.ed.getD d []).getD s []).length = ((b.ed.getD d []).getD s' []).length
  perm : ∀ f, b.perm = some f → ∀ info (l : List Nat), l.length = b.dim → (f info l).length = b.dim ∧
    ∀ d s, (((b.ed.getD d []).getD s []).filterMap fun i => (f info l)[i]?).Perm
      (((b.ed.getD d []).getD s []).filterMap fun i => l[i]?)

mutual
/-- All Basix elements have the property. -/
def Elem.All (p : Basix → Prop) : Elem → Prop
  | .base b => p b
  | .blocked _ b => p b
  | .mixed es => Alls p es
def Alls (p : Basix → Prop) : List Elem → Prop
  | [] => True
  | e :: es => e.All p ∧ Alls p es
end

/-- Dof `l` of cell `c`, counted with all components. -/
def DofMap.dof (D : DofMap) (c l : Nat) : Option Nat := ((D.cellDofs c)[l / D.bs]?).map fun x => D.bs * x + l % D.bs

/-- A dofmap, or a view into one, for an element on `nc` cells. -/
def DofMap.IsFor (D : DofMap) (e : Elem) (nc : Nat) : Prop :=
  (∃ pm, D.layout = e.layout pm) ∧ (D.bs = 1 ∨ D.bs = e.bs) ∧ D.bs * D.arr.length = nc * e.dim

/-- `V.sub(i).sub(j)…` -/
def DofMap.sub (D : DofMap) (path : List Nat) : Option DofMap := path.foldlM (fun D i => D.extractSub [i]) D

/-- The global degree of freedom of the local degree of freedom `x`: block and component. -/
def globalDof (W : World) (bs r x : Nat) : Option (Nat × Nat) := (globalOf W r (x / bs)).map fun g => (g, x % bs)

/-- The dofmap `N` with the map `map` from its local dofs is a copy of the view `V` on all ranks, for an element with
`n` dofs. -/
structure CollapseOk (V N : Maps) (map : Nat → List Nat) (nc : Nat → Nat) (n : Nat) : Prop where
  ranks : N.W.P = V.W.P
  valid : N.W.Valid
  /-- The map has an entry for every local dof of the new index map. -/
  size : ∀ r, r < V.W.P → (map r).length = (N.D r).imbs * (N.W.size r + (N.W.ghosts r).length)
  /-- On every cell the map takes the new dofs to the dofs of the view. -/
  cell : ∀ r, r < V.W.P → ∀ c, c < nc r → ∀ l, l < n → ∃ x y, (N.D r).dof c l = some x ∧ (V.D r).dof c l = some y ∧
    (map r)[x]? = some y
  /-- The map has local dofs of the parent. -/
  range : ∀ r, r < V.W.P → ∀ x y : Nat, (map r)[x]? = some y →
    y < (V.D r).imbs * (V.W.size r + (V.W.ghosts r).length)
  /-- No dof is left over. -/
  used : ∀ r, r < V.W.P → ∀ x, x < (map r).length → ∃ c l, c < nc r ∧ l < n ∧ (N.D r).dof c l = some x
  /-- Local dofs, also of different ranks, are the same dof exactly if they are the same dof of the parent. -/
  same : ∀ r, r < V.W.P → ∀ r', r' < V.W.P → ∀ x y x' y' : Nat, (map r)[x]? = some y → (map r')[x']? = some y' →
    (globalDof N.W (N.D r).imbs r x = globalDof N.W (N.D r').imbs r' x' ↔
      globalDof V.W (V.D r).imbs r y = globalDof V.W (V.D r').imbs r' y')
  /-- Dofs stay with their owner. -/
  owner : ∀ r, r < V.W.P → ∀ x y g g' : Nat, (map r)[x]? = some y → globalOf N.W r (x / (N.D r).imbs) = some g →
    globalOf V.W r (y / (V.D r).imbs) = some g' → ∀ q, Owns N.W q g ↔ Owns V.W q g'

end Verif.SubSpace
