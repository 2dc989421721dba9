import Verif.Model.FunctionOutput
/-!
# What a file for visualisation shows of a function

Independent of the writers: a value in the form that viewers expect, the value of a function at a degree of freedom, and what spaces have to satisfy.
-/
namespace Verif.FunOut

variable {R T : Type}

/-- A value of a function as a viewer expects it: scalars as they are, vectors with at least three components, matrices with at most three rows and
columns as the upper left part of a 3×3 matrix, stored by rows; larger values as they are. -/
def shown [Zero R] (shape : List Nat) (v : Nat → R) : List R :=
  match shape with
  | [] => [v 0]
  | [n] => (List.range (max n 3)).map fun k => if k < n then v k else 0
  | [a, b] =>
    if a ≤ 3 ∧ b ≤ 3 then (List.range 9).map fun k => if k / 3 < a ∧ k % 3 < b then v (k / 3 * b + k % 3) else 0
    else (List.range (a * b)).map v
  | s => (List.range s.prod).map v

/-- Component `k` of a function at the (block) degree of freedom `q`. -/
def nodal [Zero R] (u : Fn R) (q k : Nat) : R := u.x.getD (u.space.bs * q + k) 0

/-- Field `f` has the values `row` at place `p`. -/
def At (f : DataField R) (p : Nat) (row : List R) : Prop :=
  f.nc = row.length ∧ ∀ k < row.length, f.values[f.nc * p + k]? = row[k]?

/-- A space of its own (not a sub-space) with a blocked element without symmetry: block sizes agree, cells have the dofs of the element, and all dofs exist. -/
structure SpaceOk (V : Space) (cells : Nat) : Prop where
  pos : 0 < V.bs
  map : V.mapBs = V.bs
  shape : V.elem.shape.prod = V.bs
  cells : V.dofs.length = cells
  row : ∀ ds ∈ V.dofs, ds.length = V.elem.dim / V.elem.bs
  lt : ∀ ds ∈ V.dofs, ∀ d ∈ ds, d < V.owned + V.ghosts.length

/-- The vector of a function has an entry for every component of every dof. -/
def FnOk (u : Fn R) (cells : Nat) : Prop :=
  SpaceOk u.space cells ∧ u.x.length = u.space.bs * (u.space.owned + u.space.ghosts.length)

/-- Shapes for which padding at the end gives the form that viewers expect. -/
def FlatShape (shape : List Nat) : Prop :=
  shape = [] ∨ (∃ n, shape = [n]) ∨ (∃ a ≤ 3, shape = [a, 3]) ∨ (∃ a b, ¬ (a ≤ 3 ∧ b ≤ 3) ∧ 9 ≤ a * b ∧ shape = [a, b])

/-- Dof `i` of cell `c`. -/
def Space.dof (V : Space) (c i : Nat) : Option Nat := (V.dofs[c]?).bind fun ds => ds[i]?

/-- Wherever `V0` has the same dof, `V` has the same dof. -/
def Follows (V0 V : Space) : Prop :=
  ∀ (c i c' i' : Nat) (p : Nat), V0.dof c i = some p → V0.dof c' i' = some p → V.dof c i = V.dof c' i'

/-- Nodes have one position: where cells share a dof, its coordinates agree. -/
def OnePosition (V : Space) (gdim : Nat) (pts : Nat → Nat → Nat → T) : Prop :=
  ∀ (c i c' i' : Nat) (p : Nat), V.dof c i = some p → V.dof c' i' = some p → ∀ j < gdim, pts c i j = pts c' i' j

/-- Order of the `n` nodes of a cell. -/
structure OrderOk (perm : List Nat) (n : Nat) : Prop where
  length : perm.length = n
  lt : ∀ k ∈ perm, k < n

/-- One value for each cell. -/
def Constant (V : Space) : Prop := V.elem.dim / V.elem.bs = 1

/-- The global index of a local dof. -/
def globalId (V : Space) (p : Nat) : Option Nat := if p < V.owned then some (V.first + p) else V.ghosts[p - V.owned]?

/-- The grid of a file has the points of the dofs of `V`: node `i` of cell `c` in the file is dof `perm i` of the cell, it has its coordinates, its global index,
and is marked if it is a ghost. -/
def GridOf [Zero T] (g : Grid T) (V : Space) (gdim : Nat) (pts : Nat → Nat → Nat → T) (perm : List Nat) : Prop :=
  g.width = V.elem.dim / V.elem.bs ∧ g.cells.length = V.dofs.length * g.width ∧
  g.x.length = 3 * (V.owned + V.ghosts.length) ∧ g.ids.length = V.owned + V.ghosts.length ∧ g.ghost.length = V.owned + V.ghosts.length ∧
  ∀ (c i k p : Nat), perm[i]? = some k → V.dof c k = some p →
    g.cells[c * g.width + i]? = some p ∧
    (∀ j < 3, g.x[3 * p + j]? = some (if j < gdim then pts c k j else 0)) ∧
    g.ids[p]? = globalId V p ∧ g.ghost[p]? = some (if p < V.owned then 0 else 1)

/-- The field of a function in a file: constants stand at their cells, all others at the points of `V0`. -/
def FieldOf [Zero R] (f : DataField R) (V0 : Space) (u : Fn R) : Prop :=
  (Constant u.space → f.cell = true ∧ f.values.length = f.nc * u.space.dofs.length ∧
    ∀ (c q : Nat), u.space.dof c 0 = some q → At f c (shown u.space.elem.shape (nodal u q))) ∧
  (¬ Constant u.space → f.cell = false ∧ f.values.length = f.nc * (V0.owned + V0.ghosts.length) ∧
    ∀ (c k p q : Nat), V0.dof c k = some p → u.space.dof c k = some q → At f p (shown u.space.elem.shape (nodal u q)))

end Verif.FunOut
