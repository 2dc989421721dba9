import Verif.Model.TabulateExpr
import Verif.Spec.Coefficients
import Verif.Spec.DofTransform
import Mathlib.Algebra.BigOperators.Group.List.Basic
/-!
# Specification: what it means that an expression is evaluated on an entity
-/
namespace Verif.Spec.TabExpr
open Verif.TabExpr
open Verif.Coefficients (Fn MeshId EMap Ents)
open Verif.Spec.Coefficients (RowOf IsCell LocalValues FnOk EntsOk before)

variable {T U : Type}

/-- What a kernel computes from coefficients, constants, coordinates and facet data: one number for each point, component and dof of the argument. -/
abbrev Meaning (T U : Type) := List T → List T → List U → Option (Nat × Nat) → List T

/-- The generated kernel adds the `n` numbers of `K` to its first argument, and looks at the first `stride` coefficients only. -/
def Computes [Add T] (kernel : List T → List T → List T → List U → Option (Nat × Nat) → Option (List T)) (n stride : Nat) (K : Meaning T U) : Prop :=
  (∀ w c x f, (K w c x f).length = n) ∧
  ∀ a w c x f, a.length = n → stride ≤ w.length → ∃ b, kernel a w c x f = some b ∧ b.length = n ∧
    ∀ (k : Nat) (y z : T), a[k]? = some y → (K (w.take stride) c x f)[k]? = some z → b[k]? = some (y + z)

/-- `w` are the coefficients on an entity: the transformed values of each function on the cell that is the entity in its mesh, zeros if there is none. -/
def CoefficientsOf [Zero T] (us : List (Fn T)) (mesh : MeshId) (maps : List EMap) (c2e : Nat → List (List Nat)) (cell lf : Nat) (w : List T) : Prop :=
  w.length = (us.map Fn.spaceDim).sum ∧ ∀ (c : Nat) (u : Fn T), us[c]? = some u →
    (∀ j, IsCell mesh u.mesh (u.mesh.topo = mesh.topo) maps c2e cell lf j → ∃ vals, LocalValues u j vals ∧
      ∀ k < u.spaceDim, ∃ y : T, w[((us.take c).map Fn.spaceDim).sum + k]? = some y ∧ (u.transform j vals)[k]? = some y) ∧
    ((∀ j, ¬ IsCell mesh u.mesh (u.mesh.topo = mesh.topo) maps c2e cell lf j) → ∀ k < u.spaceDim, w[((us.take c).map Fn.spaceDim).sum + k]? = some 0)

/-- `x` are the coordinates of the nodes of a cell, three for each node. -/
def CoordinatesOf (m : Msh U) (cell : Nat) (x : List U) : Prop :=
  ∃ ds, m.xdofs[cell]? = some ds ∧ x.length = 3 * ds.length ∧
    ∀ i d : Nat, ds[i]? = some d → ∀ k < 3, ∃ y : U, m.x[3 * d + k]? = some y ∧ x[3 * i + k]? = some y

/-- Facet data of a row of entities: nothing for cells, local number and permutation for facets. -/
def FacetOf (m : Msh U) (ents : Ents) (cell lf : Nat) (f : Option (Nat × Nat)) : Prop :=
  match ents with
  | .cells _ => f = none
  | .pairs _ => ∃ ps q, m.perms[cell]? = some ps ∧ ps[lf]? = some q ∧ f = some (lf, q)

/-- The mesh has what is needed for the entities: nodes of the cells, and permutations of facets if the entities are facets. -/
def MeshOk (m : Msh U) (ents : Ents) : Prop :=
  (∀ ds ∈ m.xdofs, ∀ d ∈ ds, 3 * d + 3 ≤ m.x.length) ∧
  (∀ e < ents.cell.length, ∃ cell lf, RowOf ents e cell lf ∧ cell < m.xdofs.length ∧
    match ents with
    | .cells _ => True
    | .pairs _ => ∃ ps q, m.perms[cell]? = some ps ∧ ps[lf]? = some q)

/-- The coefficients are functions that can be found on the entities (as in C75). -/
def FunctionsOk (us : List (Fn T)) (mesh : MeshId) (maps : List EMap) (c2e : Nat → List (List Nat)) (ents : Ents) : Prop :=
  ∀ u ∈ us, FnOk u ∧ EntsOk mesh u.mesh maps c2e ents ∧
    ∀ e cell lf j, RowOf ents e cell lf → IsCell mesh u.mesh (u.mesh.topo = mesh.topo) maps c2e cell lf j → j < u.dofs.length

/-- Number of columns. -/
def columns (e : Expr T U) : Nat := (e.argument.map Arg.spaceDim).getD 1

/-- Number of rows for an entity: points times components. -/
def rowsPer (e : Expr T U) : Nat := e.numPoints * e.valueShape.prod

/-- Numbers that the kernel is to give for row `r` of the entities: `v` at the place of the entity in `out`. -/
def At (out : List T) (n r : Nat) (v : List T) : Prop := v.length = n ∧ ∀ k < n, ∃ y : T, out[r * n + k]? = some y ∧ v[k]? = some y

end Verif.Spec.TabExpr
