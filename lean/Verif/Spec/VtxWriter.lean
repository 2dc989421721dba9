import Verif.Model.VtxWriter
/-! Specification of the VTX writer. -/
namespace Verif.Spec.VtxWriter
open Verif.XdmfText (Text)
open Verif.VtxWriter

/-- No two components of functions have the same name. -/
def Distinct (u : List Fn) : Prop :=
  ∀ (i j : Nat) (f g : Fn) (p q : Nat) (n : Text), u[i]? = some f → u[j]? = some g → (varNames f)[p]? = some n → (varNames g)[q]? = some n → i = j ∧ p = q

/-- No component has one of the names that the writer needs itself. -/
def Free (u : List Fn) : Prop := ∀ f ∈ u, ∀ n ∈ varNames f, n ≠ "step".toList ∧ n ≠ "geometry".toList

/-- The right nodes: the dofs of a function that is not constant on cells, if there is one, else those of the mesh. -/
def RightNodes {T G D : Type} (u : List Fn) (g : G) (v : Var T G D) : Prop :=
  (∃ f ∈ u, f.cell = false ∧ v = .dofNodes f g) ∨ ((∀ f ∈ u, f.cell = true) ∧ v = .meshNodes g)

/-- What a step has to show: its time, the right nodes with a geometry, and the values of all components. -/
def Shows {T G D : Type} (u : List Fn) (g : G) (c : Call T G D) (r : Option (Var T G D) × Option (Var T G D) × List (List (Option (Var T G D)))) : Prop :=
  r.1 = some (.time c.time) ∧ (∃ v, r.2.1 = some v ∧ RightNodes u g v)
  ∧ r.2.2 = u.zipIdx.map (fun x => (varNames x.1).zipIdx.map (fun y => some (.values (c.val x.2 y.2))))

/-- The geometry that belongs to a step: the current one if the mesh is updated, else that of the first step. -/
def AllShow {T G D : Type} (u : List Fn) (geom : Call T G D → G) :
    List (Call T G D) → List (Option (Var T G D) × Option (Var T G D) × List (List (Option (Var T G D)))) → Prop
  | [], [] => True
  | c :: cs, r :: rs => Shows u (geom c) c r ∧ AllShow u geom cs rs
  | _, _ => False

end Verif.Spec.VtxWriter
