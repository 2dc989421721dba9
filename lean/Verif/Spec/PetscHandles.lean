import Verif.Model.PetscHandles
/-! Specification of the ownership of PETSc objects. -/
namespace Verif.Spec.PetscHandles
open Verif.PetscHandles

/-- A C++ object that lives has a pointer to this PETSc object. -/
def Points (s : PState) (h : Nat) : Prop := ∃ o ∈ s.objs, o.alive = true ∧ some h ∈ o.slots

/-- PETSc objects exist as long as they are needed, and no longer: whoever has a pointer or a reference can use the object; an object that
nobody has is gone; and when no C++ object lives, the references are those of the program. -/
structure Owned (s : PState) : Prop where
  held : ∀ h, Points s h → 0 < s.refs h
  kept : ∀ h, 0 < s.own h → 0 < s.refs h
  gone : ∀ h, s.own h = 0 → ¬ Points s h → s.refs h = 0
  last : (∀ o ∈ s.objs, o.alive = false) → ∀ h, s.refs h = s.own h

/-- A program without Newton solvers. -/
def Wrappers : Op → Prop
  | .newton | .set .. | .solve _ | .newtonMove _ | .newtonAssign .. => False
  | _ => True

/-- A statement that neither moves a Newton solver nor sets a pointer of it for the second time. -/
def Careful (s : PState) : Op → Prop
  | .newtonMove _ | .newtonAssign .. => False
  | .set i k _ => ∀ o, s.objs[i]? = some o → o.slots[k]? = some none
  | _ => True

/-- All statements of the program are careful. -/
def CarefulRun (s : PState) : List Op → Prop
  | [] => True
  | op :: l => Careful s op ∧ ∀ s', step s op = .ok s' → CarefulRun s' l

end Verif.Spec.PetscHandles
