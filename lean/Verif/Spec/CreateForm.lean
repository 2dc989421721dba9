import Verif.Model.CreateForm
import Mathlib.Data.List.Forall2
/-! Specification of `create_form`: which data the form has. -/
namespace Verif.Spec.CreateForm
open Verif.CreateForm Verif.Integration

variable {κ C K F G : Type}

/-- What FFCx gives: positions of coefficients of the form, names `w0, w1, …` and `c0, c1, …`, all constants, and no integral twice. -/
structure IsCompiled (cf : Compiled κ C K) : Prop where
  positions : ∀ p ∈ cf.positions, p < cf.coefficients.length
  coefficientNames : cf.coefficientNames = List.range cf.positions.length
  constantNames : cf.constantNames = List.range cf.constants.length
  numConstants : cf.numConstants = cf.constants.length
  ids : ∀ k, ((cf.integrals k).map (·.id)).Nodup

/-- The list given for a kind. -/
def given (subs : List (Kind × Nat)) (heap : Nat → Pairs) (k : Kind) (l : Pairs) : Prop :=
  ∃ r, (k, r) ∈ subs ∧ heap r = l

/-- Data that fit the form: each coefficient that is left and each constant has a value of the right shape, the spaces have the elements of the
form, and for each kind of integral there is at most one list, in it at most one pair for an id, and one for each id of an integral. -/
structure Fitting (cf : Compiled κ C K) (spaces : List Nat) (shape : G → List Nat) (subs : List (Kind × Nat)) (cm : C → Option F)
    (km : K → Option G) (dflt : Kind → Except Integration.Err (List (List Nat))) (heap : Nat → Pairs) : Prop where
  coefficients : ∀ p ∈ cf.positions, ∀ c, cf.coefficients[p]? = some c → (cm c).isSome
  constants : ∀ (i : Nat) (c : K), cf.constants[i]? = some c → ∃ g, km c = some g ∧ cf.constantShapes[i]? = some (shape g)
  spaces : List.Forall₂ (fun h s => h = 0 ∨ h = s) cf.hashes spaces
  kinds : (subs.map (·.1)).Nodup
  once : ∀ k l, given subs heap k l → (l.map (·.1)).Nodup
  listed : ∀ k, ∀ I ∈ cf.integrals k, I.id ≠ -1 → ∃ l e, given subs heap k l ∧ (I.id, e) ∈ l
  all : ∀ k, ∀ I ∈ cf.integrals k, I.id = -1 → ∃ e, dflt k = .ok e

/-- The form with these data: coefficient `c` is the function given for the coefficient at its position in the UFL form, constants are those given,
and integral `i` of a kind has its own kernel and the entities given for its id (all, for integrals without id). -/
structure HasData (cf : Compiled κ C K) (subs : List (Kind × Nat)) (cm : C → Option F) (km : K → Option G)
    (dflt : Kind → Except Integration.Err (List (List Nat))) (heap : Nat → Pairs) (f : Made κ F G) : Prop where
  coefficients : f.coefficients.map some = cf.positions.map fun p => (cf.coefficients[p]?).bind cm
  constants : f.constants.map some = cf.constants.map km
  integrals : ∀ k, List.Forall₂ (fun (I : Integral κ × Nat) (d : Nat × Data κ) => d.1 = I.2 ∧ d.2.kernel = I.1.kernel ∧
      (I.1.id = -1 → dflt k = .ok d.2.entities) ∧ (I.1.id ≠ -1 → ∃ l, given subs heap k l ∧ (I.1.id, d.2.entities) ∈ l))
    (cf.integrals k).zipIdx (f.integrals k)

end Verif.Spec.CreateForm
