import Verif.Model.FormIntegrals
/-!
# Model: forms made from compiled forms and data

`create_form` of `python/dolfinx/fem/forms.py` L689-768, with `fem::create_form` (`cpp/dolfinx/fem/utils.h` L842-882) and the checks of
`create_form_factory` (L426-482); the integrals are those of `Model/FormIntegrals`.

Simplifications: the names `w0, w1, …` and `c0, c1, …` are the numbers in them; spaces are given by the hash of their element; one cell type;
the check of the geometry's hash, `entity_maps` and the mesh are left out.
-/
namespace Verif.CreateForm
open Verif.Std Verif.Integration

variable {κ C K F G : Type}

/-- `CompiledForm` with its `ufcx_form`: coefficients and constants of the UFL form, the positions of those that are left, names, shapes of
constants, hashes of elements (zero: any) and integrals. -/
structure Compiled (κ C K : Type) where
  coefficients : List C
  constants : List K
  positions : List Nat
  numConstants : Nat
  coefficientNames : List Nat
  constantNames : List Nat
  constantShapes : List (List Nat)
  hashes : List Nat
  integrals : Kind → List (Integral κ)

/-- The form made. -/
structure Made (κ F G : Type) where
  coefficients : List F
  constants : List G
  integrals : Kind → List (Nat × Data κ)

/-- What goes wrong. -/
inductive Fault where
  | coefficient | constant | numConstants | shape | spaces | integrals
deriving DecidableEq

/-- Pairs of ids and entities. -/
abbrev Pairs := List (Int × List (List Nat))

/-- `idomain.sort(key=lambda x: x[0])` for each list of the dictionary, forms.py L725-727. The copy of the dictionary has the same lists. -/
def sortLists (subs : List (Kind × Nat)) (heap : Nat → Pairs) : Nat → Pairs :=
  subs.foldl (fun h p => fun r => if r = p.2 then sort (fun a b => decide (a.1 ≤ b.1)) (h r) else h r) heap

/-- An entry of the dictionary of coefficients, forms.py L734-739. -/
def namedCoefficient (cf : Compiled κ C K) (cm : C → Option F) (p : Nat × Nat) : Except Fault (Nat × F) :=
  match cf.coefficients[p.1]? with
  | none => .error .coefficient
  | some c =>
    match cm c with
    | none => .error .coefficient
    | some f => .ok (p.2, f)

/-- The dictionary of coefficients, forms.py L729-739. -/
def namedCoefficients (cf : Compiled κ C K) (cm : C → Option F) : Except Fault (List (Nat × F)) :=
  cf.positions.zipIdx.mapM (namedCoefficient cf cm)

/-- An entry of the dictionary of constants, forms.py L752-756. -/
def namedConstant (km : K → Option G) (p : K × Nat) : Except Fault (Nat × G) :=
  match km p.1 with
  | none => .error .constant
  | some g => .ok (p.2, g)

/-- The dictionary of constants, forms.py L741-756. -/
def namedConstants (cf : Compiled κ C K) (km : K → Option G) : Except Fault (List (Nat × G)) :=
  if cf.numConstants ≠ cf.constants.length then .error .numConstants
  else cf.constants.zipIdx.mapM (namedConstant km)

/-- Lookup of a name, utils.h L860-866, L873-877. -/
def lookupName (err : Fault) (d : List (Nat × F)) (n : Nat) : Except Fault F :=
  match d.find? fun p => p.1 == n with
  | none => .error err
  | some p => .ok p.2

/-- Coefficients or constants in the order of the names of the compiled form, utils.h L856-878. -/
def byName (err : Fault) (names : List Nat) (d : List (Nat × F)) : Except Fault (List F) := names.mapM (lookupName err d)

/-- Checks of `create_form_factory`, utils.h L426-482. -/
def checks (cf : Compiled κ C K) (shape : G → List Nat) (spaces : List Nat) (coefficients : List F) (constants : List G) : Option Fault :=
  if cf.hashes.length ≠ spaces.length then some .spaces
  else if cf.positions.length ≠ coefficients.length then some .coefficient
  else if cf.numConstants ≠ constants.length then some .numConstants
  else if constants.zipIdx.any (fun p => decide (cf.constantShapes[p.2]? ≠ some (shape p.1))) then some .shape
  else if (cf.hashes.zip spaces).any (fun p => decide (p.1 ≠ 0 ∧ p.1 ≠ p.2)) then some .spaces
  else none

/-- The list of a kind, `subdomains.find` in `create_form_factory`; a kind that is not in the dictionary has no pairs. -/
def pairsOf (subs : List (Kind × Nat)) (heap : Nat → Pairs) (k : Kind) : Pairs :=
  match subs.find? (fun p => p.1 == k) with
  | some p => heap p.2
  | none => []

/-- The integrals of a kind, `create_form_factory`. -/
def kindIntegrals (cf : Compiled κ C K) (subs : List (Kind × Nat)) (heap : Nat → Pairs)
    (dflt : Kind → Except Integration.Err (List (List Nat))) (k : Kind) : Except Integration.Err (List (Nat × Data κ)) :=
  attach k (dflt k) (pairsOf subs heap k) 0 [] (cf.integrals k)

/-- The value, if there is one. -/
def okD {ε α : Type} (d : α) : Except ε α → α
  | .ok a => a
  | .error _ => d

/-- `create_form`: the lists afterwards and the form or the error. `subs` is the dictionary `subdomains` with references to lists. -/
def createForm (cf : Compiled κ C K) (spaces : List Nat) (shape : G → List Nat) (subs : List (Kind × Nat)) (cm : C → Option F)
    (km : K → Option G) (dflt : Kind → Except Integration.Err (List (List Nat))) (heap : Nat → Pairs) :
    (Nat → Pairs) × Except Fault (Made κ F G) :=
  let heap := sortLists subs heap
  (heap, do
    let wd ← namedCoefficients cf cm
    let cd ← namedConstants cf km
    let w ← byName .coefficient cf.coefficientNames wd
    let c ← byName .constant cf.constantNames cd
    match checks cf shape spaces w c with
    | some e => .error e
    | none =>
      if kinds.all (fun k => (kindIntegrals cf subs heap dflt k).toOption.isSome) then
        .ok ⟨w, c, fun k => okD [] (kindIntegrals cf subs heap dflt k)⟩
      else .error .integrals)

end Verif.CreateForm
