import Verif.Model.IntegrationDomains
/-!
# Forms with integrals and their value

The integrals attached by `fem::create_form_factory` (`cpp/dolfinx/fem/utils.h` L519-809) from the domains of `get_integration_domains`
(`python/dolfinx/fem/forms.py` L144-219, L466-483), lookup in `Form` (`cpp/dolfinx/fem/Form.h` L379-466, L494-501), and `assemble_scalar`
(`cpp/dolfinx/fem/assemble_scalar_impl.h` L24-270), on one process and for one cell type.

Simplifications: the kernel, with constants, coefficients and geometry, is a function from a row of entity data to the value it adds;
values are exact; entities on other meshes (`entity_maps`), coefficients and permutations are left out.
-/
namespace Verif.Integration
open Verif.Std

/-- One integral of the compiled form: `form_integral_ids` and `form_integrals`. -/
structure Integral (κ : Type) where
  id : Int
  kernel : κ

/-- `integral_data`, `Form.h` L38-100. -/
structure Data (κ : Type) where
  kernel : κ
  entities : List (List Nat)

/-- Subdomain data in Python: none, tags, or a list with ids and entities. -/
inductive Sub where
  | none
  | tags (find : Int → List Nat)
  | list (l : List (Int × List (List Nat)))

/-- `get_integration_domains`, `forms.py` L144-219. -/
def integrationDomains (k : Kind) (n : Nat) (e2c c2e : List (List Nat)) (inter : List Nat) (ids : List Int) (sub : Sub) :
    Except Err (List (Int × List (List Nat))) :=
  match sub with
  | .none => .ok []
  | .tags find => ids.mapM fun id => do
    let rows ← tagged k n e2c c2e inter (find id)
    .ok (id, rows)
  | .list l => .ok (sort (fun a b => decide (a.1 ≤ b.1)) l)

/-- The pairs with `id`, `utils.h` L575-578. -/
def findId (l : List (Int × List (List Nat))) (id : Int) : Option (List (List Nat)) :=
  match l[lowerBound (fun p => decide (p.1 < id)) l]? with
  | some p => if p.1 = id then some p.2 else none
  | none => none

/-- Loop over the integrals of one kind, `utils.h` L546-600 (cells), L611-709 (interior facets), L754-806 (others). `i` is the position of the
first of them, `dflt` the vector `default_cells`, `default_facets_int` or `default_entities_ext`; the latter two are only appended to. -/
def attach (k : Kind) (all : Except Err (List (List Nat))) (subs : List (Int × List (List Nat))) :
    Nat → List (List Nat) → List (Integral κ) → Except Err (List (Nat × Data κ))
  | _, _, [] => .ok []
  | i, dflt, I :: l =>
    if I.id = -1 then do
      let e ← all
      let dflt := if k = .cell then e else dflt ++ e
      let rest ← attach k all subs (i + 1) dflt l
      .ok ((i, ⟨I.kernel, dflt⟩) :: rest)
    else do
      let rest ← attach k all subs (i + 1) dflt l
      match findId subs I.id with
      | some e => .ok ((i, ⟨I.kernel, e⟩) :: rest)
      | none => .ok rest

/-- The integrals of one kind of a form. -/
def formIntegrals (k : Kind) (n : Nat) (e2c c2e : List (List Nat)) (inter : List Nat) (sub : Sub) (l : List (Integral κ)) :
    Except Err (List (Nat × Data κ)) := do
  let subs ← integrationDomains k n e2c c2e inter (l.map (·.id)) sub
  attach k (defaults k n e2c c2e inter) subs 0 [] l

/-- The loops of `assemble_cells`, `assemble_entities` and `assemble_interior_facets`, `assemble_scalar_impl.h` L40-58, L88-107, L136-159: each
call of the kernel adds to the value. -/
def assembleRows [Add V] [Zero V] (val : κ → List Nat → V) (d : Data κ) : V :=
  d.entities.foldl (fun v row => v + val d.kernel row) 0

/-- The loop over the integrals of a kind, `assemble_scalar_impl.h` L178-190: `num_integrals` many, looked up by position; `none` is the error
"Requested integral kernel not found". -/
def assembleKind [Add V] [Zero V] (val : κ → List Nat → V) (l : List (Nat × Data κ)) (v : V) : Option V :=
  (List.range l.length).foldlM (fun v i => (l.find? fun p => p.1 == i).map fun p => v + assembleRows val p.2) v

/-- The kinds in the order of `assemble_scalar`. -/
def kinds : List Kind := [.cell, .interiorFacet, .exteriorFacet, .vertex, .ridge]

/-- `assemble_scalar`, `assemble_scalar_impl.h` L162-267. -/
def assembleScalar [Add V] [Zero V] (val : κ → List Nat → V) (form : Kind → List (Nat × Data κ)) : Option V :=
  kinds.foldlM (fun v k => assembleKind val (form k) v) 0

end Verif.Integration
