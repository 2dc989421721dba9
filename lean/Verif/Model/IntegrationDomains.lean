import Verif.Model.StdAlg
/-!
# Entities to integrate over

`mesh::exterior_facet_indices` (`cpp/dolfinx/mesh/utils.cpp` L61-89), `fem::compute_integration_domains` (`cpp/dolfinx/fem/utils.cpp` L153-275), the default
entities of `fem::create_form_factory` (`cpp/dolfinx/fem/utils.h` L553-560, L660-690, L713-800) and `get_integration_domains`
(`python/dolfinx/fem/forms.py` L144-219) on one process.

Simplifications: one list for each entity instead of a flat array; connectivities are `none` if they were not computed.
-/
namespace Verif.Integration
open Verif.Std

/-- `fem::IntegralType`. -/
inductive Kind where
  | cell | exteriorFacet | interiorFacet | vertex | ridge
deriving DecidableEq, Repr

/-- Errors: connectivities are missing, or an interior facet has no second cell on this process. -/
inductive Err where
  | noEntityToCell | noCellToEntity | interprocess
deriving DecidableEq, Repr

/-- Loop of `std::ranges::set_difference` with a bound for the number of passes. -/
def setDiffAux : Nat → List Nat → List Nat → List Nat
  | 0, l, _ => l
  | n + 1, l, m =>
    match l.head?, m.head? with
    | none, _ => []
    | some _, none => l
    | some a, some b =>
      if a < b then a :: setDiffAux n l.tail m
      else if b < a then setDiffAux n l m.tail
      else setDiffAux n l.tail m.tail

/-- `std::ranges::set_difference`. -/
def setDifference (l m : List Nat) : List Nat := setDiffAux (l.length + m.length) l m

/-- `exterior_facet_indices`, `mesh/utils.cpp` L61-89; `n` is the number of owned facets, `inter` the (sorted) interprocess facets. -/
def exteriorFacets (n : Nat) (e2c : Option (List (List Nat))) (inter : List Nat) : Except Err (List Nat) :=
  match e2c with
  | none => .error .noEntityToCell
  | some e2c => .ok (setDifference ((List.range n).filter fun f => (e2c.getD f []).length = 1) inter)

/-- `get_cell_entity_pairs<1>`, `fem/utils.h` L106-125: the first cell and the local index of the entity. -/
def firstPair (c2e : List (List Nat)) (e : Nat) (cells : List Nat) : List Nat :=
  [cells.getD 0 0, (c2e.getD (cells.getD 0 0) []).idxOf e]

/-- `get_cell_facet_pairs<2>`, `fem/utils.h` L71-95. -/
def bothPairs (c2e : List (List Nat)) (f : Nat) (cells : List Nat) : List Nat :=
  (List.range 2).flatMap fun i => [cells.getD i 0, (c2e.getD (cells.getD i 0) []).idxOf f]

/-- Loop over facets, `fem/utils.cpp` L237-253 and `fem/utils.h` L668-689. -/
def interiorRows (e2c c2e : List (List Nat)) (inter : List Nat) (fs : List Nat) : Except Err (List (List Nat)) :=
  fs.foldlM (fun rows f =>
    if (e2c.getD f []).length = 2 then .ok (rows ++ [bothPairs c2e f (e2c.getD f [])])
    else if inter.contains f then .error .interprocess
    else .ok rows) []

/-- The lookup of both connectivities, `fem/utils.cpp` L191-213. -/
def connectivities (e2c c2e : Option (List (List Nat))) : Except Err (List (List Nat) × List (List Nat)) :=
  match e2c with
  | none => .error .noEntityToCell
  | some a => match c2e with
    | none => .error .noCellToEntity
    | some b => .ok (a, b)

/-- `compute_integration_domains`, `fem/utils.cpp` L153-275; `n` is the number of owned entities (cells for cell integrals). -/
def domains (k : Kind) (n : Nat) (e2c c2e : Option (List (List Nat))) (inter : List Nat) (entities : List Nat) : Except Err (List (List Nat)) :=
  let entities := entities.take (lowerBound (fun e => decide (e < n)) entities)
  match k with
  | .cell => .ok (entities.map fun c => [c])
  | .interiorFacet => do
    let p ← connectivities e2c c2e
    interiorRows p.1 p.2 inter entities
  | _ => do
    let p ← connectivities e2c c2e
    .ok (entities.map fun e => firstPair p.2 e (p.1.getD e []))

/-- Entities for integrals without subdomain, `fem/utils.h` L553-560 (cells), L660-690 (interior facets), L713-800 (others); the connectivities
are computed before, L480-508. -/
def defaults (k : Kind) (n : Nat) (e2c c2e : List (List Nat)) (inter : List Nat) : Except Err (List (List Nat)) :=
  match k with
  | .cell => .ok ((List.range n).map fun c => [c])
  | .interiorFacet => interiorRows e2c c2e inter (List.range n)
  | .exteriorFacet => do
    let fs ← exteriorFacets n (some e2c) inter
    .ok (fs.map fun e => firstPair c2e e (e2c.getD e []))
  | _ => .ok ((List.range n).map fun e => firstPair c2e e (e2c.getD e []))

/-- `np.intersect1d`: sorted values without repetition that are in both arrays. -/
def intersect1d (a b : List Nat) : List Nat := unique (sortNat (a.filter fun x => b.contains x))

/-- `get_integration_domains` for one id with entities `found` (`MeshTags.find`), `forms.py` L195-216. -/
def tagged (k : Kind) (n : Nat) (e2c c2e : List (List Nat)) (inter : List Nat) (found : List Nat) : Except Err (List (List Nat)) :=
  match k with
  | .exteriorFacet => do
    let ext ← exteriorFacets n (some e2c) inter
    domains k n (some e2c) (some c2e) inter (intersect1d found ext)
  | _ => domains k n (some e2c) (some c2e) inter found

end Verif.Integration
