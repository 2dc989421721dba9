import Verif.Model.Coefficients
import Verif.Model.DofTransform
/-!
# Evaluation of expressions on cells and facets

`tabulate_expression` (`cpp/dolfinx/fem/assemble_expression_impl.h` L64-128, L159-206, `cpp/dolfinx/fem/assembler.h` L63-85, L102-141), its wrapper
(`python/dolfinx/wrappers/dolfinx_wrappers/assemble.h` L212-312), the class `Expression` (`cpp/dolfinx/fem/Expression.h` L62-190), and `Expression.eval` in Python
(`python/dolfinx/fem/function.py` L238-312).

Simplifications: exact arithmetic; one cell type; the kernel is any function of the array that it adds to, the coefficients from the first value of the row on, constants, coordinates, and
the local number of the facet with its permutation (both missing on cells); an array is a list and `none`, or the error `access`, is an access outside of an array or an exception in packing
(see `Model/Coefficients`); shapes are lists of numbers; the element of the argument on a cell is given with its dof transformation (`Model/DofTransform`), so `cell_info` and the creation of
permutations are left out.
-/
namespace Verif.TabExpr
open Verif.Coefficients (Fn MeshId EMap Ents packExpression packConstants coefficientOffsets)
open Verif.DofTrans (TElem TType rightFn)

/-- The space of an argument: `num_dofs` of the layout of its dofmap, block size of the dofmap, `space_dimension` and `needs_dof_transformations` of its element, and the element on each cell. -/
structure Arg (T : Type) where
  layoutDofs : Nat
  bs : Nat
  spaceDim : Nat
  needs : Bool
  elem : Nat → TElem T

/-- `Expression`, Expression.h L62-190.  A coefficient may be a null pointer. -/
structure Expr (T U : Type) where
  coefficients : List (Option (Fn T))
  constants : List (List T)
  numPoints : Nat
  pointDim : Nat
  valueShape : List Nat
  kernel : List T → List T → List T → List U → Option (Nat × Nat) → Option (List T)
  maps : List EMap
  hash : Nat
  argument : Option (Arg T)

/-- A mesh: identity, hash of its coordinate element, geometry dofmap and coordinates (three for each node), facet permutations of each cell, and entities of cells. -/
structure Msh (U : Type) where
  id : MeshId
  hash : Nat
  xdofs : List (List Nat)
  x : List U
  perms : List (List Nat)
  c2e : Nat → List (List Nat)

variable {T U : Type}

/-- `std::copy_n` of `n` values. -/
def copyN {α : Type} (src : List α) (s n : Nat) (dst : List α) (d : Nat) : Option (List α) :=
  if s + n ≤ src.length ∧ d + n ≤ dst.length then some (dst.take d ++ (src.drop s).take n ++ dst.drop (d + n)) else none

/-- Coordinates of the nodes of a cell, assemble_expression_impl.h L92-97 and L109-114, in the buffer of L80. -/
def coordDofs [Zero U] (m : Msh U) (cell : Nat) : Option (List U) := do
  let ds ← m.xdofs[cell]?
  ds.zipIdx.foldlM (fun buf (p : Nat × Nat) => copyN m.x (3 * p.1) 3 buf (3 * p.2)) (List.replicate (3 * ds.length) 0)

/-- Rows of the entities: cell and local number of the facet, if any. -/
def rowsOf : Ents → List (Int × Option Int)
  | .cells l => l.map fun c => (c, none)
  | .pairs l => l.map fun p => (p.1, some p.2)

/-- Local number of the facet and its permutation, assemble_expression_impl.h L107-108. -/
def facetOf (m : Msh U) (cell : Nat) : Option Int → Option (Option (Nat × Nat))
  | none => some none
  | some lf =>
    if lf < 0 then none
    else if m.perms.isEmpty then some (some (lf.toNat, 0))
    else (m.perms[cell]?.bind fun ps => ps[lf.toNat]?).map fun q => some (lf.toNat, q)

/-- Body of the loop over entities, assemble_expression_impl.h L86-126.  `post` is `P0`. -/
def row [Zero T] [Zero U] (m : Msh U) (kernel : List T → List T → List T → List U → Option (Nat × Nat) → Option (List T)) (post : Nat → List T → Nat → Option (List T))
    (size0 nargs cstride : Nat) (coeffs constants : List T) (values : List T) (e : Nat) (ent : Int × Option Int) : Option (List T) :=
  if ent.1 < 0 then none
  else do
    let cell := ent.1.toNat
    let x ← coordDofs m cell
    let f ← facetOf m cell ent.2
    let a ← kernel (List.replicate (size0 * nargs) 0) (coeffs.drop (e * cstride)) constants x f
    let a ← post cell a size0
    copyN a 0 (size0 * nargs) values (e * (size0 * nargs))

/-- `impl::tabulate_expression`, assemble_expression_impl.h L64-128, with the choice of `P0` in L172-190. -/
def tabulate [CommRing T] [Zero U] (values : List T) (e : Expr T U) (cstride : Nat) (coeffs constants : List T) (m : Msh U) (ents : Ents) (element : Option (Arg T × Nat)) : Option (List T) :=
  let nargs := match element with
    | some p => p.2
    | none => 1
  let post := fun (cell : Nat) (a : List T) (n : Nat) => match element with
    | some p => if p.1.needs then rightFn .transpose a n (p.1.elem cell) else some a
    | none => some a
  (rowsOf ents).zipIdx.foldlM (fun v p => row m e.kernel post (e.numPoints * e.valueShape.foldl (· * ·) 1) nargs cstride coeffs constants v p.2 p.1) values

/-- Exceptions; `access` is an access out of range or an exception in packing. -/
inductive Err where
  | dimension
  | entities
  | shape
  | dtype
  | unset
  | mesh
  | access
deriving DecidableEq

/-- Argument and its number of dofs, assembler.h L115-121 and wrapper L271-282. -/
def element (e : Expr T U) : Option (Arg T × Nat) := e.argument.map fun V => (V, V.layoutDofs * V.bs)

/-- The check of the hash and the evaluation, assembler.h L63-85. -/
def tabulateChecked [CommRing T] [Zero U] (values : List T) (e : Expr T U) (cstride : Nat) (coeffs constants : List T) (m : Msh U) (ents : Ents) : Except Err (List T) :=
  if e.hash ≠ m.hash then .error .mesh
  else match tabulate values e cstride coeffs constants m ents (element e) with
    | some v => .ok v
    | none => .error .access

/-- Packed coefficients and their stride: `coefficient_offsets` (Expression.h L128-138) and wrapper L218-245 or assembler.h L123-135. -/
def packed [Zero T] (e : Expr T U) (m : Msh U) (ents : Ents) : Except Err (List T × Nat) :=
  match e.coefficients.mapM id with
  | none => .error .unset
  | some us =>
    let cstride := (coefficientOffsets us).getLastD 0
    match packExpression us m.id ents e.maps m.c2e (List.replicate (ents.cell.length * cstride) 0) with
    | some c => .ok (c, cstride)
    | none => .error .access

/-- `tabulate_expression` without packed data, assembler.h L102-141. -/
def tabulateCpp [CommRing T] [Zero U] (values : List T) (e : Expr T U) (m : Msh U) (ents : Ents) : Except Err (List T) :=
  if e.hash ≠ m.hash then .error .mesh
  else (packed e m ents).bind fun c =>
    match packConstants e.constants with
    | some k => tabulateChecked values e c.2 c.1 k m ents
    | none => .error .access

/-- Shape of the result, function.py L277-285. -/
def valuesShape (e : Expr T U) (ents : Ents) : List Nat :=
  match e.argument with
  | none => [ents.cell.length, e.numPoints] ++ e.valueShape
  | some V => [ents.cell.length, e.numPoints] ++ e.valueShape ++ [V.spaceDim]

/-- An array that a caller passes: shape, whether it has the type of the expression, data. -/
structure Arr (T : Type) where
  shape : List Nat
  typeOk : Bool
  data : List T

/-- `values.ndim` of entities. -/
def isPairs : Ents → Bool
  | .pairs _ => true
  | .cells _ => false

/-- Allocation or checks of the array, function.py L287-294. -/
def storage [Zero T] (shape : List Nat) : Option (Arr T) → Except Err (List T)
  | none => .ok (List.replicate (shape.foldl (· * ·) 1) 0)
  | some a => if a.shape ≠ shape then .error .shape else if a.typeOk = false then .error .dtype else .ok a.data

/-- `Expression.eval`, function.py L238-312: shape and data of the result. -/
def eval [CommRing T] [Zero U] (e : Expr T U) (m : Msh U) (ents : Ents) (given : Option (Arr T)) : Except Err (List Nat × List T) :=
  if m.id.dim ≠ e.pointDim ∧ (e.pointDim : Int) ≠ m.id.dim - 1 then .error .dimension
  else if m.id.dim ≠ e.pointDim ∧ isPairs ents = false then .error .entities
  else
    (storage (valuesShape e ents) given).bind fun values =>
      match packConstants e.constants with
      | none => .error .access
      | some k =>
        (packed e m ents).bind fun c =>
          (tabulateChecked values e c.2 c.1 k m ents).map fun v => (valuesShape e ents, v)

end Verif.TabExpr
