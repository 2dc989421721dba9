import Verif.Model.Interpolate
/-!
# Dof transformations of elements

`FiniteElement::dof_transformation_fn` and `dof_transformation_right_fn` (`cpp/dolfinx/fem/FiniteElement.h` L435-515, L540-625), `needs_dof_transformations` as the constructors
set it (`cpp/dolfinx/fem/FiniteElement.cpp` L108-262), and the transformation of tabulated basis functions in `Function::eval` (`cpp/dolfinx/fem/Function.h` L661-684),
`interpolate_nonmatching_maps` (`cpp/dolfinx/fem/interpolate.h` L509-510, L637-643) and `interpolation_matrix` (`cpp/dolfinx/fem/discreteoperators.h` L403-406, L560-566).

Simplifications: exact arithmetic in a ring; the matrix that Basix has for a cell is any matrix; `none` is an access outside of a span.  Basix's routines from the left transform data of shape
`(dim, n)` by columns; those from the right are any function of the data and the number of rows.
-/
namespace Verif.DofTrans
open Verif.Interp (sumTo)

variable {T : Type} [CommRing T]

/-- `doftransform`, FiniteElement.h L25-31. -/
inductive TType where
  | standard
  | transpose
  | inverse
  | inverseTranspose
deriving DecidableEq

/-- A Basix (or quadrature) element on one cell: number of dofs, whether transformations are neither the identity nor permutations, the matrices, and the routines `..._apply_right`. -/
structure Base (T : Type) where
  dim : Nat
  needs : Bool
  mat : TType → Nat → Nat → T
  right : TType → List T → Nat → Option (List T)

/-- A `FiniteElement`: of a Basix element, blocked (`bs` copies of a Basix element), or mixed. -/
inductive TElem (T : Type) where
  | base (b : Base T)
  | blocked (bs : Nat) (b : Base T)
  | mixed (subs : List (TElem T))

mutual
/-- `space_dimension`, FiniteElement.cpp L117, L191-229. -/
def spaceDim : TElem T → Nat
  | .base b => b.dim
  | .blocked bs b => bs * b.dim
  | .mixed subs => spaceDims subs
/-- The sum `dof_offset` in FiniteElement.cpp L191-229. -/
def spaceDims : List (TElem T) → Nat
  | [] => 0
  | e :: es => spaceDim e + spaceDims es
end

mutual
/-- `needs_dof_transformations`, FiniteElement.cpp L125-127, L198-199, L240. -/
def needsT : TElem T → Bool
  | .base b => b.needs
  | .blocked _ b => b.needs
  | .mixed subs => needsAny subs
/-- The loop in FiniteElement.cpp L192-199. -/
def needsAny : List (TElem T) → Bool
  | [] => false
  | e :: es => needsT e || needsAny es
end

/-- Basix's `T_apply`, `Tt_apply`, `Tinv_apply`, `Tt_inv_apply`: FiniteElement.h L490-510. -/
def applyLeft (dim : Nat) (M : Nat → Nat → T) (data : List T) (n : Nat) : Option (List T) :=
  if dim * n ≤ data.length then
    some (data.zipIdx.map fun x => if x.2 < dim * n then sumTo dim fun j => M (x.2 / n) j * data.getD (j * n + x.2 % n) 0 else x.1)
  else none

/-- The function of a Basix element with its own test of `needs_dof_transformations`, FiniteElement.h L437-445, L490-514. -/
def leftBase (b : Base T) (t : TType) (data : List T) (n : Nat) : Option (List T) :=
  if !b.needs then some data else applyLeft b.dim (b.mat t) data n

mutual
/-- `dof_transformation_fn`, FiniteElement.h L435-515: the function for a transformation `t`, applied to `data` with block size `n`. -/
def leftFn (t : TType) (scalar : Bool) (data : List T) (n : Nat) : TElem T → Option (List T)
  | .base b => leftBase b t data n
  | .blocked bs b => if !b.needs then some data else if !scalar then leftBase b t data (bs * n) else applyLeft b.dim (b.mat t) data n
  | .mixed subs => if !needsAny subs then some data else leftSubs t data n subs
/-- The loop over the sub-elements, FiniteElement.h L462-471.  `data` begins at the offset. -/
def leftSubs (t : TType) (data : List T) (n : Nat) : List (TElem T) → Option (List T)
  | [] => some data
  | e :: es =>
    if spaceDim e * n ≤ data.length then
      (leftFn t false (data.take (spaceDim e * n)) n e).bind fun d => (leftSubs t (data.drop (spaceDim e * n)) n es).map (d ++ ·)
    else none
end

/-- The rows of a blocked element, FiniteElement.h L586-596. -/
def rightRows (bs : Nat) (b : Base T) (t : TType) (dofCount : Nat) : Nat → List T → Option (List T)
  | 0, data => some data
  | r + 1, data =>
    if dofCount ≤ data.length then
      (leftBase b t (data.take dofCount) bs).bind fun d => (rightRows bs b t dofCount r (data.drop dofCount)).map (d ++ ·)
    else none

mutual
/-- `dof_transformation_right_fn`, FiniteElement.h L540-625. -/
def rightFn (t : TType) (data : List T) (n : Nat) : TElem T → Option (List T)
  | .base b => if !b.needs then some data else b.right t data n
  | .blocked bs b => if !b.needs then some data else if n = 0 then none else rightRows bs b t (data.length / n) n data
  | .mixed subs => if !needsAny subs then some data else rightSubs t data n subs
/-- The loop over the sub-elements, FiniteElement.h L568-574.  `data` begins at the offset. -/
def rightSubs (t : TType) (data : List T) (n : Nat) : List (TElem T) → Option (List T)
  | [] => some data
  | e :: es =>
    (rightFn t data n e).bind fun d =>
      if spaceDim e ≤ d.length then (rightSubs t (d.drop (spaceDim e)) n es).map (d.take (spaceDim e) ++ ·) else none
end

/-- Block size and dimension of the scalar element as `eval` and others use it, Function.h L507: `space_dimension / block_size`. -/
def scalarDim : TElem T → Nat
  | .base b => b.dim
  | .blocked _ b => b.dim
  | .mixed subs => spaceDims subs

/-- Transformation of the basis functions at a point, Function.h L661-684, interpolate.h L637-643 and discreteoperators.h L560-566: of the `dim * rvs` values of the scalar element, by the
function for the whole element. -/
def transformBasis (e : TElem T) (vals : List T) (rvs : Nat) : Option (List T) :=
  if vals.length = scalarDim e * rvs then leftFn .standard false vals rvs e else none

end Verif.DofTrans
