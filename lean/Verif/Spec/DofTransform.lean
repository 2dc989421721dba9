import Mathlib.Algebra.BigOperators.Group.Finset.Basic
import Verif.Model.DofTransform
/-!
# What dof transformations should do

The transformation of an element is a matrix, built from the matrices of its Basix elements.  Only the structures `Base` and `TElem` are used from the model, not its functions.
-/
namespace Verif.Spec.DofTrans
open Verif.DofTrans (TType Base TElem)

variable {T : Type} [CommRing T]

mutual
/-- Number of dofs. -/
def numDofs : TElem T → Nat
  | .base b => b.dim
  | .blocked bs b => b.dim * bs
  | .mixed subs => numDofsL subs
def numDofsL : List (TElem T) → Nat
  | [] => 0
  | e :: es => numDofs e + numDofsL es
end

/-- The matrix of a Basix element; the identity if it needs no transformations (permutations are in the dofmap). -/
def baseMat (b : Base T) (t : TType) (i j : Nat) : T := if b.needs then b.mat t i j else if i = j then 1 else 0

mutual
/-- The matrix of an element: dof `i * bs + k` of a blocked element is dof `i` of its copy `k`; the dofs of a mixed element are those of its sub-elements, one after the other. -/
def elemMat (t : TType) (i j : Nat) : TElem T → T
  | .base b => baseMat b t i j
  | .blocked bs b => if i % bs = j % bs then baseMat b t (i / bs) (j / bs) else 0
  | .mixed subs => elemMatL t i j subs
def elemMatL (t : TType) (i j : Nat) : List (TElem T) → T
  | [] => 0
  | e :: es =>
    if i < numDofs e then if j < numDofs e then elemMat t i j e else 0
    else if j < numDofs e then 0 else elemMatL t (i - numDofs e) (j - numDofs e) es
end

/-- The matrix for the basis functions that are tabulated for an element: for a blocked element, those of its Basix element. -/
def basisMat (t : TType) (i j : Nat) : TElem T → T
  | .base b => baseMat b t i j
  | .blocked _ b => baseMat b t i j
  | .mixed subs => elemMatL t i j subs

/-- `v` is `u`, of shape `(dim, n)`, multiplied by `M` from the left. -/
def LeftMul (dim n : Nat) (M : Nat → Nat → T) (u v : List T) : Prop :=
  v.length = u.length ∧ ∀ i < dim, ∀ k < n, v.getD (i * n + k) 0 = ∑ j ∈ Finset.range dim, M i j * u.getD (j * n + k) 0

/-- `v` is `u`, of shape `(n, stride)`, with its columns from `off` to `off + dim` multiplied by `M` from the right; other columns as before. -/
def RightMul (dim n stride off : Nat) (M : Nat → Nat → T) (u v : List T) : Prop :=
  v.length = u.length ∧ ∀ r < n, ∀ c < stride, v.getD (r * stride + c) 0 =
    if off ≤ c ∧ c < off + dim then ∑ j ∈ Finset.range dim, u.getD (r * stride + (off + j)) 0 * M j (c - off) else u.getD (r * stride + c) 0

end Verif.Spec.DofTrans
