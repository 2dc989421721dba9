import Mathlib.Algebra.BigOperators.Group.Finset.Basic
import Verif.Model.Interpolate
/-!
# What interpolation and evaluation should do

Local dof `j` of a cell is number `k` of the block of dof `i` of the scalar element, `j = bs * i + k`.  Only the structures `Elem` and `DMap` are used from the model.
-/
namespace Verif.Spec.Interp
open Verif.Interp (Elem DMap)

variable {T : Type} [CommRing T]

/-- The place of local dof `j` of cell `c` in the vector. -/
def flat (dm : DMap) (c j : Nat) : Option Nat := (dm.dofs[c]?).bind fun ds => (ds[j / dm.bs]?).map fun d => dm.bs * d + j % dm.bs

/-- Cell `c` has `total` dofs, all different, in a vector of length `n`. -/
def DofsOk (dm : DMap) (total n c : Nat) : Prop :=
  0 < dm.bs ∧ ∃ ds, dm.dofs[c]? = some ds ∧ dm.bs * ds.length = total ∧ ds.Nodup ∧ ∀ d ∈ ds, dm.bs * d + dm.bs ≤ n

/-- `m` is the component of the value that block `k` has as its component `m'`: for a symmetric matrix, blocks are the entries of the lower triangle, row by row. -/
def IsComp (e : Elem T) (k m' m : Nat) : Prop :=
  if e.symmetric then ∃ r s ms, s ≤ r ∧ r < ms ∧ e.vs = ms * ms ∧ 2 * k = r * (r + 1) + 2 * s ∧ m' = 0 ∧ m = r * ms + s
  else m = m' * e.bs + k

/-- Sizes of an element that fit together, as Basix and the constructors of `FiniteElement` have it, and data of an identity map and of an element of point evaluations. -/
structure ElemOk (e : Elem T) : Prop where
  bs : 0 < e.bs
  rvs : 0 < e.rvs
  block : e.bs = 1 ∨ e.rvs = 1
  vs : e.symmetric = false → e.vs = e.bs * e.rvs
  sym : e.symmetric = true → e.rvs = 1 ∧ ∃ ms, e.vs = ms * ms ∧ 2 * e.bs = ms * (ms + 1)
  shape : e.vs = e.valueShape.prod
  cols : e.piCols = e.npts * e.rvs
  notMixed : e.numSub = 0 ∨ e.numSub = e.bs
  ident : e.mapType = 0 → ∀ c p v m, e.pull c p v m = v m
  pullLocal : ∀ c p v w, (∀ m < e.rvs, v m = w m) → ∀ m < e.rvs, e.pull c p v m = e.pull c p w m
  pullBlock : e.bs ≠ 1 → ∀ c p v m, e.pull c p v m = e.pull c p (fun _ => v m) 0
  point : e.interpIdent = true → e.npts = e.dim ∧ e.rvs = 1 ∧ ∀ i < e.dim, ∀ j < e.dim, e.Pi i j = if i = j then 1 else 0
  transLocal : ∀ c v w, (∀ i < e.dim, v i = w i) → ∀ i < e.dim, e.invTransT c v i = e.invTransT c w i

/-- Dof `i` of the scalar (or vector-valued) element for values `w p m` at the interpolation points: pulled back, interpolated on the reference cell, transformed. -/
def dofOf (e : Elem T) (cg cd : Nat) (w : Nat → Nat → T) (i : Nat) : T :=
  e.invTransT cd (fun i' => ∑ m ∈ Finset.range e.rvs, ∑ p ∈ Finset.range e.npts, e.Pi i' (m * e.npts + p) * e.pull cg p (w p) m) i

/-- Component `c = j * bs + k` of an expansion: component `j` of basis functions `phi`, with the coefficients of block `k`. -/
def expand (e : Elem T) (co : Nat → T) (phi : Nat → Nat → T) (c : Nat) : T := ∑ i ∈ Finset.range e.dim, co (e.bs * i + c % e.bs) * phi i (c / e.bs)

/-- Basix's operator between the elements: dof `i` of `e1` of the function `j` of `e0`, for blocks of `b1` and `b0`, where `B p j` are the values of function `j` of the Basix
element of `e0` at interpolation point `p` of `e1`. -/
def basixOp (e1 : Elem T) (B : Nat → Nat → Nat → T) (b1 b0 i j : Nat) : T :=
  ∑ m ∈ Finset.range e1.rvs, ∑ p ∈ Finset.range e1.npts, e1.Pi (i / b1) (m * e1.npts + p) *
    if (m * b1 + i % b1) % b0 = j % b0 then B p (j / b0) ((m * b1 + i % b1) / b0) else 0

/-- Functions of `e0` on cell `c`, with physical basis functions `phi`, pulled back as functions of `e1` are the functions of the reference element of `e0` with transformed
coefficients. -/
def PullsBack (e1 e0 : Elem T) (c : Nat) (phi B : Nat → Nat → Nat → T) : Prop :=
  ∀ p < e1.npts, ∀ co : Nat → T, ∀ k < e1.bs, ∀ m < e1.rvs, e1.pull c p (fun m' => expand e0 co (phi p) (m' * e1.bs + k)) m =
    expand e0 (fun q => e0.transT c (fun i => co (e0.bs * i + q % e0.bs)) (q / e0.bs)) (B p) (m * e1.bs + k)

/-- `y` is local dof `j` on a cell (`cg` in the mesh for the geometry, `cd` for the dofs), for a function with value `val p m` (component `m`) at interpolation point `p`. -/
def IsDof (e : Elem T) (cg cd : Nat) (val : Nat → Nat → T → Prop) (j : Nat) (y : T) : Prop :=
  ∃ w, (∀ p < e.npts, ∀ m' < e.rvs, ∃ m, IsComp e (j % e.bs) m' m ∧ val p m (w p m')) ∧ y = dofOf e cg cd w (j / e.bs)

/-- `u'` is `u` after the dofs of cells were set: dofs of the cells have values of the last cell that has them, other dofs are as before. -/
def Sets (dm : DMap) {α : Type} (cells : List α) (cell : α → Nat) (u u' : List T) (val : Nat → α → Nat → T → Prop) : Prop :=
  u'.length = u.length ∧
  (∀ g, (∀ a ∈ cells, ∀ j, flat dm (cell a) j ≠ some g) → u'[g]? = u[g]?) ∧
  ∀ (n : Nat) (a : α) (j g : Nat), cells[n]? = some a → flat dm (cell a) j = some g →
    (∀ (n' : Nat) (a' : α) (j' : Nat), n < n' → cells[n']? = some a' → flat dm (cell a') j' ≠ some g) → ∃ y, val n a j y ∧ u'[g]? = some y

/-- Value of component `m` at a point of a cell, for coefficients `x` and basis functions with values `phi i j`; both triangles of a symmetric matrix have the same dofs. -/
def IsValue (e : Elem T) (dm : DMap) (x : List T) (c : Nat) (phi : Nat → Nat → T) (m : Nat) (y : T) : Prop :=
  ∃ k < e.bs, ∃ j < e.rvs, (IsComp e k j m ∨ (e.symmetric ∧ ∃ r s ms, e.vs = ms * ms ∧ r < ms ∧ s < ms ∧ m = r * ms + s ∧ IsComp e k j (s * ms + r))) ∧
    ∃ co : Nat → T, (∀ i < e.dim, ∃ g, flat dm c (e.bs * i + k) = some g ∧ x[g]? = some (co i)) ∧ y = ∑ i ∈ Finset.range e.dim, co i * phi i j

end Verif.Spec.Interp
