import Verif.Model.Interpolate
/-!
# Interpolation matrix, discrete gradient and discrete curl

`discrete_curl`, `discrete_gradient` and `interpolation_matrix` (`cpp/dolfinx/fem/discreteoperators.h` L86-246, L273-353, L370-675) and the functions of the Python layer
(`python/dolfinx/wrappers/dolfinx_wrappers/assemble.h` L87-171).

Simplifications: one cell type, exact arithmetic (tabulated values below 1e-14 are not set to zero), working arrays are functions of their indices as in `Model/Interpolate`, the basis
functions `phi c p i j` of `V0` at interpolation point `p` of `V1` on cell `c` (tabulated, transformed, pushed forward) are given, derivatives `dphi d p i j` on the reference cell are given.
The matrix is a function of row and column; that it has places for all rows and columns of cells is `create_sparsity`.
-/
namespace Verif.DiscOp
open Verif.Interp

variable {T : Type} [CommRing T]

/-- Entries `(row, column, value)` of a block of values for dofs of a cell, as `mat_add` and `mat_set` go through them (MatrixCSR.h L118-174 and matrix_csr_impl.h). -/
def entries (bs1 bs0 : Nat) (rows cols : List Nat) (A : Nat → Nat → T) : List (Nat × Nat × T) :=
  rows.zipIdx.flatMap fun r => (List.range bs1).flatMap fun k => cols.zipIdx.flatMap fun c => (List.range bs0).map fun l =>
    (bs1 * r.1 + k, bs0 * c.1 + l, A (bs1 * r.2 + k) (bs0 * c.2 + l))

/-- `mat_add`. -/
def matAdd (M : Nat → Nat → T) (es : List (Nat × Nat × T)) : Nat → Nat → T :=
  es.foldl (fun M e => fun g h => if g = e.1 ∧ h = e.2.1 then M g h + e.2.2 else M g h) M

/-- `mat_set`. -/
def matSet (M : Nat → Nat → T) (es : List (Nat × Nat × T)) : Nat → Nat → T :=
  es.foldl (fun M e => fun g h => if g = e.1 ∧ h = e.2.1 then e.2.2 else M g h) M

/-- The block of a cell is inserted; its shape is checked by an assertion of the matrix. -/
def insertCell (ins : (Nat → Nat → T) → List (Nat × Nat × T) → Nat → Nat → T) (e1 e0 : Elem T) (dm1 dm0 : DMap) (c : Nat) (A : Nat → Nat → T) (M : Nat → Nat → T) :
    Option (Nat → Nat → T) :=
  (dm1.dofs[c]?).bind fun rows => (dm0.dofs[c]?).bind fun cols =>
    if dm1.bs * rows.length = e1.bs * e1.dim ∧ dm0.bs * cols.length = e0.bs * e0.dim then some (ins M (entries dm1.bs dm0.bs rows cols A)) else none

/-! ## Interpolation matrix -/

/-- Basis functions of the blocked element, discreteoperators.h L578-583: value `m` of function `q`; entries that are not written stay zero. -/
def basisValues (e0 : Elem T) (phi : Nat → Nat → T) (q m : Nat) : T :=
  if q / e0.bs < e0.dim ∧ m / e0.bs < e0.rvs ∧ m % e0.bs = q % e0.bs then phi (q / e0.bs) (m / e0.bs) else 0

/-- The matrix of a cell before transformation, discreteoperators.h L585-647: row and column. -/
def cellMatrix (e0 e1 : Elem T) (c : Nat) (phi : Nat → Nat → Nat → T) : Option (Nat → Nat → T) :=
  if e1.vs < e0.bs * e0.rvs then none
  else
    let mapped := fun p q m => e1.pull c p (basisValues e0 (phi p) q) m
    if e1.interpIdent then
      if e1.bs * e1.dim < e1.npts * e1.vs then none else some fun j q => mapped (j / e1.vs) q (j % e1.vs)
    else if e1.bs = 1 then
      if e1.piCols < e1.vs * e1.npts then none
      else some fun j q => (List.range e1.vs).foldl (fun acc k => sumTo e1.npts (fun p => e1.Pi j (k * e1.npts + p) * mapped p q k) acc) 0
    else if e1.piCols < e1.npts ∨ e1.vs < e1.bs then none
    else some fun j q => sumTo e1.npts fun p => e1.Pi (j / e1.bs) p * mapped p q (j % e1.bs)

/-- `apply_inverse_dof_transform1`, discreteoperators.h L241, L349, L649: each column by itself. -/
def transformRows (e1 : Elem T) (c : Nat) (A : Nat → Nat → T) : Nat → Nat → T := fun j q => blocked e1.bs (e1.invTransT c) (fun j' => A j' q) j

/-- Rows that are not owned or were added are set to zero, discreteoperators.h L651-670. -/
def zeroRows (bs owned : Nat) (rows : List Nat) (A : Nat → Nat → T) (added : List Bool) : Option ((Nat → Nat → T) × List Bool) :=
  rows.zipIdx.foldlM (fun (s : (Nat → Nat → T) × List Bool) (r : Nat × Nat) =>
    if r.1 < s.2.length then
      some (if owned ≤ r.1 ∨ s.2.getD r.1 false = true then fun j q => if r.2 * bs ≤ j ∧ j < r.2 * bs + bs then 0 else s.1 j q else s.1, s.2.set r.1 true)
    else none) (A, added)

/-- A cell of `interpolation_matrix`, discreteoperators.h L505-672. -/
def interpolationCell (e0 e1 : Elem T) (dm0 dm1 : DMap) (owned : Nat) (phi : Nat → Nat → Nat → Nat → T) (s : (Nat → Nat → T) × List Bool) (c : Nat) :
    Option ((Nat → Nat → T) × List Bool) :=
  (cellMatrix e0 e1 c (phi c)).bind fun A => (dm1.dofs[c]?).bind fun rows => (zeroRows dm1.bs owned rows (transformRows e1 c A) s.2).bind fun z =>
    (insertCell matAdd e1 e0 dm1 dm0 c z.1 s.1).map fun M => (M, z.2)

/-- Block sizes for which there is a function in the Python layer, assemble.h L97-143. -/
def supportedBlocks (bs1 bs0 : Nat) : Bool :=
  (bs1, bs0) ∈ [(1, 1), (2, 1), (1, 2), (2, 2), (3, 1), (1, 3), (3, 3)]

/-- `interpolation_matrix` on a new matrix; `owned` and `total` are the numbers of owned and all dofs (blocks) of `V1`. -/
def interpolationMatrix (e0 e1 : Elem T) (dm0 dm1 : DMap) (owned total ncells : Nat) (phi : Nat → Nat → Nat → Nat → T) : Option (Nat → Nat → T) :=
  if !supportedBlocks dm1.bs dm0.bs then none
  else ((List.range ncells).foldlM (interpolationCell e0 e1 dm0 dm1 owned phi) (fun _ _ => 0, List.replicate total false)).map Prod.fst

/-! ## Discrete gradient -/

/-- `Pi` times derivatives, discreteoperators.h L303-341: `dphi_reshaped` has row `d * npts + p`. -/
def gradientMatrix (e1 : Elem T) (tdim : Nat) (dphi : Nat → Nat → Nat → T) : Option (Nat → Nat → T) :=
  if e1.piCols ≠ tdim * e1.npts then none else some fun j q => sumTo (tdim * e1.npts) fun r => e1.Pi j r * dphi (r / e1.npts) (r % e1.npts) q

/-- `discrete_gradient`, discreteoperators.h L273-353; map types as in Basix: 0 identity, 3 covariant Piola, 4 contravariant Piola. -/
def discreteGradient (e0 e1 : Elem T) (dm0 dm1 : DMap) (tdim ncells : Nat) (dphi : Nat → Nat → Nat → T) : Option (Nat → Nat → T) :=
  if e0.mapType ≠ 0 then none
  else if e0.bs ≠ 1 then none
  else if e0.rvs ≠ 1 then none
  else if e1.mapType ≠ 3 then none
  else if e1.bs ≠ 1 then none
  else (gradientMatrix e1 tdim dphi).bind fun A =>
    (List.range ncells).foldlM (fun M c => insertCell matSet e1 e0 dm1 dm0 c (transformRows e1 c A) M) (fun _ _ => 0)

/-! ## Discrete curl -/

/-- Derivatives of the transformed basis functions, discreteoperators.h L191-210: `dPhi0(p, i, dx, d)`, transformed by columns. -/
def transformedDerivs (e0 : Elem T) (c : Nat) (dphi : Nat → Nat → Nat → Nat → T) (p i dx d : Nat) : T :=
  blocked e0.bs (e0.trans c) (fun i' => dphi dx p i' d) i

/-- `curl`, discreteoperators.h L212-227. -/
def curlOf (D : Nat → Nat → T) : Nat → T
  | 0 => D 1 2 - D 2 1
  | 1 => D 2 0 - D 0 2
  | _ => D 0 1 - D 1 0

/-- The matrix of a cell, discreteoperators.h L229-240. -/
def curlMatrix (e0 e1 : Elem T) (c : Nat) (dphi : Nat → Nat → Nat → Nat → T) : Option (Nat → Nat → T) :=
  if e1.piCols < 3 * e1.npts then none
  else some fun j q => (List.range 3).foldl (fun acc k => sumTo e1.npts (fun p => e1.Pi j (k * e1.npts + p) * curlOf (transformedDerivs e0 c dphi p q) k) acc) 0

/-- `discrete_curl`, discreteoperators.h L86-246. -/
def discreteCurl (e0 e1 : Elem T) (dm0 dm1 : DMap) (sameMesh : Bool) (gdim tdim ncells : Nat) (dphi : Nat → Nat → Nat → Nat → T) : Option (Nat → Nat → T) :=
  if !sameMesh then none
  else if gdim ≠ 3 then none
  else if gdim ≠ tdim then none
  else if e0.mapType ≠ 3 then none
  else if e1.mapType ≠ 4 then none
  else if e0.rvs ≠ 3 then none
  else if e1.rvs ≠ 3 then none
  else (List.range ncells).foldlM (fun M c => (curlMatrix e0 e1 c dphi).bind fun A => insertCell matSet e1 e0 dm1 dm0 c (transformRows e1 c A) M) (fun _ _ => 0)

end Verif.DiscOp
