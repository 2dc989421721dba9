import Verif.Model.SmallMatrix
import Mathlib.Order.Defs.LinearOrder
/-!
# Reference and physical coordinates of points

`cpp/dolfinx/fem/CoordinateElement.h` L124-216, `cpp/dolfinx/fem/CoordinateElement.cpp` L22-30, L87-199, L253-261, the methods `push_forward` and `pull_back` of the wrapper
(`python/dolfinx/wrappers/dolfinx_wrappers/fem.h` L1035-1141) and of `python/dolfinx/fem/element.py` L71-128.

The working array is a memory from addresses to numbers; its parts are views that start at the addresses of the code, so that parts that overlap would change each other.
Simplifications: numbers are exact, in a field; `std::sqrt` is any function; a kernel (`dot`, `inv`, `pinv`, tabulation) reads its arguments before it writes its result; other arrays
are functions of their indices.  Failed assertions are errors.
-/
namespace Verif.PullBack
open Verif.SmallMatrix (Entries)

/-- Exceptions. -/
inductive Err where
  /-- the inverse of a matrix of such a shape "is not implemented" -/
  | shape
  /-- "Working memory is too small" -/
  | workspace
  /-- "Newton method failed to converge for non-affine geometry" -/
  | noConvergence
  /-- a failed assertion -/
  | assertion
deriving DecidableEq, Repr

/-- A `CoordinateElement`.  `dim`: number of basis functions.  `tab X d i`: value (`d = 0`) or derivative in direction `d - 1` of basis function `i` at `X`. -/
structure CElem (K : Type) where
  simplex : Bool
  degree : Nat
  tdim : Nat
  dim : Nat
  tab : List K → Nat → Nat → K

/-- `_is_affine`, CoordinateElement.cpp L27-29. -/
def CElem.isAffine {K : Type} (e : CElem K) : Bool := e.simplex && e.degree == 1

/-- `pull_back_working_size`, CoordinateElement.cpp L253-261. -/
def CElem.workingSize {K : Type} (e : CElem K) (gdim : Nat) : Nat :=
  if e.isAffine then e.tdim * (2 * gdim + 1) + (e.tdim + 1) * e.dim else e.tdim * (2 * gdim + 2 * e.dim + 2) + gdim + e.dim

/-! ## Memory -/

/-- A view with `cols` columns that starts at an address. -/
def rd {K : Type} (m : Nat → K) (base cols : Nat) : Entries K := fun i j => m (base + i * cols + j)

/-- Writing `rows` rows of a view with `cols` columns. -/
def wr {K : Type} (m : Nat → K) (base rows cols : Nat) (E : Entries K) : Nat → K :=
  fun a => if base ≤ a ∧ a < base + rows * cols then E ((a - base) / cols) ((a - base) % cols) else m a

section
variable {K : Type} [Field K]

/-- `compute_jacobian`, CoordinateElement.h L132-136: `dphi` has extents `tdim nx`, `g` has extents `nx gcols`. -/
def computeJacobian (tdim nx gcols : Nat) (dphi g J : Entries K) : Entries K := SmallMatrix.dot nx gcols tdim nx g dphi J true

/-- `compute_jacobian_inverse`, L141-150: the new contents of `K`. -/
def computeJacobianInverse (gdim tdim : Nat) (J Kv : Entries K) : Except Err (Entries K) :=
  match (if gdim = tdim then SmallMatrix.inv gdim J Kv else SmallMatrix.pinv gdim tdim J Kv (fun _ _ => 0)) with
  | .ok R => .ok R
  | .error _ => .error .shape

/-- `compute_jacobian_determinant`, L157-183, with working memory `w` of size `size`. -/
def computeJacobianDeterminant (sqrt : K → K) (gdim tdim : Nat) (J : Entries K) (w : Nat → K) (size : Nat) : Except Err K :=
  if gdim = tdim then
    match SmallMatrix.det gdim J with
    | .ok d => .ok d
    | .error _ => .error .shape
  else if size < 2 * gdim * tdim then .error .assertion
  else
    let w := wr w 0 tdim gdim (SmallMatrix.fill tdim gdim (fun i j => J j i) (rd w 0 gdim))
    let w := wr w (gdim * tdim) tdim tdim (fun _ _ => 0)
    let w := wr w (gdim * tdim) tdim tdim (SmallMatrix.dot tdim gdim gdim tdim (rd w 0 gdim) J (rd w (gdim * tdim) tdim) false)
    match SmallMatrix.det tdim (rd w (gdim * tdim) tdim) with
    | .ok d => .ok (sqrt d)
    | .error _ => .error .shape

/-- `push_forward`, L194-204: `x` has extents `np gcols`, `phi` has extents `np nphi`, `g` has extents `nx gcols`. -/
def pushForward (np gcols nphi nx : Nat) (x g phi : Entries K) : Entries K :=
  SmallMatrix.dot np nphi nx gcols phi g (SmallMatrix.fill np gcols (fun _ _ => 0) x) false

/-- `pull_back_affine`, L216-233: `X` has extents `np tdim`, `Kv` has extents `tdim gdim`. -/
def pullBackAffine (np tdim gdim : Nat) (X Kv : Entries K) (x0 : Nat → K) (x : Entries K) : Entries K :=
  SmallMatrix.accumulate np tdim gdim (fun p i j => Kv i j * (x p j - x0 j)) (SmallMatrix.fill np tdim (fun _ _ => 0) X)

/-! ## Newton's method -/

/-- `xk[j] += g(i, j) * phi(i)`, CoordinateElement.cpp L150-152. -/
def addNodes (nx gcols : Nat) (g : Entries K) (phi xk : Nat → K) : Nat → K :=
  (List.range nx).foldl (fun xk i => (List.range gcols).foldl (fun xk j => Function.update xk j (xk j + g i j * phi i)) xk) xk

/-- The starts of the parts of the working array, L112-137. -/
structure Layout where
  dphi : Nat
  Xk : Nat
  dX : Nat
  xk : Nat
  J : Nat
  K : Nat
  basis : Nat

/-- L112-137. -/
def layout (tdim gdim nx : Nat) : Layout where
  dphi := 0
  Xk := tdim * nx
  dX := tdim * (nx + 1)
  xk := tdim * (nx + 2)
  J := tdim * (nx + 2) + gdim
  K := tdim * (nx + 2) + gdim * (tdim + 1)
  basis := tdim * (nx + 2) + gdim * (2 * tdim + 1)

/-- The first part of an iteration, L146-162: basis functions, `xk`, `dphi` and `J`. -/
def evalAt (e : CElem K) (gdim : Nat) (g : Entries K) (m : Nat → K) : Nat → K :=
  let L := layout e.tdim gdim e.dim
  let m := wr m L.basis (e.tdim + 1) e.dim (e.tab ((List.range e.tdim).map (rd m L.Xk e.tdim 0)))
  let m := wr m L.xk 1 gdim (fun _ _ => 0)
  let m := wr m L.xk 1 gdim (fun _ => addNodes e.dim gdim g (rd m L.basis e.dim 0) (rd m L.xk gdim 0))
  let m := wr m L.J gdim e.tdim (fun _ _ => 0)
  let m := wr m L.dphi e.tdim e.dim (fun i j => rd m L.basis e.dim (i + 1) j)
  wr m L.J gdim e.tdim (computeJacobian e.tdim e.dim gdim (rd m L.dphi e.dim) g (rd m L.J e.tdim))

/-- The last part of an iteration, L165-173: `dX` and `Xk`, with `K` in the memory. -/
def advance (e : CElem K) (gdim : Nat) (x : Nat → K) (m : Nat → K) : Nat → K :=
  let L := layout e.tdim gdim e.dim
  let m := wr m L.dX 1 e.tdim (fun _ _ => 0)
  let m := wr m L.dX 1 e.tdim
    (SmallMatrix.accumulate 1 e.tdim gdim (fun _ i j => rd m L.K gdim i j * (x j - rd m L.xk gdim 0 j)) (rd m L.dX e.tdim))
  wr m L.Xk 1 e.tdim (fun _ i => rd m L.dX e.tdim 0 i + rd m L.Xk e.tdim 0 i)

/-- The body of the loop, L146-173, for a point `x`. -/
def step (e : CElem K) (gdim : Nat) (g : Entries K) (x : Nat → K) (m : Nat → K) : Except Err (Nat → K) :=
  let L := layout e.tdim gdim e.dim
  let m := evalAt e gdim g m
  match computeJacobianInverse gdim e.tdim (rd m L.J e.tdim) (rd m L.K gdim) with
  | .error err => .error err
  | .ok R => .ok (advance e gdim x (wr m L.K e.tdim gdim R))

/-- The sum of the squares of `dX`, L176-178. -/
def dXSquared (e : CElem K) (gdim : Nat) (m : Nat → K) : K :=
  (List.range e.tdim).foldl (fun s i => s + rd m (layout e.tdim gdim e.dim).dX e.tdim 0 i * rd m (layout e.tdim gdim e.dim).dX e.tdim 0 i) 0

variable [LinearOrder K]

/-- The iterations that are left, L144-183: the memory and whether the loop has been left by `break`. -/
def iterate (sqrt : K → K) (tol : K) (e : CElem K) (gdim : Nat) (g : Entries K) (x : Nat → K) : Nat → (Nat → K) → Except Err ((Nat → K) × Bool)
  | 0, m => .ok (m, false)
  | n + 1, m =>
    match step e gdim g x m with
    | .error err => .error err
    | .ok m' => if sqrt (dXSquared e gdim m') < tol then .ok (m', true) else iterate sqrt tol e gdim g x n m'

/-- One point, L140-191: the memory and `X`.  `k == maxit` after the loop is left at its end, or never entered with `maxit` zero. -/
def point (sqrt : K → K) (tol : K) (maxit : Int) (e : CElem K) (gdim : Nat) (g x : Entries K) (p : Nat) (s : (Nat → K) × Entries K) :
    Except Err ((Nat → K) × Entries K) :=
  let L := layout e.tdim gdim e.dim
  let m := wr s.1 L.Xk 1 e.tdim (fun _ _ => 0)
  match iterate sqrt tol e gdim g (x p) maxit.toNat m with
  | .error err => .error err
  | .ok (m, stopped) =>
    if stopped = false ∧ 0 ≤ maxit then .error .noConvergence
    else .ok (m, fun q i => if q = p ∧ i < e.tdim then rd m L.Xk e.tdim 0 i else s.2 q i)

/-- `pull_back_nonaffine`, L87-193: `x` has extents `np gdim`, `g` has extents `nx gcols`, the working array has size `size`. -/
def pullBackNonaffine (sqrt : K → K) (tol : K) (maxit : Int) (e : CElem K) (np gdim nx gcols : Nat) (X x g : Entries K) (size : Nat) (m : Nat → K) :
    Except Err ((Nat → K) × Entries K) :=
  if np = 0 then .ok (m, X)
  else if gcols ≠ gdim then .error .assertion
  else if size < e.workingSize gdim then .error .workspace
  else if e.dim ≠ nx then .error .assertion
  else
    let m := wr m (layout e.tdim gdim e.dim).xk 1 gdim (fun _ _ => 0)
    (List.range np).foldlM (fun s p => point sqrt tol maxit e gdim g x p s) (m, X)

/-! ## The methods of the wrapper -/

/-- The method `push_forward`, wrappers fem.h L1035-1067: `Xs` has `np` rows. -/
def pushForwardPy (e : CElem K) (np nx gcols : Nat) (Xs : Nat → List K) (g : Entries K) : Except Err (Entries K) :=
  if e.dim ≠ nx then .error .assertion
  else .ok (pushForward np gcols e.dim nx (fun _ _ => 0) g (fun p i => e.tab (Xs p) 0 i))

/-- The branch for affine maps of the method `pull_back`, L1102-1128: the memory and `X`. -/
def pullBackPyAffine (e : CElem K) (np gdim nx gcols : Nat) (x g : Entries K) (m : Nat → K) : Except Err ((Nat → K) × Entries K) :=
  let oK := gdim * e.tdim
  let oX := 2 * gdim * e.tdim
  let oPhi := 2 * gdim * e.tdim + e.tdim
  let m := wr m 0 gdim e.tdim (fun _ _ => 0)
  let m := wr m oX 1 e.tdim (fun _ _ => 0)
  let m := wr m oPhi (e.tdim + 1) e.dim (e.tab ((List.range e.tdim).map (rd m oX e.tdim 0)))
  if e.dim ≠ nx then .error .assertion
  else
    let dphi : Entries K := fun i j => rd m oPhi e.dim (i + 1) j
    let m := wr m 0 gcols e.tdim (computeJacobian e.tdim e.dim gcols dphi g (rd m 0 e.tdim))
    match computeJacobianInverse gdim e.tdim (rd m 0 e.tdim) (rd m oK gdim) with
    | .error err => .error err
    | .ok R =>
      let m := wr m oK e.tdim gdim R
      if 3 < gcols then .error .assertion
      else
        let x0 : Nat → K := fun i => if i < gcols then 0 + g 0 i else 0
        .ok (m, pullBackAffine np e.tdim gdim (fun _ _ => 0) (rd m oK gdim) x0 x)

/-- The method `pull_back`, L1068-1141: `x` has extents `np gdim`, `g` has extents `nx gcols`. -/
def pullBackPy (sqrt : K → K) (tol : K) (maxit : Int) (e : CElem K) (np gdim nx gcols : Nat) (x g : Entries K) (size : Nat) (m : Nat → K) :
    Except Err ((Nat → K) × Entries K) :=
  if size < e.workingSize gdim then .error .workspace
  else if e.isAffine then pullBackPyAffine e np gdim nx gcols x g m
  else pullBackNonaffine sqrt tol maxit e np gdim nx gcols (fun _ _ => 0) x g size m

/-- `pull_back` of element.py L89-128; `eps`: machine precision. -/
def pullBack (sqrt : K → K) (eps : K) (tol : Option K) (maxit : Int) (e : CElem K) (np gdim nx gcols : Nat) (x g : Entries K) (work : Option (Nat × (Nat → K))) :
    Except Err (Entries K) :=
  let tol := tol.getD (sqrt eps)
  let w := work.getD (e.workingSize gdim, fun _ => 0)
  match pullBackPy sqrt tol maxit e np gdim nx gcols x g w.1 w.2 with
  | .ok r => .ok r.2
  | .error err => .error err
end

end Verif.PullBack
