import Verif.Model.Scatterer
import Mathlib.Algebra.Ring.Defs
/-!
# Sparse matrix-vector products

Model of `la/matrix_csr_impl.h` L255-343 and `la/MatrixCSR.h` L877-1016.  Scalars form a
commutative semiring (no rounding).  The compile-time block-size variants
(`integral_constant` 1, 2, 3) run the same loops and are one function here.
-/
namespace Verif.SpMV
open Verif.World Verif.Scatterer

variable {R : Type} [CommSemiring R]

/-- The owned rows of a local CSR matrix: `row_ptr`, `off_diag_offset`, `cols`, `values`. -/
structure Mat (R : Type) where
  nrows : Nat
  rowPtr : Nat → Nat
  offDiag : Nat → Nat
  cols : Nat → Nat
  values : Nat → R

/-- `y[p] += v`. -/
def addAt (y : Nat → R) (p : Nat) (v : R) : Nat → R := fun n => if n = p then y n + v else y n

/-- `impl::spmv`, L259-286. -/
def spmv (values : Nat → R) (rowBegin rowEnd : Nat → Nat) (indices : Nat → Nat) (x : Nat → R)
    (bs0 bs1 nrows : Nat) (y : Nat → R) : Nat → R :=
  (List.range bs0).foldl (fun y k0 =>
    (List.range nrows).foldl (fun y i =>
      let vi := (List.range (rowEnd i - rowBegin i)).foldl (fun vi t =>
        let j := rowBegin i + t
        (List.range bs1).foldl (fun vi k1 =>
          vi + values (j * bs0 * bs1 + k0 * bs1 + k1) * x (indices j * bs1 + k1)) vi) 0
      addAt y (i * bs0 + k0) vi) y) y

/-- `impl::spmvT`, L319-343. -/
def spmvT (values : Nat → R) (rowBegin rowEnd : Nat → Nat) (indices : Nat → Nat) (x : Nat → R)
    (bs0 bs1 nrows : Nat) (y : Nat → R) : Nat → R :=
  (List.range bs0).foldl (fun y k0 =>
    (List.range nrows).foldl (fun y i =>
      let xval := x (i * bs0 + k0)
      (List.range (rowEnd i - rowBegin i)).foldl (fun y t =>
        let j := rowBegin i + t
        (List.range bs1).foldl (fun y k1 =>
          addAt y (indices j * bs1 + k1) (values (j * bs0 * bs1 + k0 * bs1 + k1) * xval)) y) y) y) y

/-- `MatrixCSR::mult`, L877-946, on rank `r`: diagonal stage with the array as it is while the
ghost update is in flight, then off-diagonal stage with refreshed ghosts.  Returns the
local `y`. (`x` becomes `scatterFwd w bs1 x`.) -/
def mult (w : World) (bs0 bs1 : Nat) (A : Nat → Mat R) (x y : Nat → Nat → R) (r : Nat) : Nat → R :=
  let y1 := spmv (A r).values (A r).rowPtr (A r).offDiag (A r).cols (x r) bs0 bs1 (A r).nrows (y r)
  let x' := scatterFwd w bs1 x r
  spmv (A r).values (A r).offDiag (fun i => (A r).rowPtr (i + 1)) (A r).cols x' bs0 bs1 (A r).nrows y1

/-- First part of `multT`, L967-997: ghost part of `y` set to zero, off-diagonal stage. -/
def multTGhost (w : World) (bs0 bs1 : Nat) (A : Nat → Mat R) (x y : Nat → Nat → R) (r : Nat) : Nat → R :=
  let y0 := fun n => if n < w.size r * bs1 then y r n else 0
  spmvT (A r).values (A r).offDiag (fun i => (A r).rowPtr (i + 1)) (A r).cols (x r) bs0 bs1 (A r).nrows y0

/-- `MatrixCSR::multT`, L950-1016, on rank `r`. -/
def multT (w : World) (bs0 bs1 : Nat) (A : Nat → Mat R) (x y : Nat → Nat → R) (r : Nat) : Nat → R :=
  let y1 := scatterRev w bs1 (· + ·) (fun q => multTGhost w bs0 bs1 A x y q) r
  spmvT (A r).values (A r).rowPtr (A r).offDiag (A r).cols (x r) bs0 bs1 (A r).nrows y1

end Verif.SpMV
