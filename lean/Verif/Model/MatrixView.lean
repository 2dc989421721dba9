import Verif.Model.MatrixScatter
import Mathlib.Analysis.RCLike.Basic
/-!
# Dense copies, SciPy matrices and norms of `la::MatrixCSR`

Model of `to_dense` and `squared_norm`, `la/MatrixCSR.h` L352-376 and L473-486, and of `MatrixCSR.to_scipy`,
`python/dolfinx/la/__init__.py` L279-319.  `_row_ptr` and `_cols` are those of `Model/MatrixScatter`; `_data` is a function of the
position.  Numbers are exact.
-/
namespace Verif.MatrixView
open Verif.World Verif.MatScatter

section
variable {R : Type}

/-- `num_all_rows`, MatrixCSR.h L341. -/
def numAllRows (w0 : World) (q : Nat) : Nat := w0.size q + (w0.ghosts q).length

/-- `to_dense`, MatrixCSR.h L352-376, on rank `q`. -/
def toDense [Zero R] (w0 w1 : World) (g : Graph) (bs0 bs1 : Nat) (data : Nat → R) (q : Nat) : List R :=
  let nrows := numAllRows w0 q
  let ncols := w1.r0 w1.P
  (List.range nrows).foldl (fun A r =>
    (List.range (g.rowPtr (r + 1) - g.rowPtr r)).foldl (fun A t =>
      (List.range bs0).foldl (fun A i0 =>
        (List.range bs1).foldl (fun A i1 =>
          A.set ((r * bs0 + i0) * ncols * bs1 + globalCol w1 q (g.cols.getD (g.rowPtr r + t) 0) * bs1 + i1)
            (data ((g.rowPtr r + t) * bs0 * bs1 + i0 * bs1 + i1))) A) A) A)
    (List.replicate (nrows * ncols * bs0 * bs1) 0)

/-- What is passed to SciPy: `csr_matrix((data, indices, indptr), shape)`, or `bsr_matrix` with blocks. -/
structure SciPy (R : Type) where
  data : List R
  indices : List Nat
  indptr : List Nat
  nrows : Nat
  ncols : Nat
  bs0 : Nat
  bs1 : Nat

/-- `to_scipy`, la/__init__.py L279-319, on rank `q`. -/
def toScipy (w0 w1 : World) (g : Graph) (bs0 bs1 : Nat) (data : Nat → R) (q : Nat) (ghosted : Bool) : SciPy R :=
  let dataAll := (List.range (g.cols.length * (bs0 * bs1))).map data
  let indptrAll := (List.range (numAllRows w0 q + 1)).map g.rowPtr
  let ncols := w1.size q + (w1.ghosts q).length
  if ghosted then ⟨dataAll, g.cols, indptrAll, bs0 * (w0.size q + (w0.ghosts q).length), bs1 * ncols, bs0, bs1⟩
  else
    let nrows := w0.size q
    let nnzlocal := indptrAll.getD nrows 0
    ⟨dataAll.take ((bs0 * bs1) * nnzlocal), g.cols.take nnzlocal, indptrAll.take (nrows + 1), bs0 * nrows, bs1 * ncols, bs0, bs1⟩

end

section
variable {K : Type} [RCLike K]

/-- `norm_sq_local`, MatrixCSR.h L475-482; `std::norm` is the square of the modulus. -/
noncomputable def normLocal (w0 : World) (g : Graph) (bs0 bs1 : Nat) (data : Nat → K) (q : Nat) : ℝ :=
  ((List.range (g.rowPtr (w0.size q) * (bs0 * bs1))).map data).foldl (fun norm y => norm + ‖y‖ ^ 2) 0

/-- `squared_norm`, MatrixCSR.h L473-486: the sum over the ranks. -/
noncomputable def squaredNorm (w0 : World) (g : Nat → Graph) (bs0 bs1 : Nat) (data : Nat → Nat → K) : ℝ :=
  ((List.range w0.P).map fun q => normLocal w0 (g q) bs0 bs1 (data q) q).sum

end

end Verif.MatrixView
