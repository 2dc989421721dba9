import Verif.Spec.StoredEntry
import Verif.Model.SuperLu
import Mathlib.Algebra.BigOperators.Group.Finset.Basic
import Mathlib.Order.Interval.Finset.Nat
/-! Specification: the scalar matrix that distributed block CSR arrays stand for, the one that distributed
scalar rows stand for, and what a direct solver has to do with it. -/
namespace Verif.Spec
open Verif.World Verif.SpMV Verif.SuperLu Finset

variable {R : Type}

/-- Row pointers start at zero and increase. -/
structure RowPtrOk (A : Mat R) : Prop where
  zero : A.rowPtr 0 = 0
  mono : ∀ i, i < A.nrows → A.rowPtr i ≤ A.rowPtr (i + 1)

/-- Every rank stores its owned rows, with columns the column map knows. -/
structure BlockMatOk (w0 w1 : World) (M : Nat → Mat R) : Prop where
  rows : ∀ q, q < w0.P → RowPtrOk (M q)
  owned : ∀ q, q < w0.P → (M q).nrows = w0.size q
  range : ∀ q, q < w0.P → ∀ k, k < (M q).rowPtr (M q).nrows → ∃ J, globalOf w1 q ((M q).cols k) = some J

/-- Entry (`I`, `J`) of the scalar matrix: sum of the values stored for it in owned rows of all ranks. -/
def blockVal [AddCommMonoid R] (w0 w1 : World) (bs0 bs1 : Nat) (M : Nat → Mat R) (I J : Nat) : R :=
  ∑ q ∈ range w0.P, ∑ i ∈ range (w0.size q), if w0.r0 q + i = I / bs0 then
    ∑ k ∈ Ico ((M q).rowPtr i) ((M q).rowPtr (i + 1)),
      if globalOf w1 q ((M q).cols k) = some (J / bs1) then
        (M q).values (k * bs0 * bs1 + I % bs0 * bs1 + J % bs1) else 0
  else 0

/-- Row `t` of a part: its columns and values. -/
def nrRow (N : NRLoc R) (t : Nat) : List (Nat × R) :=
  ((N.cols.zip N.vals).drop (N.rowptr.getD t 0)).take (N.rowptr.getD (t + 1) 0 - N.rowptr.getD t 0)

/-- Entry (`I`, `J`) of the matrix that `P` parts stand for. -/
def distVal [AddCommMonoid R] (P : Nat) (N : Nat → NRLoc R) (I J : Nat) : R :=
  ∑ q ∈ range P, ∑ t ∈ range (N q).mLoc, if (N q).firstRow + t = I then
    ((nrRow (N q) t).map fun p => if p.1 = J then p.2 else 0).sum else 0

/-- A part as SuperLU_DIST requires it. -/
structure NROk (N : NRLoc R) : Prop where
  ptr_len : N.rowptr.length = N.mLoc + 1
  first : N.rowptr[0]? = some 0
  last : N.rowptr[N.mLoc]? = some N.nnzLoc
  mono : ∀ t, t < N.mLoc → N.rowptr.getD t 0 ≤ N.rowptr.getD (t + 1) 0
  cols_len : N.cols.length = N.nnzLoc
  vals_len : N.vals.length = N.nnzLoc
  cols_lt : ∀ c ∈ N.cols, c < N.n

/-- The global vector whose parts are in the first entries of the arrays. -/
def IsGlobal (P : Nat) (N : Nat → NRLoc R) (x : Nat → List R) (X : Nat → R) : Prop :=
  ∀ q, q < P → ∀ t, t < (N q).mLoc → (x q)[t]? = some (X ((N q).firstRow + t))

/-- What is assumed of a direct solver: given parts that make up a matrix of size `n` and the right-hand side, it
returns parts of the same sizes of a vector that solves the system. -/
def DirectSolver [CommSemiring R] (P n : Nat) (gssvx : (Nat → NRLoc R) → (Nat → List R) → Nat → List R) (N : Nat → NRLoc R) :
    Prop :=
  ∀ (b : Nat → List R) (B : Nat → R), IsGlobal P N b B → (∀ q, q < P → (b q).length = (N q).mLoc) →
    (∀ q, q < P → (gssvx N b q).length = (N q).mLoc) ∧
    ∃ X, IsGlobal P N (gssvx N b) X ∧ ∀ I, I < n → ∑ J ∈ range n, distVal P N I J * X J = B I

/-- A use of the solver object in which factors are computed only when none are kept, and used only when there are
some. -/
def Legal : Solver → List UserCall → Prop
  | _, [] => True
  | s, c :: l =>
    (match c with
      | .solve info => 0 ≤ info → ((s.fact = .doFact ∨ s.fact = .samePattern) ↔ s.held = false)
      | _ => True) ∧ Legal (c.run s) l

end Verif.Spec
