import Verif.Model.PetscLinear
/-!
# `dolfinx.fem.petsc.LinearProblem` with several fields

Model of `python/dolfinx/fem/petsc.py` L1023-1084 (`solve`) when forms are given in arrays, with L503-531 and L554-588
(`assemble_matrix`), L345-350 (`assemble_vector`), L682-690 (`apply_lifting`), L768-774 (`set_bc`).

* Vectors and matrices are given by field, as in a nest.  A block vector or matrix holds the same entries one beside the other
  (C84).
* Spaces of different fields are different objects, so that `insert_diagonal` is called for diagonal blocks only.
* `bcs_by_block` has sorted the conditions (C85); the conditions of a field are those on its space, in the order of the list.
* Each row and each column of forms has an entry other than `None`: the exceptions for empty rows and columns (L509, L521-522,
  L540-543) are not modelled.
* KSP is any function of matrices, right-hand sides and vectors by field.
-/
namespace Verif.PetscBlock
open Verif.Assembly Verif.World Verif.LinProb Verif.NonlinProb

variable {R : Type}

/-- Space, linear form and conditions of a field. -/
structure Field (R : Type) where
  w : World
  bs : Nat
  dm : Nat → Nat → Assembly.Dofmap
  L : Nat → Form R
  bcs : Nat → List (BC R)

/-- What the constructor keeps: `P` ranks, `n` fields, the array of bilinear forms, that of the preconditioner. -/
structure Problem (R : Type) where
  P : Nat
  n : Nat
  field : Nat → Field R
  a : Nat → Nat → Option (Nat → Form R)
  pre : Option (Nat → Nat → Option (Nat → Form R))

/-- A form without integrals. -/
def emptyForm : Form R := { numTypes := 1, ints := fun _ _ => [] }

/-- A field alone, where vectors and diagonal blocks are concerned. -/
def Field.base (f : Field R) : NonlinProb.Problem R := ⟨f.w, f.bs, fun q _ => f.L q, fun _ _ => emptyForm, none, f.dm, f.bcs⟩

/-- Contents of vectors, arrays of `u` and matrices, by field. -/
structure State (R : Type) where
  x : Nat → Nat → Nat → R
  u : Nat → Nat → Nat → R
  b : Nat → Nat → Nat → R
  A : Nat → Nat → Nat → Nat → R
  P : Nat → Nat → Nat → Nat → R

/-- KSP: `A`, `P`, `b`, `x` by field. -/
abbrev Ksp (R : Type) := (Nat → Nat → Nat → Nat → R) → (Nat → Nat → Nat → Nat → R) → (Nat → Nat → Nat → R) →
  (Nat → Nat → Nat → R) → Option (Nat → Nat → Nat → R)

variable [CommRing R]

/-- Values added to block `(i, j)` on rank `q`, with the local-to-global maps of both spaces. -/
def addBlock (w0 w1 : World) (bs0 bs1 q : Nat) : MatSet (Nat → Nat → R) R := fun A rows cols V => fun r c =>
  A r c + (rows.zipIdx.map fun a => (cols.zipIdx.map fun b =>
    if (l2g w0 q)[a.1]? = some (r / bs0) ∧ (l2g w1 q)[b.1]? = some (c / bs1) then
      V ((bs0 * a.2 + r % bs0) * (bs1 * cols.length) + (bs1 * b.2 + c % bs1)) else 0).sum).sum

/-- `assemble_matrix` of one form with different spaces, L518-520 and L596. -/
def assembleOff (P : Nat) (f0 f1 : Field R) (a : Nat → Form R) (A : Nat → Nat → R) : Option (Nat → Nat → R) :=
  (List.range P).foldlM (fun A q =>
    assembleMatrix (addBlock f0.w f1.w f0.bs f1.bs q) false (a q) (f0.dm q) (f1.dm q)
      (matrixMarkers (f0.base.dim q) ((f0.bcs q).map (·, true))) (matrixMarkers (f1.base.dim q) ((f1.bcs q).map (·, true))) A) A

/-- Block `(i, j)`, L514-531 and L554-588.  `none`: an exception. -/
def assembleBlock (P i j : Nat) (f0 f1 : Field R) (a : Option (Nat → Form R)) (A : Nat → Nat → R) : Option (Nat → Nat → R) :=
  match a with
  | some a => if i = j then assemblePetsc f0.base a 1 A else assembleOff P f0 f1 a A
  | none => if i = j ∧ ¬ (List.range P).all (fun q => (f0.bcs q).isEmpty) then none else some A

/-- All blocks, after `zeroEntries`: L1039-1041. -/
def assembleAll (D : Problem R) (a : Nat → Nat → Option (Nat → Form R)) (A : Nat → Nat → Nat → Nat → R) :
    Option (Nat → Nat → Nat → Nat → R) :=
  allSome D.n fun i => allSome D.n fun j => assembleBlock D.P i j (D.field i) (D.field j) (a i j) (zeroEntries (A i j))

/-- The preconditioner, L1044-1048. -/
def assemblePre (D : Problem R) (P A : Nat → Nat → Nat → Nat → R) : Option (Nat → Nat → Nat → Nat → R) :=
  match D.pre with
  | none => some A
  | some p => assembleAll D p P

/-- `_zero_vector(b)`; `_assemble_vector_petsc(b, L)`: L1051-1052. -/
def vectorOn (D : Problem R) (b : Nat → Nat → Nat → R) (i q : Nat) : Option (Nat → R) :=
  assembleVector ((D.field i).L q) ((D.field i).dm q) (setValue 0 (b i q))

/-- `apply_lifting(b, a, bcs=bcs1)`, L1061: for field `i` all forms of row `i` and the conditions of all fields. -/
def liftOn [DecidableEq R] (D : Problem R) (b : Nat → R) (i q : Nat) : Option (Nat → R) :=
  applyLifting ((List.range D.n).map fun j => (D.a i j).map fun F => ⟨F q, (D.field j).dm q, (D.field j).base.dim q⟩)
    ((D.field i).dm q) ((List.range D.n).map fun j => (D.field j).bcs q) [] 1 b

/-- `set_bc(b, bcs0)`, L1068: for each field its own conditions, owned part. -/
def setBc [DecidableEq R] (D : Problem R) (b : Nat → R) (i q : Nat) : Nat → R :=
  ((D.field i).bcs q).foldl (fun v c => c.set ((D.field i).base.own q) v none 1) b

/-- A matrix by field as the solver sees it. -/
def entries (D : Problem R) (A : Nat → Nat → Nat → Nat → R) : Nat → Nat → Nat → Nat → R := fun i j r c =>
  if i < D.n ∧ j < D.n ∧ r < (D.field i).bs * (D.field i).w.r0 (D.field i).w.P ∧ c < (D.field j).bs * (D.field j).w.r0 (D.field j).w.P
  then A i j r c else 0

/-- A vector by field as the solver sees it. -/
def owned (D : Problem R) (x : Nat → Nat → Nat → R) : Nat → Nat → Nat → R := fun i q k =>
  if i < D.n then NonlinProb.owned (D.field i).base (x i) q k else 0

/-- `_ghost_update(x, INSERT, FORWARD)`; `assign(x, u)`: L1082-1083, field by field (C84). -/
def assignX (D : Problem R) (s : State R) : State R :=
  let x := fun i q => if i < D.n then Scatterer.scatterFwd (D.field i).w (D.field i).bs (s.x i) q else s.x i q
  { s with x := x, u := fun i q => if i < D.n then copyArr ((D.field i).base.dim q) (x i q) (s.u i q) else s.u i q }

/-- `x` after `solver.solve(b, x)`: owned entries are those of the solver. -/
def putX (D : Problem R) (x : Nat → Nat → Nat → R) (s : State R) : Nat → Nat → Nat → R := fun i =>
  if i < D.n then place (D.field i).base (x i) (s.x i) else s.x i

/-- `LinearProblem.solve`, L1038-1084.  The second component: returned without an exception. -/
def solve [DecidableEq R] (D : Problem R) (ksp : Ksp R) (s : State R) : State R × Bool :=
  match assembleAll D D.a s.A with
  | none => (s, false)
  | some A =>
    match assemblePre D s.P A with
    | none => ({ s with A := A }, false)
    | some P =>
      match allSome D.n fun i => allSome D.P (vectorOn D s.b i) with
      | none => ({ s with A := A, P := P }, false)
      | some b1 =>
        match allSome D.n fun i => allSome D.P (fun q => liftOn D (b1 i q) i q) with
        | none => ({ s with A := A, P := P, b := b1 }, false)
        | some b2 =>
          let b3 := fun i q => Scatterer.scatterRev (D.field i).w (D.field i).bs (· + ·) (b2 i) q
          let b4 := fun i q => setBc D (b3 i q) i q
          let s := { s with A := A, P := P, b := b4 }
          match ksp (entries D A) (entries D P) (owned D b4) (owned D s.x) with
          | none => (s, false)
          | some x => (assignX D { s with x := putX D x s }, true)

end Verif.PetscBlock
