import Verif.Model.NonlinearProblem
/-!
# `dolfinx.fem.petsc.LinearProblem`

Model of `python/dolfinx/fem/petsc.py` L977-1002 (options) and L1023-1084 (`solve`) for one form.  Vectors, matrices,
assembly and assignment are those of `Verif.Model.NonlinearProblem`.

* The solver (KSP) is any function of both matrices, the right-hand side and the vector that is to hold the solution; all
  of them are seen by owned entries.  `none`: it raises (`ksp_error_if_not_converged`).
* The options database of PETSc maps names to values.  While a prefix is pushed it is put before each name.
-/
namespace Verif.PetscLin
open Verif.Assembly Verif.World Verif.LinProb Verif.NonlinProb

variable {R : Type}

/-- What the constructor keeps. -/
structure Problem (R : Type) where
  w : World
  bs : Nat
  a : Nat → Form R
  L : Nat → Form R
  pre : Option (Nat → Form R)
  dm : Nat → Nat → Assembly.Dofmap
  bcs : Nat → List (BC R)

/-- The same data where vectors and matrices are concerned; the forms do not depend on the solution. -/
def Problem.base (D : Problem R) : NonlinProb.Problem R :=
  ⟨D.w, D.bs, fun q _ => D.L q, fun q _ => D.a q, D.pre.map fun p q _ => p q, D.dm, D.bcs⟩

/-- KSP: `A`, `P`, `b`, `x`. -/
abbrev Ksp (R : Type) :=
  (Nat → Nat → R) → (Nat → Nat → R) → (Nat → Nat → R) → (Nat → Nat → R) → Option (Nat → Nat → R)

variable [CommRing R]

/-- `_zero_vector(b)`; `_assemble_vector_petsc(b, L)`: L1051-1052. -/
def vectorOn (D : Problem R) (b : Nat → Nat → R) (q : Nat) : Option (Nat → R) :=
  assembleVector (D.L q) (D.dm q) (setValue 0 (b q))

/-- `apply_lifting(b, [a], bcs=[bcs])`, L1073: without `x0`, `alpha` is 1. -/
def liftOn [DecidableEq R] (D : Problem R) (b : Nat → R) (q : Nat) : Option (Nat → R) :=
  applyLifting [some ⟨D.a q, D.dm q, D.base.dim q⟩] (D.dm q) [D.bcs q] [] 1 b

/-- `for bc in bcs: bc.set(b.array_w)`, L1079-1080: the array is the owned part. -/
def setBc [DecidableEq R] (D : Problem R) (b : Nat → R) (q : Nat) : Nat → R :=
  (D.bcs q).foldl (fun v c => c.set (D.base.own q) v none 1) b

/-- The preconditioner matrix, L1044-1048; `setOperators(A, None)` uses the matrix in both places. -/
def assemblePre (D : Problem R) (P A : Nat → Nat → R) : Option (Nat → Nat → R) :=
  match D.pre with
  | none => some A
  | some p => assemblePetsc D.base p 1 (zeroEntries P)

/-- `LinearProblem.solve`, L1038-1084.  The second component: returned without an exception. -/
def solve [DecidableEq R] (D : Problem R) (ksp : Ksp R) (s : NonlinProb.State R) : NonlinProb.State R × Bool :=
  match assemblePetsc D.base D.a 1 (zeroEntries s.A) with
  | none => (s, false)
  | some A =>
    match assemblePre D s.P A with
    | none => ({ s with A := A }, false)
    | some P =>
      match allSome D.w.P (vectorOn D s.b) with
      | none => ({ s with A := A, P := P }, false)
      | some b1 =>
        match allSome D.w.P (fun q => liftOn D (b1 q) q) with
        | none => ({ s with A := A, P := P, b := b1 }, false)
        | some b2 =>
          let b3 := fun q => Scatterer.scatterRev D.w D.bs (· + ·) b2 q
          let b4 := fun q => setBc D (b3 q) q
          let s := { s with A := A, P := P, b := b4 }
          match ksp (entries D.base A) (entries D.base P) (owned D.base b4) (owned D.base s.x) with
          | none => (s, false)
          | some x => (assignX D.base { s with x := place D.base x s.x }, true)

/-! ## Options -/

/-- The options database. -/
abbrev Db (V : Type) := List Char → Option V

/-- `opts[k] = v` while `prefix` is pushed. -/
def Db.set {V : Type} (db : Db V) (pfx k : List Char) (v : V) : Db V := fun n => if n = pfx ++ k then some v else db n

/-- `del opts[k]` while `prefix` is pushed. -/
def Db.del {V : Type} (db : Db V) (pfx k : List Char) : Db V := fun n => if n = pfx ++ k then none else db n

/-- Outcome of the constructor: the options in the database that the solver read (if it did), the database afterwards. -/
structure Configured (V : Type) where
  read : Option (Db V)
  db : Db V

/-- L977-1002.  `none`: the prefix is empty.  `opts` are the items of the dictionary, `fails` whether `setFromOptions`
raises for these options; the first component tells whether the constructor went on. -/
def configure {V : Type} (pfx : List Char) (opts : Option (List (List Char × V))) (fails : Db V → Bool) (db : Db V) :
    Option (Bool × Configured V) :=
  if pfx = [] then none
  else match opts with
    | none => some (true, ⟨none, db⟩)
    | some l =>
      let db1 := l.foldl (fun d o => d.set pfx o.1 o.2) db
      if fails db1 then some (false, ⟨some db1, db1⟩)
      else some (true, ⟨some db1, l.foldl (fun d o => d.del pfx o.1) db1⟩)

end Verif.PetscLin
