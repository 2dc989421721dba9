import Verif.Model.StackMaps
/-!
# Block (monolithic) vectors and matrices

Model of `python/dolfinx/la/petsc.py` L153-252 (`assign`, `_assign_block_data`),
`python/dolfinx/fem/petsc.py` L296-380 (`_assemble_vector_petsc`), L482-602
(`_assemble_matrix_petsc`), L608-730 (`apply_lifting`), L733-785 (`set_bc`), L1785-1839 (`assign`),
`cpp/dolfinx/la/petsc.cpp` L143-258 (`create_index_sets`, `get_local_vectors`,
`scatter_local_vectors`), `cpp/dolfinx/la/petsc.h` L383-410 (`set_block_expand_fn`),
`cpp/dolfinx/fem/petsc.cpp` L21-63 (`create_vector_block`) and `cpp/dolfinx/fem/petsc.h` L82-224
(`create_matrix_block`).

The branches for block systems are modelled, the branches for nests of vectors in `assign`.  A PETSc
vector is its local form: the owned entries, then the ghosts.  `none` is an exception (or, in C++, an
access outside an array).  Of PETSc this takes: `VecCreateGhost` numbers the owned entries of the
ranks one after another and the ghosts as given; `MatSetValuesLocal` on `MatGetLocalSubMatrix` maps a
local index through the index set and then through the local-to-global map; values added on all ranks
are summed.
-/
namespace Verif.BlockSystem
open Verif.StackMaps Verif.Offsets

/-- Number of owned and of ghost entries of one field: `size_local * bs`, `num_ghosts * bs`. -/
structure Field where
  own : Nat
  gh : Nat

/-! ## Array operations of Python and NumPy -/

/-- `l[a:b]`. -/
def slice {T : Type} (a b : Nat) (l : List T) : List T := (l.drop a).take (b - a)

/-- An array assigned to `n` entries: its length is `n`, or it is a single value that is repeated. -/
def broadcast {T : Type} (n : Nat) (src : List T) : Option (List T) :=
  if src.length = n then some src
  else match src with
    | [v] => some (List.replicate n v)
    | _ => none

/-- `l[a:b] = src`. -/
def assignSlice {T : Type} (a b : Nat) (src l : List T) : Option (List T) := do
  let src ← broadcast (slice a b l).length src
  some (l.take a ++ src ++ l.drop (max a b))

/-- `l[a:b] += src`. -/
def addSlice {T : Type} [Add T] (a b : Nat) (src l : List T) : Option (List T) := do
  let src ← broadcast (slice a b l).length src
  some (l.take a ++ List.zipWith (· + ·) (slice a b l) src ++ l.drop (max a b))

/-- `itertools.accumulate(l, initial=s)`. -/
def accumulate : Nat → List Nat → List Nat
  | s, [] => [s]
  | s, x :: l => s :: accumulate (s + x) l

/-- `zip(l, m, strict=True)`. -/
def zipStrict {α β : Type} (l : List α) (m : List β) : Option (List (α × β)) :=
  if l.length = m.length then some (l.zip m) else none

/-! ## Offsets -/

/-- `_blocks`, la/petsc.py L231-252. -/
def blocks (fs : List Field) : List Nat × List Nat :=
  let owned := accumulate 0 (fs.map Field.own)
  (owned, accumulate (owned.getLastD 0) (fs.map Field.gh))

/-- `zip(off[:-1], off[1:])`. -/
def intervals (off : List Nat) : List (Nat × Nat) := off.dropLast.zip off.tail

/-- `zip(offset0[:-1], offset0[1:], offset1[:-1], offset1[1:])`. -/
def ranges (blk : List Nat × List Nat) : List ((Nat × Nat) × (Nat × Nat)) :=
  (intervals blk.1).zip (intervals blk.2)

/-- `np.concatenate((x[off0:off1], x[offg0:offg1]))`. -/
def gather {T : Type} (x : List T) (o : (Nat × Nat) × (Nat × Nat)) : List T :=
  slice o.1.1 o.1.2 x ++ slice o.2.1 o.2.2 x

/-! ## Vectors: assembly, lifting, boundary conditions -/

/-- Body of the loop L358-372: assemble into a zero array, add the two parts. -/
def assembleStep {T : Type} [Zero T] [Add T] (b : List T)
    (p : (List T → List T) × ((Nat × Nat) × (Nat × Nat))) : Option (List T) := do
  let bx := p.1 (List.replicate ((p.2.1.2 - p.2.1.1) + (p.2.2.2 - p.2.2.1)) 0)
  let size := p.2.1.2 - p.2.1.1
  let b ← addSlice p.2.1.1 p.2.1.2 (bx.take size) b
  addSlice p.2.2.1 p.2.2.2 (bx.drop size) b

/-- `assemble_vector(b, L)` for a block vector, L351-372; `L[i]` adds its element vectors to the
array it is given (`_assemble_vector_array`). -/
def assembleVector {T : Type} [Zero T] [Add T] (L : List (List T → List T)) (blk : List Nat × List Nat)
    (b : List T) : Option (List T) := do
  let items ← zipStrict L (ranges blk)
  items.foldlM assembleStep b

/-- Body of the loop L709-723: copy the field out, lift, copy it back. -/
def liftStep {T : Type} (xlocal : Option (List (List T))) (b : List T)
    (p : (Option (List (List T)) → List T → List T) × ((Nat × Nat) × (Nat × Nat))) : Option (List T) := do
  let bx := p.1 xlocal (gather b p.2)
  let size := p.2.1.2 - p.2.1.1
  let b ← assignSlice p.2.1.1 p.2.1.2 (bx.take size) b
  assignSlice p.2.2.1 p.2.2.2 (bx.drop size) b

/-- `apply_lifting(b, a, bcs, x0)` for a block vector, L693-723; `x0` comes with its own `_blocks`;
`lift[i]` is `_apply_lifting` with the forms `a[i]` and the conditions. -/
def applyLifting {T : Type} (lift : List (Option (List (List T)) → List T → List T))
    (blk : List Nat × List Nat) (x0 : Option (List T × (List Nat × List Nat))) (b : List T) :
    Option (List T) := do
  let xlocal := x0.map fun x => (ranges x.2).map (gather x.1)
  let items ← zipStrict lift (ranges blk)
  items.foldlM (liftStep xlocal) b

/-- Body of the loop L780-782; `bc.set` writes into the view `b_array[off0:off1]`. -/
def setBcStep {T : Type} (x0 : Option (List T)) (b : List T)
    (p : List (List T → Option (List T) → List T) × (Nat × Nat)) : Option (List T) :=
  let x0sub := x0.map (slice p.2.1 p.2.2)
  p.1.foldlM (fun b set => assignSlice p.2.1 p.2.2 (set (slice p.2.1 p.2.2 b) x0sub) b) b

/-- `set_bc(b, bcs, x0)` for a block vector, L762-782.  `getArray` gives the `n` owned entries;
the ghosts are out of reach. -/
def setBc {T : Type} (bcs : List (List (List T → Option (List T) → List T))) (n : Nat)
    (blk : List Nat × List Nat) (x0 : Option (List T)) (b : List T) : Option (List T) :=
  if bcs.length = 0 then some b
  else do
    let items ← zipStrict bcs (intervals blk.1)
    let owned ← items.foldlM (setBcStep (x0.map (List.take n))) (b.take n)
    some (owned ++ b.drop n)

/-! ## Vectors: copying between fields and block vector -/

/-- `data0 + data1`, fem/petsc.py L1803-1809: of each array the first `bs * n` entries, then of each
array the rest. -/
def stackData {T : Type} (us : List (List T × Nat)) : List (List T) :=
  us.map (fun u => u.1.take u.2) ++ us.map (fun u => u.1.drop u.2)

/-- Body of the loop la/petsc.py L190-194. -/
def writeStep {T : Type} (st : List T × Nat) (x0 : List T) : Option (List T × Nat) := do
  let stop := st.2 + x0.length
  let x ← assignSlice st.2 stop x0 st.1
  some (x, stop)

/-- `assign(u, x)` for a block vector, fem/petsc.py L1802-1809, la/petsc.py L187-194. -/
def assignTo {T : Type} (us : List (List T × Nat)) (x : List T) : Option (List T) := do
  let st ← (stackData us).foldlM writeStep (x, 0)
  some st.1

/-- Body of the loop la/petsc.py L222-226: `_x1[:] = _x0.array_r[start:end]`. -/
def readStep {T : Type} (x : List T) (st : List (List T) × Nat) (x1 : List T) :
    Option (List (List T) × Nat) := do
  let stop := st.2 + x1.length
  let y ← assignSlice 0 x1.length (slice st.2 stop x) x1
  some (st.1 ++ [y], stop)

/-- `assign(x, u)` for a block vector, fem/petsc.py L1830-1837, la/petsc.py L219-226.  The pieces
are views of the arrays of the functions, so writing to them changes the functions. -/
def assignFrom {T : Type} (x : List T) (us : List (List T × Nat)) : Option (List (List T)) := do
  let st ← (stackData us).foldlM (readStep x) ([], 0)
  some (List.zipWith (· ++ ·) (st.1.take us.length) (st.1.drop us.length))

/-- `assign(u, x)` for a nest, la/petsc.py L181-185. -/
def assignToNest {T : Type} (us xs : List (List T)) : Option (List (List T)) := do
  let items ← zipStrict us xs
  items.mapM fun p => assignSlice 0 p.2.length p.1 p.2

/-- `assign(x, u)` for a nest, la/petsc.py L213-217. -/
def assignFromNest {T : Type} (xs us : List (List T)) : Option (List (List T)) := do
  let items ← zipStrict xs us
  items.mapM fun p => assignSlice 0 p.2.length p.1 p.2

/-- `std::copy_n(next(x.begin(), at), n, …)`. -/
def copyOut {T : Type} (x : List T) (start n : Nat) : Option (List T) :=
  if start + n ≤ x.length then some (slice start (start + n) x) else none

/-- Body of the loop la/petsc.cpp L190-202. -/
def getStep {T : Type} (x : List T) (st : List (List T) × Nat × Nat) (f : Field) :
    Option (List (List T) × Nat × Nat) := do
  let o ← copyOut x st.2.1 f.own
  let g ← copyOut x st.2.2 f.gh
  some (st.1 ++ [o ++ g], st.2.1 + f.own, st.2.2 + f.gh)

/-- `get_local_vectors`, la/petsc.cpp L163-210. -/
def getLocalVectors {T : Type} (x : List T) (fs : List Field) : Option (List (List T)) := do
  let offsetOwned := fs.foldl (fun n f => n + f.own) 0
  let st ← fs.foldlM (getStep x) ([], 0, offsetOwned)
  some st.1

/-- Copy `src` to position `at`. -/
def copyIn {T : Type} (start : Nat) (src x : List T) : Option (List T) :=
  if start + src.length ≤ x.length then some (x.take start ++ src ++ x.drop (start + src.length)) else none

/-- Body of the loop la/petsc.cpp L240-252. -/
def scatterStep {T : Type} (st : List T × Nat × Nat) (p : List T × Field) : Option (List T × Nat × Nat) := do
  let o ← copyOut p.1 0 p.2.own
  let x ← copyIn st.2.1 o st.1
  let g ← copyOut p.1 p.2.own p.2.gh
  let x ← copyIn st.2.2 g x
  some (x, st.2.1 + p.2.own, st.2.2 + p.2.gh)

/-- `scatter_local_vectors`, la/petsc.cpp L212-258. -/
def scatterLocalVectors {T : Type} (x : List T) (xb : List (List T)) (fs : List Field) : Option (List T) :=
  if xb.length ≠ fs.length then none
  else do
    let offsetOwned := fs.foldl (fun n f => n + f.own) 0
    let st ← (xb.zip fs).foldlM scatterStep (x, 0, offsetOwned)
    some st.1

/-! ## Numbering -/

variable (s : Maps)

/-- Sizes of the fields on rank `r`. -/
def fieldsAt (r : Nat) : List Field :=
  (List.range s.M).map fun m => ⟨s.bs m * (s.w m).size r, s.bs m * ((s.w m).ghosts r).length⟩

/-- Global numbers of the entries of the local form of the vector, fem/petsc.cpp L21-63: the owned
range of the new index map and the concatenated ghosts. -/
def vectorNumbers (r : Nat) : List (Option Nat) :=
  (List.range (s.localOffset r s.M)).map (fun i => some (excl (fun q => s.localOffset q s.M) r + i)) ++
    (List.range s.M).flatMap fun m => s.ghostsNew m r

/-- `_map`: the local-to-global map of the matrix, fem/petsc.h L150-190. -/
def matrixNumbers (r : Nat) : List (Option Nat) :=
  (List.range s.M).flatMap fun f =>
    (List.range (s.bs f * (s.w f).size r)).map (fun i => some (i + s.processOffset r + s.localOffset r f)) ++
      s.ghostsNew f r

/-- Body of the loop of `create_index_sets`, la/petsc.cpp L149-158. -/
def indexSetStep (st : List (List Nat) × Nat) (f : Field) : List (List Nat) × Nat :=
  (st.1 ++ [(List.range (f.own + f.gh)).map (st.2 + ·)], st.2 + (f.own + f.gh))

/-- `create_index_sets`, la/petsc.cpp L143-161. -/
def indexSets (fs : List Field) : List (List Nat) := (fs.foldl indexSetStep ([], 0)).1

/-- Global numbers of the local indices of field `m` in the sub-matrix (`getLocalSubMatrix`). -/
def subNumbers (r m : Nat) : List (Option Nat) :=
  ((indexSets (fieldsAt s r)).getD m []).map fun i => ((matrixNumbers s r)[i]?).join

/-- Local-to-global map of a matrix of field `m` alone (`la::petsc::create_matrix`, la/petsc.cpp
L344-380): block indices `r0 + l` and the ghosts, expanded by the block size. -/
def singleNumbers (r m : Nat) : List (Option Nat) :=
  ((List.range ((s.w m).size r)).map ((s.w m).r0 r + ·) ++ (s.w m).ghosts r).flatMap fun g =>
    (List.range (s.bs m)).map fun k => some (s.bs m * g + k)

/-! ## Matrices -/

/-- An element matrix: rows and columns of the dofmaps and the values row by row. -/
structure Contribution (T : Type) where
  rows : List Nat
  cols : List Nat
  vals : List T

/-- `cache0`, `cache1` of `set_block_expand_fn`, la/petsc.h L392-400. -/
def expand (bs : Nat) (rows : List Nat) : List Nat := rows.flatMap fun i => (List.range bs).map (bs * i + ·)

/-- Row, column and position of the value for every entry of the dense matrix passed to
`MatSetValuesLocal`. -/
def positions (rows cols : List Nat) : List (Nat × Nat × Nat) :=
  rows.zipIdx.flatMap fun p => cols.zipIdx.map fun q => (p.1, q.1, p.2 * cols.length + q.2)

/-- One entry, in global numbers. -/
def entry {T : Type} (num0 num1 : List (Option Nat)) (vals : List T) (t : Nat × Nat × Nat) :
    Option (Nat × Nat × T) := do
  let n0 ← (num0[t.1]?).join
  let n1 ← (num1[t.2.1]?).join
  let v ← vals[t.2.2]?
  some (n0, n1, v)

/-- What `set_block_expand_fn` adds to the matrix, la/petsc.h L387-409. -/
def added {T : Type} (bs0 bs1 : Nat) (num0 num1 : List (Option Nat)) (c : Contribution T) :
    Option (List (Nat × Nat × T)) :=
  (positions (expand bs0 c.rows) (expand bs1 c.cols)).mapM (entry num0 num1 c.vals)

/-- `A(n0, n1) += v`. -/
def addEntry {T : Type} [Add T] (A : Nat → Nat → T) (e : Nat × Nat × T) : Nat → Nat → T :=
  fun a b => if a = e.1 ∧ b = e.2.1 then A a b + e.2.2 else A a b

/-- Assemble the element matrices of one form on one rank. -/
def assembleForm {T : Type} [Add T] (bs0 bs1 : Nat) (num0 num1 : List (Option Nat)) (A : Nat → Nat → T)
    (cs : List (Contribution T)) : Option (Nat → Nat → T) :=
  cs.foldlM (fun A c => do
    let es ← added bs0 bs1 num0 num1 c
    some (es.foldl addEntry A)) A

/-- A block of forms: the two function spaces, the block sizes of their dofmaps, and on each rank
the element matrices. -/
structure BlockForm (T : Type) where
  space0 : Nat
  space1 : Nat
  bs0 : Nat
  bs1 : Nat
  elements : Nat → List (Contribution T)

/-- Indices `(r, i, j)` in the order in which one rank after another assembles its blocks. -/
def blockIndices (P M0 M1 : Nat) : List (Nat × Nat × Nat) :=
  (List.range P).flatMap fun r => (List.range M0).flatMap fun i => (List.range M1).map fun j => (r, i, j)

/-- A boundary condition: its space and on each rank its owned constrained (unrolled) dofs. -/
structure Bc where
  space : Nat
  dofs : Nat → List Nat

/-- The exceptions for a missing diagonal block, fem/petsc.py L566-577: the row has no form, or a
condition is on the test space of its first form. -/
def refused {T : Type} (contains : Nat → Nat → Bool) (a : Nat → Nat → Option (BlockForm T)) (M1 i : Nat) (bc : Bc) : Bool :=
  match (List.range M1).findSome? (a i) with
  | none => true
  | some f => contains f.space0 bc.space

/-- Body of the loop fem/petsc.py L554-577 on rank `r`. -/
def assembleBlock {T : Type} [Add T] (s0 s1 : Maps) (contains : Nat → Nat → Bool) (bcs : List Bc)
    (a : Nat → Nat → Option (BlockForm T)) (A : Nat → Nat → T) (x : Nat × Nat × Nat) : Option (Nat → Nat → T) :=
  match a x.2.1 x.2.2 with
  | none => if x.2.1 = x.2.2 ∧ bcs.any (refused contains a s1.M x.2.1) = true then none else some A
  | some f => assembleForm f.bs0 f.bs1 (subNumbers s0 x.1 x.2.1) (subNumbers s1 x.1 x.2.2) A (f.elements x.1)

/-- A row or column without a form: `extract_function_spaces` gives no space for it, and the index
sets cannot be made (fem/petsc.py L536-551). -/
def hasEmpty {T : Type} (M0 M1 : Nat) (a : Nat → Nat → Option (BlockForm T)) : Bool :=
  (List.range M0).any (fun i => ((List.range M1).findSome? (a i)).isNone) ||
    (List.range M1).any (fun j => ((List.range M0).findSome? (a · j)).isNone)

/-- The first half of `_assemble_matrix_petsc` for a block matrix, fem/petsc.py L529-577.  Rows and
columns of constrained dofs are zeroed in the element matrices (C13). -/
def assembleMatrix {T : Type} [Add T] (s0 s1 : Maps) (contains : Nat → Nat → Bool) (bcs : List Bc)
    (a : Nat → Nat → Option (BlockForm T)) (A : Nat → Nat → T) : Option (Nat → Nat → T) :=
  if hasEmpty s0.M s1.M a then none
  else (blockIndices s0.P s0.M s1.M).foldlM (assembleBlock s0 s1 contains bcs a) A

/-- Assembly of one form into a matrix of its own, L590-596. -/
def assembleSingle {T : Type} [Add T] (s0 s1 : Maps) (i j : Nat) (f : BlockForm T) (A : Nat → Nat → T) :
    Option (Nat → Nat → T) :=
  (List.range s0.P).foldlM (fun A r =>
    assembleForm f.bs0 f.bs1 (singleNumbers s0 r i) (singleNumbers s1 r j) A (f.elements r)) A

/-- Rows that `insert_diagonal` sets in the block of form `f` on rank `r`
(fem/assembler.h L672-686). -/
def diagonalRows {T : Type} (contains : Nat → Nat → Bool) (bcs : List Bc) (f : BlockForm T) (r : Nat) : List Nat :=
  (bcs.filter fun bc => contains f.space0 bc.space).flatMap fun bc => bc.dofs r

/-- `A(n0, n1) = v` for one local row of block `(i, j)`. -/
def setDiagonal {T : Type} (num0 num1 : List (Option Nat)) (diag : T) (A : Nat → Nat → T) (d : Nat) :
    Option (Nat → Nat → T) := do
  let n0 ← (num0[d]?).join
  let n1 ← (num1[d]?).join
  some fun a b => if a = n0 ∧ b = n1 then diag else A a b

/-- Body of the loop fem/petsc.py L584-589 on rank `r`. -/
def diagonalBlock {T : Type} (s0 s1 : Maps) (contains : Nat → Nat → Bool) (bcs : List Bc) (diag : T)
    (a : Nat → Nat → Option (BlockForm T)) (A : Nat → Nat → T) (x : Nat × Nat × Nat) :
    Option (Nat → Nat → T) :=
  match a x.2.1 x.2.2 with
  | none => some A
  | some f =>
    if f.space0 = f.space1 then
      (diagonalRows contains bcs f x.1).foldlM
        (setDiagonal (subNumbers s0 x.1 x.2.1) (subNumbers s1 x.1 x.2.2) diag) A
    else some A

/-- The second half of `_assemble_matrix_petsc`, fem/petsc.py L579-589. -/
def insertDiagonal {T : Type} (s0 s1 : Maps) (contains : Nat → Nat → Bool) (bcs : List Bc) (diag : T)
    (a : Nat → Nat → Option (BlockForm T)) (A : Nat → Nat → T) : Option (Nat → Nat → T) :=
  (blockIndices s0.P s0.M s1.M).foldlM (diagonalBlock s0 s1 contains bcs diag a) A

end Verif.BlockSystem
