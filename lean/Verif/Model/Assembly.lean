import Verif.Model.CsrInsert
import Verif.Model.SparsityPattern
import Mathlib.Algebra.Ring.Defs
/-!
# Assembly of matrices and vectors, Dirichlet conditions

Model of the assembly loops of one rank in `cpp/dolfinx/fem/assemble_matrix_impl.h`,
`assemble_vector_impl.h`, `assembler.h`, of `fem::DirichletBC` (`DirichletBC.h`) and of the
sparsity pattern building in `fem/utils.h` and `fem/sparsitybuild.cpp`.

* The kernel together with the transformations `P0` and `P1T`, the geometry, coefficients, constants and
  permutation data is an arbitrary function `tensor`: the numbers in the element tensor after the
  transformations, for each position in the list of integration entities.
* Scalars are elements of a commutative ring: no rounding.
* Buffers are functions from positions to scalars.  An exception is `none`.
-/
namespace Verif.Assembly

/-- `enum class IntegralType`, `fem/Form.h` L39-46. -/
inductive IType where
  | cell | exteriorFacet | interiorFacet | vertex | ridge
deriving DecidableEq, Repr

/-- `DofMap` as used in assembly: block size, `map().extent(1)` and `cell_dofs`. -/
structure Dofmap where
  bs : Nat
  width : Nat
  dofs : Nat → List Nat

/-- One integral: `domain_arg` for the test and the trial function and the element tensors. -/
structure Integral (R : Type) where
  dom0 : List Int
  dom1 : List Int
  tensor : Nat → Nat → R

/-- `Form`: number of cell types of the mesh and the integrals for each (type, kernel index).
`num_integrals` is the length of the list (`fem/Form.h` L450-458). -/
structure Form (R : Type) where
  numTypes : Nat
  ints : IType → Nat → List (Integral R)

variable {R : Type} [CommRing R]

/-! ## Element matrices -/

/-- `has_bc`, `assemble_matrix_impl.h` L27-34. -/
def hasBc (dofs : List Nat) (bc : List Bool) (bs : Nat) : Bool :=
  dofs.any fun dof => (List.range bs).any fun k => bc.getD (bs * dof + k) false

/-- `std::fill_n(A + start, n, 0)`. -/
def fillZero (A : Nat → R) (start n : Nat) : Nat → R :=
  fun p => if start ≤ p ∧ p < start + n then 0 else A p

/-- Rows of constrained test dofs, L161-175, L338-352 and L617-631. -/
def zeroRows (bs ncols : Nat) (bc : List Bool) (dofs : List Nat) (A : Nat → R) : Nat → R :=
  dofs.zipIdx.foldl (fun A x => (List.range bs).foldl (fun A k =>
    if bc.getD (bs * x.1 + k) false then fillZero A (ncols * (bs * x.2 + k)) ncols else A) A) A

/-- Columns of constrained trial dofs, L177-192, L354-369 and L633-647. -/
def zeroCols (bs nrows ncols : Nat) (bc : List Bool) (dofs : List Nat) (A : Nat → R) : Nat → R :=
  dofs.zipIdx.foldl (fun A x => (List.range bs).foldl (fun A k =>
    if bc.getD (bs * x.1 + k) false then
      (List.range nrows).foldl (fun A row => fillZero A (row * ncols + (bs * x.2 + k)) 1) A
    else A) A) A

/-- "Zero rows and columns for BCs", L158-193, L335-370 and L614-648. -/
def zeroBc (bs0 bs1 : Nat) (bc0 bc1 : List Bool) (dofs0 dofs1 : List Nat) (A : Nat → R) : Nat → R :=
  let A := if bc0.isEmpty then A else zeroRows bs0 (bs1 * dofs1.length) bc0 dofs0 A
  if bc1.isEmpty then A else zeroCols bs1 (bs0 * dofs0.length) (bs1 * dofs1.length) bc1 dofs1 A

/-- `mat_set`: changes a state by a dense block for row and column dofs. -/
abbrev MatSet (σ R : Type) := σ → List Nat → List Nat → (Nat → R) → σ

variable {σ : Type}

/-- Body of the loops over cells and entities, L130-196 and L303-373. -/
def element (ms : MatSet σ R) (lifting : Bool) (dm0 dm1 : Dofmap) (bc0 bc1 : List Bool)
    (cell0 cell1 : Int) (A : Nat → R) (s : σ) : σ :=
  let dofs0 := dm0.dofs cell0.toNat
  let dofs1 := dm1.dofs cell1.toNat
  if lifting && !hasBc dofs1 bc1 dm1.bs then s
  else ms s dofs0 dofs1 (if lifting then A else zeroBc dm0.bs dm1.bs bc0 bc1 dofs0 dofs1 A)

/-- `assemble_cells_matrix`, L92-198. -/
def assembleCells (ms : MatSet σ R) (lifting : Bool) (dm0 dm1 : Dofmap) (bc0 bc1 : List Bool)
    (I : Integral R) (s : σ) : σ :=
  (List.range I.dom0.length).foldl (fun s c =>
    element ms lifting dm0 dm1 bc0 bc1 (I.dom0.getD c 0) (I.dom1.getD c 0) (I.tensor c) s) s

/-- `assemble_entities`, L264-375: the lists hold pairs (cell, local entity). -/
def assembleEntities (ms : MatSet σ R) (lifting : Bool) (dm0 dm1 : Dofmap) (bc0 bc1 : List Bool)
    (I : Integral R) (s : σ) : σ :=
  (List.range (I.dom0.length / 2)).foldl (fun s f =>
    element ms lifting dm0 dm1 bc0 bc1 (I.dom0.getD (2 * f) 0) (I.dom1.getD (2 * f) 0) (I.tensor f) s) s

/-- `std::ranges::copy(l, buf.begin() + pos)`. -/
def copyAt (buf : List Nat) (pos : Nat) (l : List Nat) : List Nat :=
  l.zipIdx.foldl (fun b x => b.set (pos + x.2) x.1) buf

/-- `cells[i] >= 0 ? dmap.cell_dofs(cells[i]) : span()`, L539-560. -/
def cellDofs (dm : Dofmap) (c : Int) : List Nat := if 0 ≤ c then dm.dofs c.toNat else []

/-- `insert_block`, L494-510. -/
def insertBlock (ms : MatSet σ R) (bs0 bs1 ncols : Nat) (A : Nat → R) (rdofs cdofs : List Nat)
    (rowOff colOff : Nat) (s : σ) : σ :=
  if rdofs.isEmpty || cdofs.isEmpty then s
  else
    let n := cdofs.length * bs1
    ms s rdofs cdofs fun p => A ((rowOff + p / n) * ncols + colOff + p % n)

/-- Body of the loop over interior facets, L512-668.  The buffers `dmapjoint0`, `dmapjoint1` keep
the dofs of an earlier facet where a cell does not exist. -/
def interiorStep (ms : MatSet σ R) (lifting : Bool) (dm0 dm1 : Dofmap) (bc0 bc1 : List Bool)
    (I : Integral R) (st : σ × List Nat × List Nat) (f : Nat) : σ × List Nat × List Nat :=
  let c00 := I.dom0.getD (4 * f) 0
  let c01 := I.dom0.getD (4 * f + 2) 0
  let c10 := I.dom1.getD (4 * f) 0
  let c11 := I.dom1.getD (4 * f + 2) 0
  let d00 := cellDofs dm0 c00
  let d01 := cellDofs dm0 c01
  let d10 := cellDofs dm1 c10
  let d11 := cellDofs dm1 c11
  let j0 := copyAt (copyAt st.2.1 0 d00) dm0.width d01
  let j1 := copyAt (copyAt st.2.2 0 d10) dm1.width d11
  if lifting && !hasBc j1 bc1 dm1.bs then (st.1, j0, j1)
  else
    let A := if lifting then I.tensor f else zeroBc dm0.bs dm1.bs bc0 bc1 j0 j1 (I.tensor f)
    let ncols := dm1.bs * 2 * dm1.width
    if 0 ≤ c00 ∧ 0 ≤ c01 ∧ 0 ≤ c10 ∧ 0 ≤ c11 then (ms st.1 j0 j1 A, j0, j1)
    else
      let s := insertBlock ms dm0.bs dm1.bs ncols A d00 d10 0 0 st.1
      let s := insertBlock ms dm0.bs dm1.bs ncols A d00 d11 0 (dm1.bs * dm1.width) s
      let s := insertBlock ms dm0.bs dm1.bs ncols A d01 d10 (dm0.bs * dm0.width) 0 s
      let s := insertBlock ms dm0.bs dm1.bs ncols A d01 d11 (dm0.bs * dm0.width) (dm1.bs * dm1.width) s
      (s, j0, j1)

/-- `assemble_interior_facets`, L442-669; the buffers belong to the caller. -/
def assembleInterior (ms : MatSet σ R) (lifting : Bool) (dm0 dm1 : Dofmap) (bc0 bc1 : List Bool)
    (I : Integral R) (st : σ × List Nat × List Nat) : σ × List Nat × List Nat :=
  (List.range (I.dom0.length / 4)).foldl (interiorStep ms lifting dm0 dm1 bc0 bc1 I) st

/-- The other integral types in the order of the loop, L842. -/
def otherTypes : List IType := [.exteriorFacet, .vertex, .ridge]

/-- One cell type of `assemble_matrix`, L729-882.  `none`: exception for facet, vertex or ridge integrals on a
mesh with several cell types. -/
def assembleType (ms : MatSet σ R) (lifting : Bool) (F : Form R) (dm0 dm1 : Nat → Dofmap)
    (bc0 bc1 : List Bool) (s : σ) (t : Nat) : Option σ :=
  let s := (F.ints .cell t).foldl (fun s I => assembleCells ms lifting (dm0 t) (dm1 t) bc0 bc1 I s) s
  if 1 < F.numTypes ∧ F.ints .interiorFacet t ≠ [] then none
  else
    let s := ((F.ints .interiorFacet t).foldl
      (fun st I => assembleInterior ms lifting (dm0 t) (dm1 t) bc0 bc1 I st)
      (s, List.replicate (2 * (dm0 t).width) 0, List.replicate (2 * (dm1 t).width) 0)).1
    if 1 < F.numTypes ∧ ∃ ty ∈ otherTypes, F.ints ty t ≠ [] then none
    else some (otherTypes.foldl (fun s ty =>
      (F.ints ty t).foldl (fun s I => assembleEntities ms lifting (dm0 t) (dm1 t) bc0 bc1 I s) s) s)

/-- `impl::assemble_matrix`, L697-884. -/
def assembleMatrix (ms : MatSet σ R) (lifting : Bool) (F : Form R) (dm0 dm1 : Nat → Dofmap)
    (bc0 bc1 : List Bool) (s : σ) : Option σ :=
  (List.range F.numTypes).foldlM (assembleType ms lifting F dm0 dm1 bc0 bc1) s

/-! ## Sparsity pattern -/

/-- `extract_cells` in `build_sparsity_pattern`, `fem/utils.h` L249-257. -/
def extractCells (facets : List Int) : List Int :=
  (List.range (facets.length / 2)).map fun i => facets.getD (2 * i) 0

/-- Row and column dofs of the insertions made by `sparsitybuild::cells` (`sparsitybuild.h` L36-50). -/
def patternCells (dm0 dm1 : Dofmap) (cells0 cells1 : List Int) : List (List Nat × List Nat) :=
  (cells0.zip cells1).map fun x => (dm0.dofs x.1.toNat, dm1.dofs x.2.toNat)

/-- Insertions of `sparsitybuild::interior_facets` (`sparsitybuild.cpp` L15-54). -/
def patternInterior (dm0 dm1 : Dofmap) (cells0 cells1 : List Int) : List (List Nat × List Nat) :=
  (List.range (cells0.length / 2)).flatMap fun f =>
    let dofs00 := cellDofs dm0 (cells0.getD (2 * f) 0)
    let dofs01 := cellDofs dm0 (cells0.getD (2 * f + 1) 0)
    let dofs10 := cellDofs dm1 (cells1.getD (2 * f) 0)
    let dofs11 := cellDofs dm1 (cells1.getD (2 * f + 1) 0)
    [(dofs00, dofs10), (dofs00, dofs11), (dofs01, dofs10), (dofs01, dofs11)]

/-- Insertions of `build_sparsity_pattern` for one integral, `fem/utils.h` L273-303. -/
def patternIntegral (ty : IType) (dm0 dm1 : Dofmap) (I : Integral R) : List (List Nat × List Nat) :=
  match ty with
  | .cell => patternCells dm0 dm1 I.dom0 I.dom1
  | .interiorFacet => patternInterior dm0 dm1 (extractCells I.dom0) (extractCells I.dom1)
  | _ => patternCells dm0 dm1 (extractCells I.dom0) (extractCells I.dom1)

/-- `std::set<IntegralType>` in increasing order, `fem/Form.h` L400-406. -/
def allTypes : List IType := [.cell, .exteriorFacet, .interiorFacet, .vertex, .ridge]

/-- Insertions of `build_sparsity_pattern`, `fem/utils.h` L221-314.  The domains of facet, vertex and ridge
integrals are those of kernel index 0. -/
def patternCalls (F : Form R) (dm0 dm1 : Nat → Dofmap) : List (List Nat × List Nat) :=
  (List.range F.numTypes).flatMap fun t => allTypes.flatMap fun ty =>
    (List.range (F.ints ty t).length).flatMap fun i =>
      match (F.ints ty (if ty = .cell then t else 0))[i]? with
      | none => []
      | some I => patternIntegral ty (dm0 t) (dm1 t) I

/-- `create_sparsity_pattern` followed by `build_sparsity_pattern`, `fem/utils.h` L197-314, before `finalize`. -/
def buildPattern (F : Form R) (dm0 dm1 : Nat → Dofmap) : Except SP.Err SP.Pattern :=
  (patternCalls F dm0 dm1).foldlM (fun p x => SP.insert p x.1 x.2) SP.new

/-! ## Vectors -/

/-- `b[dof + k] += be[offset + k]` for all dofs of a cell; `off` is the number of the first entry's dof in
`be` (`assemble_vector_impl.h` L113-117, L203-211, L322-336). -/
def addBlock (bs : Nat) (dofs : List Nat) (off : Nat) (be : Nat → R) (b : Nat → R) : Nat → R :=
  dofs.zipIdx.foldl (fun b x => (List.range bs).foldl (fun b k =>
    fun p => if p = bs * x.1 + k then b p + be (bs * (x.2 + off) + k) else b p) b) b

/-- `assemble_cells`, `assemble_vector_impl.h` L75-119. -/
def vectorCells (dm : Dofmap) (I : Integral R) (b : Nat → R) : Nat → R :=
  (List.range I.dom0.length).foldl (fun b c =>
    addBlock dm.bs (dm.dofs (I.dom0.getD c 0).toNat) 0 (I.tensor c) b) b

/-- `assemble_entities`, L160-213. -/
def vectorEntities (dm : Dofmap) (I : Integral R) (b : Nat → R) : Nat → R :=
  (List.range (I.dom0.length / 2)).foldl (fun b f =>
    addBlock dm.bs (dm.dofs (I.dom0.getD (2 * f) 0).toNat) 0 (I.tensor f) b) b

/-- `assemble_interior_facets`, L252-339. -/
def vectorInterior (dm : Dofmap) (I : Integral R) (b : Nat → R) : Nat → R :=
  (List.range (I.dom0.length / 4)).foldl (fun b f =>
    addBlock dm.bs (cellDofs dm (I.dom0.getD (4 * f + 2) 0)) dm.width (I.tensor f)
      (addBlock dm.bs (cellDofs dm (I.dom0.getD (4 * f) 0)) 0 (I.tensor f) b)) b

/-- One cell type of `assemble_vector`, L440-619.  The number of integrals is that of kernel index 0 for every
cell type; `none`: "Requested domain not found" (`fem/Form.h` L492-499). -/
def vectorType (L : Form R) (dm : Nat → Dofmap) (b : Nat → R) (t : Nat) : Option (Nat → R) :=
  ((List.range (L.ints .cell 0).length).foldlM
    (fun b i => ((L.ints .cell t)[i]?).map fun I => vectorCells (dm t) I b) b).map fun b =>
    otherTypes.foldl (fun b ty => (L.ints ty 0).foldl (fun b I => vectorEntities (dm t) I b) b)
      ((L.ints .interiorFacet 0).foldl (fun b I => vectorInterior (dm t) I b) b)

/-- `impl::assemble_vector`, L427-621. -/
def assembleVector (L : Form R) (dm : Nat → Dofmap) (b : Nat → R) : Option (Nat → R) :=
  (List.range L.numTypes).foldlM (vectorType L dm) b

/-! ## Lifting -/

/-- `lifting_fn`, `assemble_vector_impl.h` L377-402. -/
def liftFn (bs0 bs1 : Nat) (alpha : R) (values : Nat → R) (markers : List Bool) (x0 : Nat → R) :
    MatSet (Nat → R) R := fun b rows cols A =>
  let nc := cols.length * bs1
  cols.zipIdx.foldl (fun b x => (List.range bs1).foldl (fun b k =>
    let ii := x.1 * bs1 + k
    if markers.getD ii false then
      rows.zipIdx.foldl (fun b y => (List.range bs0).foldl (fun b m =>
        fun p => if p = y.1 * bs0 + m then
          b p - A ((y.2 * bs0 + m) * nc + (x.2 * bs1 + k)) * alpha * (values ii - x0 ii) else b p) b) b
    else b) b) b

/-- `lift_bc`, L363-414. -/
def liftBc (F : Form R) (dm0 dm1 : Nat → Dofmap) (alpha : R) (values : Nat → R) (markers : List Bool)
    (x0 : Nat → R) (b : Nat → R) : Option (Nat → R) :=
  assembleMatrix (liftFn (dm0 0).bs (dm1 0).bs alpha values markers x0) true F dm0 dm1 [] markers b

/-! ## Dirichlet conditions -/

/-- Value held by a condition: a function in the same space, a function in another space with its dofs
`_dofs1_g`, or a constant (one value per component of a block of size `bs`). -/
inductive Value (R : Type) where
  | func (values : Nat → R)
  | sub (values : Nat → R) (dofs : List Nat)
  | const (bs : Nat) (value : Nat → R)

/-- `DirichletBC`: unrolled dofs `_dofs0` and the value. -/
structure BC (R : Type) where
  dofs : List Nat
  value : Value R

/-- `unroll_dofs`, `DirichletBC.h` L273-281. -/
def unrollDofs (dofs : List Nat) (bs : Nat) : List Nat :=
  dofs.flatMap fun d => (List.range bs).map fun k => bs * d + k

/-- `num_owned`, L262-270. -/
def numOwned (bs size : Nat) (dofs : List Nat) : Nat :=
  Verif.Std.lowerBound (fun d => decide (d < bs * size)) dofs

/-- The boundary value for position `i`, L528-575: `values[dofs_g[i]]` or `value[dof % bs]`.  An empty `_dofs1_g`
stands for the dofs of the condition itself. -/
def BC.at (c : BC R) (i : Nat) : R :=
  match c.value with
  | .func v => v (c.dofs.getD i 0)
  | .sub v d => v ((if d.isEmpty then c.dofs else d).getD i 0)
  | .const bs v => v (c.dofs.getD i 0 % bs)

/-- `set`, L495-584; `n` is `x.size()`. -/
def BC.set [DecidableEq R] (c : BC R) (n : Nat) (x : Nat → R) (x0 : Option (Nat → R)) (alpha : R) : Nat → R :=
  (List.range c.dofs.length).foldl (fun x i =>
    if c.dofs.getD i 0 < n then
      fun p => if p = c.dofs.getD i 0 then
        (if alpha = 0 then 0 else
          match x0 with
          | some y => alpha * (c.at i - y (c.dofs.getD i 0))
          | none => alpha * c.at i)
      else x p
    else x) x

/-- `mark_dofs`, L589-602. -/
def BC.markDofs (c : BC R) (markers : List Bool) : List Bool :=
  c.dofs.foldl (fun m d => m.set d true) markers

/-- Markers built in `assemble_matrix`, `assembler.h` L563-577: empty when no condition applies to the
space.  The flag tells whether the space contains the space of the condition. -/
def matrixMarkers (dim : Nat) (bcs : List (BC R × Bool)) : List Bool :=
  bcs.foldl (fun m c => if c.2 then c.1.markDofs (m ++ List.replicate (dim - m.length) false) else m) []

/-- One block of `apply_lifting`, `assembler.h` L378-421: markers and values of the conditions on the trial space
of size `dim`, then `lift_bc`. -/
def applyLifting1 [DecidableEq R] (F : Form R) (dm0 dm1 : Nat → Dofmap) (dim : Nat) (bcs : List (BC R)) (x0 : Option (Nat → R))
    (alpha : R) (b : Nat → R) : Option (Nat → R) :=
  if bcs.isEmpty then some b
  else
    let markers := bcs.foldl (fun m c => c.markDofs m) (List.replicate dim false)
    let values := bcs.foldl (fun v c => c.set dim v none 1) (fun _ => 0)
    liftBc F dm0 dm1 alpha values markers (x0.getD fun _ => 0) b

/-- A bilinear form with the data of its trial space that `apply_lifting` reads. -/
structure Block (R : Type) where
  form : Form R
  dm1 : Nat → Dofmap
  dim : Nat

/-- `apply_lifting`, `assembler.h` L341-425.  `none`: an exception. -/
def applyLifting [DecidableEq R] (a : List (Option (Block R))) (dm0 : Nat → Dofmap) (bcs1 : List (List (BC R)))
    (x0 : List (Nat → R)) (alpha : R) (b : Nat → R) : Option (Nat → R) :=
  if a.all Option.isNone then some b
  else if x0 ≠ [] ∧ x0.length ≠ a.length then none
  else if a.length ≠ bcs1.length then none
  else (List.range a.length).foldlM (fun b j =>
    match (a[j]?).join with
    | none => some b
    | some B => applyLifting1 B.form dm0 B.dm1 B.dim (bcs1.getD j []) (x0[j]?) alpha b) b

/-! ## `MatrixCSR` as target -/

/-- Matrix data and whether all calls so far returned normally. -/
abbrev MatState (R : Type) := (Nat → R) × Bool

/-- `mat_add_values<BS0, BS1>` / `mat_set_values<BS0, BS1>` (`la/MatrixCSR.h` L116-174); after an exception
nothing more is executed. -/
def matInsert (op : R → R → R) (P : Csr.Pattern) (b0 b1 B0 B1 : Nat) : MatSet (MatState R) R :=
  fun s rows cols A =>
    if s.2 then
      match Csr.dispatch P b0 b1 B0 B1 A rows cols with
      | some es => Csr.run op s.1 es
      | none => (s.1, false)
    else s

/-- `set_diagonal` for rows, `assembler.h` L645-653. -/
def setDiagonal (ms : MatSet σ R) (rows : List Nat) (diag : R) (s : σ) : σ :=
  rows.foldl (fun s d => ms s [d] [d] fun _ => diag) s

/-- `set_diagonal` for the owned dofs of the conditions, `assembler.h` L672-686. -/
def setDiagonalBcs (ms : MatSet σ R) (bs size : Nat) (bcs : List (BC R × Bool)) (diag : R) (s : σ) : σ :=
  bcs.foldl (fun s c => if c.2 then setDiagonal ms (c.1.dofs.take (numOwned bs size c.1.dofs)) diag s else s) s

/-- Python `_assemble_matrix_csr` (`python/dolfinx/fem/assemble.py` L324-372): `assemble_matrix` with `mat_add_values`
(`assembler.h` L546-605), then `insert_diagonal` with `mat_set_values<1, 1>` when test and trial space are the
same object.  The second component is `false` if an exception was raised. -/
def assembleCsr (P : Csr.Pattern) (bs0 bs1 : Nat) (F : Form R) (dm0 dm1 : Nat → Dofmap) (dim0 dim1 size0 : Nat)
    (bcs0 bcs1 : List (BC R × Bool)) (same : Bool) (diag : R) (data : Nat → R) : MatState R :=
  match assembleMatrix (matInsert (· + ·) P bs0 bs1 bs0 bs1) false F dm0 dm1 (matrixMarkers dim0 bcs0)
      (matrixMarkers dim1 bcs1) (data, true) with
  | none => (data, false)
  | some s => if same then setDiagonalBcs (matInsert Csr.setOp P bs0 bs1 1 1) bs0 size0 bcs0 diag s else s

end Verif.Assembly
