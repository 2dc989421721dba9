import Mathlib.Algebra.Ring.Defs
/-!
# Interpolation and evaluation of functions

`cpp/dolfinx/fem/interpolate.h` L42-107, L306-910, L985-1085, L1137-1205, L1297-1414, `Function::interpolate` and `Function::eval` (`cpp/dolfinx/fem/Function.h` L163-216,
L318-394, L469-741), `_compute_block_size`, the constructors, `operator==` and `create_interpolation_operator` (`cpp/dolfinx/fem/FiniteElement.cpp` L85-107, L112-160,
L265-274, L494-536).

Simplifications: one cell type; exact arithmetic in a ring; working arrays of a cell, whose sizes are fixed by the element, are functions of their indices, with the assertions
of the code on their sizes as tests; the dof transformations of Basix and the maps between reference and physical cell at a point (with Jacobians computed from the mesh) are any
functions.  Arrays of values and coefficients are lists.  `none` is an exception, a failed assertion or an access outside of such a list.
-/
namespace Verif.Interp

variable {T : Type} [CommRing T]

/-- A `FiniteElement` on the cells of a mesh.  `bs`: block size.  `dim`: dimension of the scalar element.  `vs`, `rvs`: value size and reference value size.  `npts`: number of
interpolation points.  `basix`: the Basix element.  `mapType`: 0 for the identity.  `piCols` and `Pi`: interpolation matrix.  `trans`, `transT`, `invTransT`: dof transformations
(standard, transpose, inverse transpose) of the scalar element on a cell.  `pull`: values of the function at interpolation point `p` of a cell pulled back. -/
structure Elem (T : Type) where
  bs : Nat
  dim : Nat
  vs : Nat
  rvs : Nat
  npts : Nat
  valueShape : List Nat
  symmetric : Bool
  numSub : Nat
  id : Nat
  basix : Option Nat
  mapType : Nat
  interpIdent : Bool
  piCols : Nat
  Pi : Nat → Nat → T
  trans : Nat → (Nat → T) → Nat → T
  transT : Nat → (Nat → T) → Nat → T
  invTransT : Nat → (Nat → T) → Nat → T
  pull : Nat → Nat → (Nat → T) → Nat → T

/-- `map_ident`, FiniteElement.cpp L422-434. -/
def Elem.mapIdent (e : Elem T) : Bool := e.mapType == 0

/-- A `DofMap`: `bs` and `cell_dofs`. -/
structure DMap where
  bs : Nat
  dofs : List (List Nat)

/-- `_compute_block_size`, FiniteElement.cpp L85-107. -/
def blockSize (valueShape : Option (List Nat)) (symmetric : Bool) : Option Nat :=
  match valueShape with
  | none => some 1
  | some s =>
    if symmetric then
      if s.length ≠ 2 ∨ s.headD 0 ≠ s.getLastD 0 then none else some (s.headD 0 * (s.headD 0 + 1) / 2)
    else some (s.foldl (· * ·) 1)

/-! ## Arrays -/

/-- `u[i] = y`. -/
def setAt (u : List T) (i : Nat) (y : T) : Option (List T) := if i < u.length then some (u.set i y) else none

/-- `u[i] += y`. -/
def addAt (u : List T) (i : Nat) (y : T) : Option (List T) :=
  match u[i]? with
  | some x => some (u.set i (x + y))
  | none => none

/-- `std::copy_n` from position `s`. -/
def copySeg (f : List T) (s n : Nat) : Option (List T) := if s + n ≤ f.length then some ((f.drop s).take n) else none

/-- `acc += g(i)` for `i` in a range. -/
def sumTo (n : Nat) (g : Nat → T) (acc : T := 0) : T := (List.range n).foldl (fun a i => a + g i) acc

/-- A transformation of data of shape `(dim, bs)` by columns, FiniteElement.h L462-475. -/
def blocked (bs : Nat) (t : (Nat → T) → Nat → T) (v : Nat → T) : Nat → T := fun q => t (fun i => v (bs * i + q % bs)) (q / bs)

/-- `interpolation_apply`, interpolate.h L306-346, into an array of size `n`. -/
def interpolationApply (e : Elem T) (ext0 ext1 : Nat) (data : Nat → Nat → T) (bs n : Nat) : Option (Nat → T) :=
  if bs = 1 then
    if ext0 * ext1 = e.piCols ∧ e.dim ≤ n then
      some fun i => (List.range ext1).foldl (fun acc k => sumTo ext0 (fun j => e.Pi i (k * ext0 + j) * data j k) acc) 0
    else none
  else if ext0 = e.piCols ∧ ext1 = bs ∧ bs * e.dim ≤ n then
    some fun q => sumTo e.piCols fun j => e.Pi (q / bs) j * data j (q % bs)
  else none

/-! ## Writing the dofs of a cell -/

/-- Copy of a block of coefficients, interpolate.h L786-799 and elsewhere. -/
def writeBlock (e : Elem T) (dm : DMap) (dofs : List Nat) (k : Nat) (co : Nat → T) (u : List T) : Option (List T) :=
  (List.range e.dim).foldlM (fun u i =>
    if dm.bs = e.bs then (dofs[i]?).bind fun d => setAt u (dm.bs * d + k) (co i)
    else (dofs[(i * e.bs + k) / dm.bs]?).bind fun d => setAt u (dm.bs * d + (i * e.bs + k) % dm.bs) (co i)) u

/-- Copy of all coefficients of a cell, interpolate.h L443-446 and L696-699. -/
def writeCell (dm : DMap) (dofs : List Nat) (co : Nat → T) (u : List T) : Option (List T) :=
  dofs.zipIdx.foldlM (fun u (d : Nat × Nat) => (List.range dm.bs).foldlM (fun u k => setAt u (dm.bs * d.1 + k) (co (dm.bs * d.2 + k))) u) u

/-- Local coefficients, interpolate.h L427-430 and L651-655: `local[bs * i + k] = array[bs * dofs[i] + k]`. -/
def readCell (dm : DMap) (dofs : List Nat) (u : List T) : Option (List T) :=
  (dofs.flatMap fun d => (List.range dm.bs).map fun k => dm.bs * d + k).mapM fun j => u[j]?

/-! ## Interpolation of values -/

/-- One step of `row` and `rowstart`, interpolate.h L758-762 and Function.h L708-712. -/
def rowStep (s : Nat × Nat) (k : Nat) : Nat × Nat := if s.1 < k - s.2 then (s.1 + 1, k) else s

/-- `row` and `rowstart` for block `k`. -/
def rowOf (k : Nat) : Nat × Nat := (List.range (k + 1)).foldl rowStep (0, 0)

/-- `matrix_size`, interpolate.h L738-740. -/
def matrixSize (n : Nat) : Nat := ((List.range (n + 1)).find? fun m => decide (n ≤ m * m)).getD 0

/-- The row of `f` for block `k` in `point_evaluation`, interpolate.h L764-771, L806-812. -/
def pointRow (e : Elem T) (fshape0 k : Nat) : Nat :=
  if e.symmetric then (rowOf k).1 * matrixSize fshape0 + k - (rowOf k).2 else k

/-- `point_evaluation`, interpolate.h L714-832. -/
def pointEvaluation (e : Elem T) (dm : DMap) (cells : List Nat) (f : List T) (fshape0 fshape1 : Nat) (u : List T) : Option (List T) :=
  cells.zipIdx.foldlM (fun u (c : Nat × Nat) => (dm.dofs[c.1]?).bind fun dofs =>
    (List.range e.bs).foldlM (fun u k => (copySeg f (pointRow e fshape0 k * fshape1 + c.2 * e.dim) e.dim).bind fun seg =>
      writeBlock e dm dofs k (e.invTransT c.1 fun i => seg.getD i 0) u) u) u

/-- `identity_mapped_evaluation`, interpolate.h L845-917. -/
def identityMapped (e : Elem T) (dm : DMap) (cells : List Nat) (f : List T) (fshape1 : Nat) (u : List T) : Option (List T) :=
  if e.symmetric then none
  else if 1 < e.rvs ∧ 1 < e.bs then none
  else cells.zipIdx.foldlM (fun u (c : Nat × Nat) => (dm.dofs[c.1]?).bind fun dofs =>
    (List.range e.bs).foldlM (fun u k =>
      ((List.range e.rvs).mapM fun i => copySeg f ((i + k) * fshape1 + c.2 * e.piCols / e.rvs) (e.piCols / e.rvs)).bind fun segs =>
      (interpolationApply e e.piCols 1 (fun j _ => segs.flatten.getD j 0) 1 e.dim).bind fun co =>
      writeBlock e dm dofs k (e.invTransT c.1 co) u) u) u

/-- `piola_mapped_evaluation`, interpolate.h L931-1085. -/
def piolaMapped (e : Elem T) (dm : DMap) (cells : List Nat) (f : List T) (fshape1 : Nat) (u : List T) : Option (List T) :=
  if e.symmetric ∨ e.npts = 0 ∨ fshape1 ≠ cells.length * e.npts then none
  else cells.zipIdx.foldlM (fun u (c : Nat × Nat) => (dm.dofs[c.1]?).bind fun dofs =>
    (List.range e.bs).foldlM (fun u k =>
      ((List.range e.rvs).mapM fun m => copySeg f (fshape1 * (k * e.rvs + m) + c.2 * e.npts) e.npts).bind fun vals =>
      (interpolationApply e e.npts e.rvs (fun p m => e.pull c.1 p (fun m' => (vals.getD m' []).getD p 0) m) e.bs e.dim).bind fun co =>
      writeBlock e dm dofs k (e.invTransT c.1 co) u) u) u

/-- `interpolate` of evaluated data, interpolate.h L1137-1205. -/
def interpolateData (e : Elem T) (dm : DMap) (cells : List Nat) (f : List T) (fshape0 fshape1 : Nat) (u : List T) : Option (List T) :=
  if 0 < e.numSub ∧ e.numSub ≠ e.bs then none
  else if fshape0 ≠ e.vs ∨ f.length ≠ fshape0 * fshape1 then none
  else if e.mapIdent ∧ e.interpIdent then pointEvaluation e dm cells f fshape0 fshape1 u
  else if e.mapIdent then identityMapped e dm cells f fshape1 u
  else piolaMapped e dm cells f fshape1 u

/-- `interpolation_coords`, interpolate.h L42-107: `phi p k` is the coordinate basis at the points, `x` the coordinates of the nodes of the cells. -/
def interpolationCoords (gdim npts ndofs : Nat) (phi : Nat → Nat → T) (xdofs : List (List Nat)) (xg : List (List T)) (cells : List Nat) : Option (List T) :=
  cells.zipIdx.foldlM (fun x (c : Nat × Nat) => (xdofs[c.1]?).bind fun nodes => (nodes.mapM fun n => xg[n]?).bind fun co =>
    (List.range npts).foldlM (fun x p => (List.range gdim).foldlM (fun x j =>
      setAt x (j * (cells.length * npts) + c.2 * npts + p) (sumTo ndofs fun k => phi p k * (co.getD k []).getD j 0)) x) x)
    (List.replicate (3 * (cells.length * npts)) 0)

/-- `Function::interpolate` of a callable, Function.h L163-216: `fx` and `fshape` are what the callable returned, `N` the number of points. -/
def interpolateCallable (e : Elem T) (dm : DMap) (cells : List Nat) (fx : List T) (fshape : List Nat) (u : List T) : Option (List T) :=
  let N := cells.length * e.npts
  if e.vs = 1 ∧ fshape.length = 1 then
    if fshape.headD 0 ≠ N then none else interpolateData e dm cells fx 1 (fshape.headD 0) u
  else if fshape.length ≠ 2 then none
  else if fshape.headD 0 ≠ e.vs then none
  else if fshape.getLastD 0 ≠ N then none
  else interpolateData e dm cells fx (fshape.headD 0) (fshape.getLastD 0) u

/-- Reordering of the values of an expression, Function.h L374-390: `f1(k, i, j) = f(i, j, k)`. -/
def transposeExpr (nc np vs : Nat) (f : List T) : Option (List T) :=
  (List.range (vs * (nc * np))).mapM fun q => f[q % (nc * np) * vs + q / (nc * np)]?

/-- `Function::interpolate` of an `Expression`, Function.h L318-394; `f` are its values on `cells0`, `samePoints` says that its points are the interpolation points. -/
def interpolateExpr (e : Elem T) (dm : DMap) (cells0 cells1 : List Nat) (f : List T) (exprVs : Nat) (hasArg samePoints : Bool) (u : List T) : Option (List T) :=
  if cells0.length ≠ cells1.length then none
  else if hasArg then none
  else if exprVs ≠ e.vs then none
  else if !samePoints then none
  else (transposeExpr cells0.length e.npts e.vs f).bind fun f1 => interpolateData e dm cells1 f1 e.vs (cells0.length * e.npts) u

/-! ## Interpolation of functions on the same mesh or a sub-mesh -/

/-- Same mesh and element, interpolate.h L1331-1362. -/
def interpolateSame (dm1 : DMap) (cells1 : List Nat) (u0 : List T) (dm0 : DMap) (cells0 : List Nat) (u1 : List T) : Option (List T) :=
  (cells0.zip cells1).foldlM (fun u c => (dm0.dofs[c.1]?).bind fun dofs0 => (dm1.dofs[c.2]?).bind fun dofs1 =>
    if dm0.bs * dofs0.length ≠ dm1.bs * dofs1.length then none
    else dofs0.zipIdx.foldlM (fun u (d : Nat × Nat) => (List.range dm0.bs).foldlM (fun u k =>
      (dofs1[(dm0.bs * d.2 + k) / dm1.bs]?).bind fun d1 => (u0[dm0.bs * d.1 + k]?).bind fun y =>
        setAt u (dm1.bs * d1 + (dm0.bs * d.2 + k) % dm1.bs) y) u) u) u1

/-- `create_interpolation_operator`, FiniteElement.cpp L494-536; `op` is the matrix of Basix between its elements, which for a vector-valued and a scalar element is the matrix
between the former and a blocked one.  The matrix and its shape. -/
def interpolationOperator (e1 e0 : Elem T) (op : Nat → Nat → T) : Option ((Nat → Nat → T) × Nat × Nat) :=
  if e1.bs = 1 ∨ e0.bs = 1 then some (op, e1.bs * e1.dim, e0.bs * e0.dim)
  else if e0.bs = e1.bs then
    some (fun i j => if i % e1.bs = j % e1.bs then op (i / e1.bs) (j / e1.bs) else 0, e1.dim * e1.bs, e0.dim * e1.bs)
  else none

/-- `interpolate_same_map`, interpolate.h L373-448. -/
def interpolateSameMap (e1 : Elem T) (dm1 : DMap) (cells1 : List Nat) (e0 : Elem T) (u0 : List T) (dm0 : DMap) (cells0 : List Nat) (op : Nat → Nat → T) (u1 : List T) :
    Option (List T) :=
  (interpolationOperator e1 e0 op).bind fun im =>
  (cells0.zip cells1).foldlM (fun u c => (dm0.dofs[c.1]?).bind fun dofs0 => (readCell dm0 dofs0 u0).bind fun l =>
    if l.length ≠ e0.bs * e0.dim ∨ im.2.2 ≠ e0.bs * e0.dim ∨ im.2.1 ≠ e1.bs * e1.dim then none
    else
      let local0 := blocked e0.bs (e0.transT c.1) fun q => l.getD q 0
      let local1 := fun i => sumTo im.2.2 fun j => im.1 i j * local0 j
      (dm1.dofs[c.2]?).bind fun dofs1 => writeCell dm1 dofs1 (blocked e1.bs (e1.invTransT c.2) local1) u) u1

/-- Values of a function with coefficients `co` on a cell at a point where the basis functions have values `phi i j`: component `m = j * bs + k`, interpolate.h L657-671. -/
def expansion (e : Elem T) (phi : Nat → Nat → T) (co : Nat → T) (m : Nat) : T := sumTo e.dim fun i => co (e.bs * i + m % e.bs) * phi i (m / e.bs)

/-- `interpolate_nonmatching_maps`, interpolate.h L465-701; `phi c p i j` are the basis functions of `e0` on cell `c`, transformed and pushed forward, at point `p` of `e1`; values that
are not written stay zero; `pull` of `e1` is with the Jacobians of the cell of `e0`. -/
def interpolateOtherMap (e1 : Elem T) (dm1 : DMap) (cells1 : List Nat) (e0 : Elem T) (u0 : List T) (dm0 : DMap) (cells0 : List Nat) (phi : Nat → Nat → Nat → Nat → T)
    (u1 : List T) : Option (List T) :=
  if e1.vs < e0.bs * e0.rvs then none
  else (cells0.zip cells1).foldlM (fun u c => (dm0.dofs[c.1]?).bind fun dofs0 => (readCell dm0 dofs0 u0).bind fun l =>
    if l.length ≠ e0.bs * e0.dim then none
    else
      let values := fun p m => if m < e0.bs * e0.rvs then expansion e0 (phi c.1 p) (fun q => l.getD q 0) m else 0
      (interpolationApply e1 e1.npts e1.vs (fun p m => e1.pull c.1 p (values p) m) e1.bs (e1.bs * e1.dim)).bind fun co =>
      (dm1.dofs[c.2]?).bind fun dofs1 => writeCell dm1 dofs1 (blocked e1.bs (e1.invTransT c.2) co) u) u1

/-- `interpolate` between functions, interpolate.h L1300-1375: `sameMesh` says that meshes are the same object. -/
def interpolateFn (e1 : Elem T) (dm1 : DMap) (cells1 : List Nat) (e0 : Elem T) (u0 : List T) (dm0 : DMap) (cells0 : List Nat) (sameMesh : Bool)
    (op : Nat → Nat → T) (phi : Nat → Nat → Nat → Nat → T) (u1 : List T) : Option (List T) :=
  if cells0.length ≠ cells1.length then none
  else if e0.valueShape ≠ e1.valueShape then none
  else if sameMesh ∧ e1.id ≠ e0.id ∧ (e1.basix = none ∨ e0.basix = none) then none
  else if sameMesh ∧ (e1.id = e0.id ∨ e1.basix = e0.basix) then
    if e1.bs ≠ e0.bs then none else interpolateSame dm1 cells1 u0 dm0 cells0 u1
  else if e1.basix = none ∨ e0.basix = none then none
  else if e1.mapType = e0.mapType then interpolateSameMap e1 dm1 cells1 e0 u0 dm0 cells0 op u1
  else interpolateOtherMap e1 dm1 cells1 e0 u0 dm0 cells0 phi u1

/-! ## Evaluation -/

/-- Sum over basis functions and components for a block `k`, Function.h L713-725 and L731-739: `pos j` are the places of component `j`. -/
def addBlock (e : Elem T) (phi : Nat → Nat → T) (co : Nat → T) (k : Nat) (pos : Nat → List Nat) (u : List T) : Option (List T) :=
  (List.range e.dim).foldlM (fun u i => (List.range e.rvs).foldlM (fun u j =>
    (pos j).foldlM (fun u g => addAt u g (co (e.bs * i + k) * phi i j)) u) u) u

/-- Places of block `k` in the values of a point, Function.h L715-723 and L735. -/
def evalPlaces (e : Elem T) (us1 k j : Nat) : List Nat :=
  if e.symmetric then
    let ms := matrixSize us1
    let row := (rowOf k).1
    let col := k - (rowOf k).2
    (j * e.bs + row * ms + col) :: (if col ≠ row then [j * e.bs + row + ms * col] else [])
  else [j * e.bs + k]

/-- `Function::eval`, Function.h L423-741; `phi p i j` are the basis functions of the cell at point `p`, transformed and pushed forward.  `us0` and `us1` are the shape of `u`. -/
def eval (e : Elem T) (dm : DMap) (x : List T) (npoints : Nat) (cells : List Int) (phi : Nat → Nat → Nat → T) (u : List T) (us0 us1 : Nat) : Option (List T) :=
  if cells.isEmpty then some u
  else if u.length ≠ us0 * us1 then none
  else if npoints ≠ cells.length then none
  else if npoints ≠ us0 then none
  else if 1 < e.numSub ∧ e.numSub ≠ e.bs then none
  else cells.zipIdx.foldlM (fun u (c : Int × Nat) =>
    if c.1 < 0 then some u
    else (dm.dofs[c.1.toNat]?).bind fun dofs => (readCell dm dofs x).bind fun l =>
      if l.length ≠ e.bs * e.dim then none
      else (List.range e.bs).foldlM (fun u k => addBlock e (phi c.2) (fun q => l.getD q 0) k (fun j => (evalPlaces e us1 k j).map (c.2 * us1 + ·)) u) u)
    (List.replicate u.length 0)

end Verif.Interp
