import Verif.Model.Assembly
import Verif.Spec.GlobalIndex
import Mathlib.Algebra.BigOperators.Group.Finset.Basic
import Mathlib.Algebra.BigOperators.Group.List.Basic
/-!
Specification: the matrix and the vector of a form are sums of element tensors.

An element is a list of test dofs, a list of trial dofs and the values for each pair of (unrolled)
positions in the lists.
-/
namespace Verif.Spec.Assemble
open Verif.Assembly Verif.World Finset

variable {R : Type} [CommRing R]

structure Elem (R : Type) where
  rows : List Nat
  cols : List Nat
  val : Nat → Nat → R

/-- Value of the element for component `k` of row block `i` and component `l` of column block `j`. -/
def Elem.entry (e : Elem R) (bs0 bs1 i k j l : Nat) : R :=
  ∑ a ∈ range e.rows.length, ∑ b ∈ range e.cols.length,
    if e.rows[a]? = some i ∧ e.cols[b]? = some j then e.val (bs0 * a + k) (bs1 * b + l) else 0

/-- Dofs of a cell; no dofs where the cell does not exist. -/
def dofsOf (dm : Dofmap) (c : Int) : List Nat := if c < 0 then [] else dm.dofs c.toNat

/-- Elements of an integral over cells (`stride = 1`) or over (cell, local entity) pairs (`stride = 2`). -/
def cellElems (dm0 dm1 : Dofmap) (stride : Nat) (I : Integral R) : List (Elem R) :=
  (List.range (I.dom0.length / stride)).map fun c =>
    { rows := dm0.dofs (I.dom0.getD (stride * c) 0).toNat
      cols := dm1.dofs (I.dom1.getD (stride * c) 0).toNat
      val := fun r s => I.tensor c (r * (dm1.bs * dm1.width) + s) }

/-- The four (test cell, trial cell) blocks of each interior facet: the tensor has the rows of the first cell,
then those of the second cell, and the same for columns. -/
def facetElems (dm0 dm1 : Dofmap) (I : Integral R) : List (Elem R) :=
  (List.range (I.dom0.length / 4)).flatMap fun f => [(0, 0), (0, 1), (1, 0), (1, 1)].map fun s =>
    { rows := dofsOf dm0 (I.dom0.getD (4 * f + 2 * s.1) 0)
      cols := dofsOf dm1 (I.dom1.getD (4 * f + 2 * s.2) 0)
      val := fun r c => I.tensor f ((s.1 * (dm0.bs * dm0.width) + r) * (2 * (dm1.bs * dm1.width)) +
        (s.2 * (dm1.bs * dm1.width) + c)) }

/-- Elements of an integral of some type. -/
def intElems (ty : IType) (dm0 dm1 : Dofmap) (I : Integral R) : List (Elem R) :=
  match ty with
  | .cell => cellElems dm0 dm1 1 I
  | .interiorFacet => facetElems dm0 dm1 I
  | _ => cellElems dm0 dm1 2 I

/-- All elements of a bilinear form on one rank. -/
def elems (F : Form R) (dm0 dm1 : Nat → Dofmap) : List (Elem R) :=
  (List.range F.numTypes).flatMap fun t =>
    [IType.cell, .interiorFacet, .exteriorFacet, .vertex, .ridge].flatMap fun ty =>
      (F.ints ty t).flatMap fun I => intElems ty (dm0 t) (dm1 t) I

/-- Entry of the matrix of one rank in local numbering. -/
def localOp (bs0 bs1 : Nat) (es : List (Elem R)) (i k j l : Nat) : R :=
  (es.map fun e => e.entry bs0 bs1 i k j l).sum

/-- Entry of the matrix of the form for global block row `I`, component `k`, and global block column `J`, component
`l`: the sum over all ranks and all elements of the values whose dofs have these global numbers. -/
def globalOp (w0 w1 : World) (bs0 bs1 : Nat) (es : Nat → List (Elem R)) (I k J l : Nat) : R :=
  ∑ q ∈ range w0.P, ((es q).map fun e =>
    ∑ a ∈ range e.rows.length, ∑ b ∈ range e.cols.length,
      if (e.rows[a]?).bind (globalOf w0 q) = some I ∧ (e.cols[b]?).bind (globalOf w1 q) = some J
      then e.val (bs0 * a + k) (bs1 * b + l) else 0).sum

/-- The lists of dofs have the width of the dofmap. -/
def DofmapOk (bs : Nat) (dm : Nat → Dofmap) : Prop :=
  ∀ t, (dm t).bs = bs ∧ ∀ c, ((dm t).dofs c).length = (dm t).width

/-- The entity lists of an integral for test and trial space have the same length; a cell can be missing (-1)
only in interior facet integrals. -/
def IntegralOk (ty : IType) (I : Integral R) : Prop :=
  I.dom1.length = I.dom0.length ∧
  (ty ≠ .interiorFacet → (∀ c ∈ I.dom0, 0 ≤ c) ∧ ∀ c ∈ I.dom1, 0 ≤ c)

def FormOk (F : Form R) : Prop := ∀ ty t, ∀ I ∈ F.ints ty t, IntegralOk ty I

/-- A form that assembly accepts: on meshes with several cell types only cell integrals. -/
def Accepted (F : Form R) : Prop :=
  F.numTypes ≤ 1 ∨ ∀ t < F.numTypes, ∀ ty, ty ≠ .cell → F.ints ty t = []

/-- The dofs of all cells are local indices. -/
def DofsOk (w : World) (q : Nat) (dm : Nat → Dofmap) : Prop :=
  ∀ t c, ∀ d ∈ (dm t).dofs c, d < w.size q + (w.ghosts q).length

/-- Some rank holds an element with dofs of the global numbers `I` and `J`. -/
def Couples (w0 w1 : World) (es : Nat → List (Elem R)) (I J : Nat) : Prop :=
  ∃ q, q < w0.P ∧ ∃ e ∈ es q, ∃ i ∈ e.rows, ∃ j ∈ e.cols, globalOf w0 q i = some I ∧ globalOf w1 q j = some J

/-! ## Conditions -/

/-- Local scalar dof `d` is constrained by one of the conditions that apply. -/
def Constrained (bcs : List (BC R × Bool)) (d : Nat) : Prop := ∃ c ∈ bcs, c.2 = true ∧ d ∈ c.1.dofs

/-- All ranks constrain the same components of global blocks: `C`. -/
def Consistent (w : World) (bs : Nat) (bcs : Nat → List (BC R × Bool)) (C : Nat → Nat → Prop) : Prop :=
  ∀ q, q < w.P → ∀ i I k, globalOf w q i = some I → k < bs → (Constrained (bcs q) (bs * i + k) ↔ C I k)

/-- The dofs of a condition are sorted (`DirichletBC.h` L287-314). -/
def SortedBcs (bcs : List (BC R × Bool)) : Prop := ∀ c ∈ bcs, c.1.dofs.Pairwise (· ≤ ·)

/-- `v` is the value a condition holds for scalar dof `d` at position `i` of its dofs: the function's value at `d`, the
value of the function in the other space at the matching dof, or the component of the constant. -/
def BcValue (c : BC R) (i d : Nat) (v : R) : Prop :=
  match c.value with
  | .func f => v = f d
  | .sub f ds => (ds = [] ∧ v = f d) ∨ ∃ e, ds[i]? = some e ∧ v = f e
  | .const bs f => v = f (d % bs)

/-- The value prescribed for scalar dof `d`: the last condition that has `d` counts. -/
def Prescribed (bcs : List (BC R)) (d : Nat) (v : R) : Prop :=
  ∃ pre c post i, bcs = pre ++ c :: post ∧ c.dofs[i]? = some d ∧ (∀ i', i < i' → c.dofs[i']? ≠ some d) ∧
    (∀ c' ∈ post, d ∉ c'.dofs) ∧ BcValue c i d v

/-- Dofs of the other space, if given, are as many as the dofs. -/
def BcOk (c : BC R) : Prop :=
  match c.value with
  | .sub _ ds => ds = [] ∨ ds.length = c.dofs.length
  | _ => True

/-- On all ranks the conditions constrain the components `C` of global blocks, with the values `g`. -/
def ConsistentValues (w : World) (bs : Nat) (bcs : Nat → List (BC R)) (C : Nat → Nat → Prop) (g : Nat → Nat → R) : Prop :=
  ∀ q, q < w.P → ∀ i I k, globalOf w q i = some I → k < bs →
    ((∃ c ∈ bcs q, bs * i + k ∈ c.dofs) ↔ C I k) ∧ ∀ v, Prescribed (bcs q) (bs * i + k) v → v = g I k

/-- All ranks hold the values `X` of global blocks. -/
def ConsistentVector (w : World) (bs : Nat) (x : Nat → Nat → R) (X : Nat → Nat → R) : Prop :=
  ∀ q, q < w.P → ∀ i I k, globalOf w q i = some I → k < bs → x q (bs * i + k) = X I k

/-! ## Vectors -/

/-- Elements of a linear form. -/
structure VElem (R : Type) where
  rows : List Nat
  val : Nat → R

def VElem.entry (e : VElem R) (bs i k : Nat) : R :=
  ∑ a ∈ range e.rows.length, if e.rows[a]? = some i then e.val (bs * a + k) else 0

def intVElems (ty : IType) (dm : Dofmap) (I : Integral R) : List (VElem R) :=
  match ty with
  | .cell => (List.range I.dom0.length).map fun c => ⟨dm.dofs (I.dom0.getD c 0).toNat, I.tensor c⟩
  | .interiorFacet => (List.range (I.dom0.length / 4)).flatMap fun f => [0, 1].map fun s =>
      ⟨dofsOf dm (I.dom0.getD (4 * f + 2 * s) 0), fun r => I.tensor f (s * (dm.bs * dm.width) + r)⟩
  | _ => (List.range (I.dom0.length / 2)).map fun c => ⟨dm.dofs (I.dom0.getD (2 * c) 0).toNat, I.tensor c⟩

def velems (L : Form R) (dm : Nat → Dofmap) : List (VElem R) :=
  (List.range L.numTypes).flatMap fun t =>
    [IType.cell, .interiorFacet, .exteriorFacet, .vertex, .ridge].flatMap fun ty =>
      (L.ints ty t).flatMap fun I => intVElems ty (dm t) I

/-- Entry of the vector of the form for global block `I`, component `k`. -/
def globalVec (w : World) (bs : Nat) (es : Nat → List (VElem R)) (I k : Nat) : R :=
  ∑ q ∈ range w.P, ((es q).map fun e =>
    ∑ a ∈ range e.rows.length, if (e.rows[a]?).bind (globalOf w q) = some I then e.val (bs * a + k) else 0).sum

/-- A linear form that assembly handles: on meshes with several cell types only cell integrals, equally many for
each cell type. -/
def VAccepted (L : Form R) : Prop :=
  L.numTypes ≤ 1 ∨ ∀ t < L.numTypes, (∀ ty, ty ≠ .cell → L.ints ty t = []) ∧ (L.ints .cell t).length = (L.ints .cell 0).length

open Classical in
/-- The product of a matrix with `v` restricted to the components `C` of the `n` blocks of size `bs`. -/
noncomputable def product (n bs : Nat) (A : Nat → Nat → R) (C : Nat → Nat → Prop) (v : Nat → Nat → R) : R :=
  ∑ J ∈ range n, ∑ l ∈ range bs, if C J l then A J l * v J l else 0

end Verif.Spec.Assemble
