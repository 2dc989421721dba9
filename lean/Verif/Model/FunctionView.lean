import Verif.Model.SubSpace
/-!
# Functions, their sub-functions, copies and collapsed functions

Model of the constructors, `sub` and `collapse` of `Function`, `cpp/dolfinx/fem/Function.h` L55-143, of `__init__`, `copy`, `sub`, `split` and
`collapse` of the Python class, `python/dolfinx/fem/function.py` L381-431, L569-582, L607-649, and of `FunctionSpace.sub` and `num_sub_spaces`,
`python/dolfinx/fem/function.py` L789-812, `cpp/dolfinx/fem/FunctionSpace.h` L111-147 and L179-202.

The objects of one rank: vectors are reached by reference (`std::shared_ptr`), and functions of a script are numbered in the order in which they are
made.  An exception is `none`.  Not modelled: names, scalar types, the mesh, several cell types, negative indices of sub-spaces.
-/
namespace Verif.FunView
open Verif.SubSpace

variable {α : Type}

/-- `FunctionSpace` on one rank: element, dofmap, `component()` and number of local blocks of the index map. -/
structure Space where
  elem : Elem
  D : DofMap
  comp : List Nat
  blocks : Nat

/-- `num_sub_elements()`, `cpp/dolfinx/fem/FiniteElement.cpp` L383-386; the sub-elements are set in L137-144 and L167-225. -/
def numSub : Elem → Nat
  | .base _ => 0
  | .blocked bs _ => bs
  | .mixed es => es.length

/-- `extract_sub_element({i})`, `cpp/dolfinx/fem/FiniteElement.cpp` L47-79. -/
def subElem : Elem → Nat → Option Elem
  | .base _, _ => none
  | .blocked bs b, i => if i < bs then some (.base b) else none
  | .mixed es, i => es[i]?

/-- `FunctionSpace.sub(i)` -/
def Space.sub (V : Space) (i : Nat) : Option Space :=
  if numSub V.elem ≤ i then none
  else do
    let e ← subElem V.elem i
    let D ← V.D.extractSub [i]
    some { elem := e, D := D, comp := V.comp ++ [i], blocks := V.blocks }

/-- Python's `Function`: its space and the reference to its vector. -/
structure Fn where
  space : Space
  x : Nat

/-- Vectors and functions. -/
structure State (α : Type) where
  vecs : List (List α)
  fns : List Fn

/-- A new vector, and a function with it. -/
def alloc (s : State α) (V : Space) (x : List α) : State α :=
  { vecs := s.vecs ++ [x], fns := s.fns ++ [{ space := V, x := s.vecs.length }] }

/-- `Function(V)`, `Function.h` L55-67: a vector of zeros. -/
def create [Zero α] (V : Space) (s : State α) : Option (State α) :=
  if V.comp.isEmpty then some (alloc s V (List.replicate (V.D.imbs * V.blocks) 0)) else none

/-- `u.sub(i)`, function.py L624: a function on the sub-space with the same vector. -/
def subFn (k i : Nat) (s : State α) : Option (State α) := do
  let f ← s.fns[k]?
  let V ← f.space.sub i
  some { s with fns := s.fns ++ [{ space := V, x := f.x }] }

/-- `u.split()`, function.py L636-639. -/
def splitFn (k : Nat) (s : State α) : Option (State α) := do
  let f ← s.fns[k]?
  if numSub f.space.elem = 1 then none
  else (List.range (numSub f.space.elem)).foldlM (fun s i => subFn k i s) s

/-- `u.copy()`, function.py L578-582: the copy constructor of `la::Vector`. -/
def copyFn (k : Nat) (s : State α) : Option (State α) := do
  let f ← s.fns[k]?
  let x ← s.vecs[f.x]?
  some (alloc s f.space x)

/-- `u.collapse()`, function.py L641-649, `Function.h` L119-143; `coll` gives what `DofMap::collapse` makes of a space: the new space and the map from
its dofs. -/
def collapseFn (coll : Space → Option (Space × List Nat)) (k : Nat) (s : State α) : Option (State α) := do
  let f ← s.fns[k]?
  if f.space.comp.isEmpty then none
  else do
    let (V, map) ← coll f.space
    let x ← s.vecs[f.x]?
    let y ← collapseValues map x
    some (alloc s { V with comp := [] } y)

/-- Assignments to entries of an array. -/
def assign (x : List α) (w : List (Nat × α)) : Option (List α) :=
  w.foldlM (fun x e => if e.1 < x.length then some (x.set e.1 e.2) else none) x

/-- `u.x.array[j] = v` for the entries of `w`. -/
def writeFn (k : Nat) (w : List (Nat × α)) (s : State α) : Option (State α) := do
  let f ← s.fns[k]?
  let x ← s.vecs[f.x]?
  let y ← assign x w
  some { s with vecs := s.vecs.set f.x y }

/-- The entries that `interpolate` sets on the cells, `cpp/dolfinx/fem/interpolate.h` L770-785, where `vals c l` is the value of dof `l` of cell `c`. -/
def entries (V : Space) (cells : List Nat) (vals : Nat → Nat → α) : Option (List (Nat × α)) :=
  (cells.mapM fun c => (List.range V.elem.dim).mapM fun l => do
    let d ← (V.D.cellDofs c)[l / V.D.bs]?
    some (V.D.bs * d + l % V.D.bs, vals c l)).map List.flatten

/-- `u.interpolate(…, cells)` -/
def interpFn (k : Nat) (cells : List Nat) (vals : Nat → Nat → α) (s : State α) : Option (State α) := do
  let f ← s.fns[k]?
  writeFn k (← entries f.space cells vals) s

/-- What a script does with functions. -/
inductive Op (α : Type) where
  | create (V : Space)
  | sub (k i : Nat)
  | split (k : Nat)
  | copy (k : Nat)
  | collapse (k : Nat)
  | write (k : Nat) (w : List (Nat × α))
  | interpolate (k : Nat) (cells : List Nat) (vals : Nat → Nat → α)

/-- One call. -/
def step [Zero α] (coll : Space → Option (Space × List Nat)) (op : Op α) (s : State α) : Option (State α) :=
  match op with
  | .create V => create V s
  | .sub k i => subFn k i s
  | .split k => splitFn k s
  | .copy k => copyFn k s
  | .collapse k => collapseFn coll k s
  | .write k w => writeFn k w s
  | .interpolate k cells vals => interpFn k cells vals s

/-- A script that runs through. -/
def run [Zero α] (coll : Space → Option (Space × List Nat)) (ops : List (Op α)) (s : State α) : Option (State α) :=
  ops.foldlM (fun s op => step coll op s) s

/-- `u.x.array` of function `k`. -/
def State.array (s : State α) (k : Nat) : Option (List α) := do s.vecs[(← s.fns[k]?).x]?

end Verif.FunView
