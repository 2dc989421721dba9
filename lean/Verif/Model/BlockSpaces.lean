import Verif.Model.SubSpace
/-!
# Function spaces of block systems, and which condition goes with which block

Model of the identity of function spaces, `cpp/dolfinx/fem/FunctionSpace.h` L46-181 (constructors,
`sub`, `contains`, `collapse`), `python/dolfinx/fem/function.py` L764-812 (`clone`, `sub`), of
`extract_function_spaces`, `python/dolfinx/fem/forms.py` L554-620, of its C++ counterparts
`extract_function_spaces`, `cpp/dolfinx/fem/utils.h` L171-190, and `common_function_spaces`,
`cpp/dolfinx/fem/FunctionSpace.h` L431-474, and of `bcs_by_block`, `python/dolfinx/fem/bcs.py` L301-326.

Spaces are objects: they are named by their place in the store, which stands for the address.
`none` is an exception (or, in C++, an access outside an array).  One cell type.
-/
namespace Verif.BlockSpaces
open Verif.SubSpace

/-! ## Spaces -/

/-- `FunctionSpace`: `_root_space_id`, `_component`, element and dofmap.  (`_id` is not used by the
functions below.) -/
structure Space where
  root : Nat
  comp : List Nat
  elem : Elem
  dm : DofMap

/-- What a program does to get a space: a new one, `V.sub(i)`, `V.clone()` and `V.collapse()`, whose
new dofmap is given (C69).  `V` is named by its place. -/
inductive Op where
  | create (e : Elem) (D : DofMap)
  | sub (V i : Nat)
  | clone (V : Nat)
  | collapse (V : Nat) (D : DofMap)

/-- `extract_sub_element({i})`, FiniteElement.cpp L48-84. -/
def subElement : Elem → Nat → Option Elem
  | .base _, _ => none
  | .blocked bs b, i => if i < bs then some (.base b) else none
  | .mixed es, i => es[i]?

/-- `sub({i})`, FunctionSpace.h L103-141.  The constructor draws an id, which is then replaced by that
of the root. -/
def Space.sub (V : Space) (i : Nat) : Option Space := do
  let e ← subElement V.elem i
  let D ← V.dm.extractSub [i]
  some ⟨V.root, V.comp ++ [i], e, D⟩

/-- `collapse()`, FunctionSpace.h L172-194, with the collapsed dofmap `D`. -/
def Space.collapse (V : Space) (D : DofMap) (id : Nat) : Option Space :=
  if V.comp = [] then none else some ⟨id, [], V.elem, D⟩

/-- The space made by a step; `id` is the next random number. -/
def make (st : List Space) (id : Nat) : Op → Option Space
  | .create e D => some ⟨id, [], e, D⟩
  | .sub k i => (st[k]?).bind fun V => V.sub i
  | .clone k => (st[k]?).map fun V => ⟨id, [], V.elem, V.dm⟩
  | .collapse k D => (st[k]?).bind fun V => V.collapse D id

/-- A program, with the random numbers it draws. -/
def run (uuid : Nat → Nat) (ops : List Op) : Option (List Space) :=
  ops.foldlM (fun st op => (make st (uuid st.length) op).map fun V => st ++ [V]) []

/-- `contains`, FunctionSpace.h L147-167, for the objects at `a` and `b`. -/
def contains (st : List Space) (a b : Nat) : Bool :=
  match st[a]?, st[b]? with
  | some A, some B =>
    if a = b then true
    else if A.root ≠ B.root then false
    else if A.comp.length > B.comp.length then false
    else A.comp == B.comp.take A.comp.length
  | _, _ => false

/-! ## Spaces of forms -/

/-- `Form`: the objects in `function_spaces`; there are `rank` of them. -/
structure Form where
  spaces : List Nat

/-- `extract_function_spaces` of one form, forms.py L578-582. -/
def extractOne (f : Option Form) (index : Option Nat) : Option (Option Nat) :=
  if index ≠ none then none
  else match f with
    | none => some none
    | some f => (f.spaces[0]?).map some

/-- The entry for a form of a list, forms.py L586-589. -/
def linearSpace : Option Form → Option (Option Nat)
  | none => some none
  | some f => if f.spaces.length ≠ 1 then none else (f.spaces[0]?).map some

/-- `extract_function_spaces` of a list of forms, forms.py L583-589. -/
def extractList (fs : List (Option Form)) (index : Option Nat) : Option (List (Option Nat)) :=
  if index ≠ none then none else fs.mapM linearSpace

/-- The function that is vectorised in forms.py L593-595. -/
def spaceAt (index : Nat) : Option Form → Option (Option Nat)
  | none => some none
  | some f => (f.spaces[index]?).map some

/-- A space goes to place `k` if there is none, else it has to be the one that is there: forms.py
L608-612, FunctionSpace.h L452-466. -/
def put (S : List (Option Nat)) (k v : Nat) : Option (List (Option Nat)) :=
  match S[k]? with
  | none => none
  | some none => some (S.set k (some v))
  | some (some u) => if u = v then some S else none

/-- The body of the loops in `unique_spaces`, for entry `x` of row `k`. -/
def putEntry (S : List (Option Nat)) (k : Nat) : Option Nat → Option (List (Option Nat))
  | none => some S
  | some v => put S k v

/-- Entry of a 2D array. -/
def entry {α : Type} (V : List (List (Option α))) (i j : Nat) : Option α := (V.getD i []).getD j none

/-- `unique_spaces`, forms.py L598-613, for an array with `n` rows and `m` columns: loop over columns,
then rows.  (`V0` is a view of the first column, which is not read again.) -/
def uniqueSpaces (n m : Nat) (V : Nat → Nat → Option Nat) : Option (List (Option Nat)) :=
  ((List.range' 1 (m - 1)).flatMap fun col => (List.range n).map fun row => (row, col)).foldlM
    (fun S p => putEntry S p.1 (V p.1 p.2)) ((List.range n).map fun row => V row 0)

/-- A function of each entry of an array. -/
def mapEntries {α : Type} (f : Option Form → Option (Option α)) (fs : List (List (Option Form))) : Option (List (List (Option α))) :=
  fs.mapM fun row => row.mapM f

/-- `extract_function_spaces` of an array of forms, forms.py L590-618.  NumPy refuses rows of
different lengths, and `vectorize` arrays without entries. -/
def extractArray (fs : List (List (Option Form))) (index : Option Nat) : Option (List (Option Nat)) :=
  let m := (fs.headD []).length
  if fs.any (fun row => row.length ≠ m) ∨ m = 0 then none
  else match index with
    | some 0 => (mapEntries (spaceAt 0) fs).bind fun V => uniqueSpaces fs.length m (entry V)
    | some 1 => (mapEntries (spaceAt 1) fs).bind fun V => uniqueSpaces m fs.length fun i j => entry V j i
    | _ => none

/-- `{form->function_spaces()[0], form->function_spaces()[1]}`, utils.h L184-185. -/
def spacePair : Option Form → Option (Option (Nat × Nat))
  | none => some none
  | some f => (f.spaces[0]?).bind fun u => (f.spaces[1]?).map fun v => some (u, v)

/-- The body of the loops in `common_function_spaces`, FunctionSpace.h L446-467. -/
def commonStep (V : Nat → Nat → Option (Nat × Nat)) (S : List (Option Nat) × List (Option Nat)) (p : Nat × Nat) :
    Option (List (Option Nat) × List (Option Nat)) :=
  match V p.1 p.2 with
  | none => some S
  | some x => (put S.1 p.1 x.1).bind fun S0 => (put S.2 p.2 x.2).map fun S1 => (S0, S1)

/-- `common_function_spaces(extract_function_spaces(a))`, utils.h L171-190 and FunctionSpace.h L431-474.
The array of spaces has the columns of the first row of `a`; longer rows are written outside of it. -/
def commonSpaces (fs : List (List (Option Form))) : Option (List Nat × List Nat) := do
  let m := (fs.headD []).length
  if fs.any (fun row => m < row.length) then none
  else
    let V ← mapEntries spacePair fs
    let S ← ((List.range fs.length).flatMap fun i => (List.range m).map fun j => (i, j)).foldlM
      (commonStep (entry V)) (List.replicate fs.length none, List.replicate m none)
    let S0 ← S.1.mapM id
    let S1 ← S.2.mapM id
    some (S0, S1)

/-! ## Conditions -/

/-- `DirichletBC`: the object `function_space`, and the dofs it constrains on a process. -/
structure Bc where
  space : Nat
  dofs : List Nat

/-- An iterable of conditions: one that can be read many times, as a list, or a generator. -/
inductive Iter where
  | list (l : List Bc)
  | generator (l : List Bc)

/-- Reading all of an iterable, and what is then left of it. -/
def Iter.read : Iter → List Bc × Iter
  | .list l => (l, .list l)
  | .generator l => (l, .generator [])

/-- One entry of the list that `bcs_by_block` returns, bcs.py L312-326. -/
def bcsOf (st : List Space) (V : Option Nat) (bcs : Iter) : List Bc × Iter :=
  match V with
  | none => ([], bcs)
  | some V => (bcs.read.1.filter fun bc => contains st V bc.space, bcs.read.2)

/-- `bcs_by_block`, bcs.py L301-326. -/
def bcsByBlock (st : List Space) (spaces : List (Option Nat)) (bcs : Iter) : List (List Bc) :=
  (spaces.foldl (fun (s : List (List Bc) × Iter) V => (s.1 ++ [(bcsOf st V s.2).1], (bcsOf st V s.2).2)) ([], bcs)).1

end Verif.BlockSpaces
