import Verif.Model.FunctionView
import Verif.Spec.SubSpace
/-! Specification of functions and sub-functions: every function has values of its own, and whatever is written into a function is written into all
functions with the same root. -/
namespace Verif.Spec.FunView
open Verif.SubSpace Verif.FunView

variable {α : Type}

/-- A function with its values.  The root of `u.sub(i)` is the root of `u`; all other functions are their own root. -/
structure Obj (α : Type) where
  space : Space
  root : Nat
  value : List α

/-- Values with some entries replaced, if there are such entries. -/
def replaced (x : List α) (w : List (Nat × α)) : Option (List α) :=
  if ∀ e ∈ w, e.1 < x.length then some (w.foldl (fun x e => x.set e.1 e.2) x) else none

/-- A sub-function. -/
def subObj (k i : Nat) (l : List (Obj α)) : Option (List (Obj α)) := do
  let o ← l[k]?
  let V ← o.space.sub i
  some (l ++ [{ space := V, root := o.root, value := o.value }])

/-- Values written into function `k`. -/
def writeObj (k : Nat) (w : List (Nat × α)) (l : List (Obj α)) : Option (List (Obj α)) := do
  let o ← l[k]?
  let y ← replaced o.value w
  some (l.map fun o' => if o'.root = o.root then { o' with value := y } else o')

/-- The entries for values `vals c l` of the dofs `l` on cells `c`. -/
def dofEntries (V : Space) (cells : List Nat) (vals : Nat → Nat → α) : Option (List (Nat × α)) :=
  (cells.mapM fun c => (List.range V.elem.dim).mapM fun l => (V.D.dof c l).map fun d => (d, vals c l)).map List.flatten

/-- What a call does. -/
def expect [Zero α] (coll : Space → Option (Space × List Nat)) (l : List (Obj α)) : Op α → Option (List (Obj α))
  | .create V => if V.comp = [] then some (l ++ [{ space := V, root := l.length, value := List.replicate (V.D.imbs * V.blocks) 0 }]) else none
  | .sub k i => subObj k i l
  | .split k => do
    let o ← l[k]?
    if o.space.elem.numSubs = 1 then none else (List.range o.space.elem.numSubs).foldlM (fun l i => subObj k i l) l
  | .copy k => do
    let o ← l[k]?
    some (l ++ [{ space := o.space, root := l.length, value := o.value }])
  | .collapse k => do
    let o ← l[k]?
    if o.space.comp = [] then none
    else do
      let (V, map) ← coll o.space
      let y ← map.mapM fun i => o.value[i]?
      some (l ++ [{ space := { V with comp := [] }, root := l.length, value := y }])
  | .write k w => writeObj k w l
  | .interpolate k cells vals => do
    let o ← l[k]?
    writeObj k (← dofEntries o.space cells vals) l

/-- What a script does. -/
def expected [Zero α] (coll : Space → Option (Space × List Nat)) (ops : List (Op α)) : Option (List (Obj α)) :=
  ops.foldlM (expect coll) []

/-- The function that a call writes into. -/
def target : Op α → Option Nat
  | .write k _ => some k
  | .interpolate k _ _ => some k
  | _ => none

/-- The state has these functions: the same spaces and values, and the same vector exactly for the same root. -/
structure Agree (s : State α) (l : List (Obj α)) : Prop where
  length : s.fns.length = l.length
  space : ∀ (k : Nat) (f : Fn) (o : Obj α), s.fns[k]? = some f → l[k]? = some o → f.space = o.space
  value : ∀ (k : Nat) (o : Obj α), l[k]? = some o → s.array k = some o.value
  shared : ∀ (k k' : Nat) (f f' : Fn) (o o' : Obj α), s.fns[k]? = some f → l[k]? = some o → s.fns[k']? = some f' → l[k']? = some o' →
    (f.x = f'.x ↔ o.root = o'.root)

end Verif.Spec.FunView
