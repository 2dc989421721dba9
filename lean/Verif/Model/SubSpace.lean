import Verif.Model.DofmapBuilder
import Verif.Model.SubMap
/-!
# Sub-spaces: element dof layouts, dofmap views and collapsing

Model of the constructors of `FiniteElement`, `cpp/dolfinx/fem/FiniteElement.cpp` L106-237, `dof_permutation_fn`
L567-639, `create_element_dof_layout`, `cpp/dolfinx/fem/utils.h` L316-349, `create_dofmap`,
`cpp/dolfinx/fem/utils.cpp` L32-75, `cpp/dolfinx/fem/ElementDofLayout.cpp`, `DofMap::extract_sub_dofmap`,
`build_collapsed_dofmap` and `DofMap::collapse`, `cpp/dolfinx/fem/DofMap.cpp` L28-115 and L166-272, and
`Function::collapse`, `cpp/dolfinx/fem/Function.h` L119-143.

Indices are naturals; a read outside an array, an exception and `-1` are `none`.  Only the members used here are
kept.  Topologies have one cell type.
-/
namespace Verif.SubSpace
open Verif.World Verif.Std Verif.Dofmap

/-- `entity_dofs` -/
abbrev EDofs := List (List (List Nat))

/-- A Basix element: its dimension, `entity_dofs`, and `permute_inv(doflist, cell_info)` if its dof transformations
are permutations other than the identity. -/
structure Basix where
  dim : Nat
  ed : EDofs
  perm : Option (Nat → List Nat → List Nat)

/-- `FiniteElement`: from a Basix element without `value_shape`, with a `value_shape` giving `bs` components (L106-158),
or mixed (L167-225). -/
inductive Elem where
  | base (b : Basix)
  | blocked (bs : Nat) (b : Basix)
  | mixed (es : List Elem)

/-- `block_size()` -/
def Elem.bs : Elem → Nat
  | .base _ => 1
  | .blocked bs _ => bs
  | .mixed _ => 1

mutual
/-- `space_dimension()`, L111 and L221-223. -/
def Elem.dim : Elem → Nat
  | .base b => b.dim
  | .blocked bs b => bs * b.dim
  | .mixed es => dims es
/-- `dof_offset` after the loop, L187-223. -/
def dims : List Elem → Nat
  | [] => 0
  | e :: es => e.dim + dims es
end

/-- `_entity_dofs` of a mixed element, L174-219, from the offset, block size and `entity_dofs` of each sub-element. -/
def mixedEd (l : List (Nat × Nat × EDofs)) : EDofs :=
  match l with
  | [] => []
  | x :: _ => x.2.2.zipIdx.map fun p => p.1.zipIdx.map fun q => l.flatMap fun y =>
      ((y.2.2.getD p.2 []).getD q.2 []).flatMap fun k => (List.range y.2.1).map fun b => y.1 + k * y.2.1 + b

mutual
/-- `entity_dofs()` -/
def Elem.ed : Elem → EDofs
  | .base b => b.ed
  | .blocked _ b => b.ed
  | .mixed es => mixedEd (edList es 0)
/-- The sub-elements with their `dof_offset`. -/
def edList : List Elem → Nat → List (Nat × Nat × EDofs)
  | [], _ => []
  | e :: es, o => (o, e.bs, e.ed) :: edList es (o + e.dim)
end

/-- `permute_inv` of a Basix element, or nothing, L570-571 and L627-632. -/
def Basix.permute (b : Basix) (info : Nat) (l : List Nat) : List Nat :=
  match b.perm with
  | none => l
  | some f => f info l

/-- The permutation of a blocked element, L605-623: each component on its own. -/
def blockPermute (bs : Nat) (b : Basix) (info : Nat) (l : List Nat) : List Nat :=
  (List.range bs).foldl (fun l k =>
    let sub := b.permute info ((List.range b.dim).map fun i => l.getD (bs * i + k) 0)
    (List.range b.dim).foldl (fun l i => l.set (bs * i + k) (sub.getD i 0)) l) l

mutual
/-- `dof_permutation_fn(true)` -/
def Elem.permute : Elem → Nat → List Nat → List Nat
  | .base b, info, l => b.permute info l
  | .blocked bs b, info, l => blockPermute bs b info l
  | .mixed es, info, l => permuteList es info l
/-- The loop over the sub-elements, L591-600. -/
def permuteList : List Elem → Nat → List Nat → List Nat
  | [], _, l => l
  | e :: es, info, l => e.permute info (l.take e.dim) ++ permuteList es info (l.drop e.dim)
end

/-- `dof_permutation_fn(true, true)` -/
def Elem.permuteScalar (e : Elem) (info : Nat) (l : List Nat) : List Nat :=
  match e with
  | .blocked _ b => b.permute info l
  | e => e.permute info l

/-- `ElementDofLayout` -/
inductive Layout where
  | mk (bs : Nat) (ed : EDofs) (parentMap : List Nat) (subs : List Layout)

def Layout.bs : Layout → Nat
  | .mk b _ _ _ => b

def Layout.ed : Layout → EDofs
  | .mk _ e _ _ => e

def Layout.parentMap : Layout → List Nat
  | .mk _ _ p _ => p

def Layout.subs : Layout → List Layout
  | .mk _ _ _ s => s

/-- `num_dofs()`, computed in the constructor, `ElementDofLayout.cpp` L32-41. -/
def Layout.numDofs (L : Layout) : Nat := (L.ed.map fun d => (d.map List.length).sum).sum

/-- `copy()`, `ElementDofLayout.cpp` L44-49. -/
def Layout.copy : Layout → Layout
  | .mk b e _ s => .mk b e [] s

mutual
/-- `create_element_dof_layout(element, parent_map)`; the sub-elements of a blocked element are `bs` times the Basix
element. -/
def Elem.layout : Elem → List Nat → Layout
  | .base b, pm => .mk 1 b.ed pm []
  | .blocked bs b, pm => .mk bs b.ed pm ((List.range bs).map fun i =>
      .mk 1 b.ed ((List.range b.dim).map fun j => (if bs > 1 then i else i * b.dim) + bs * j) [])
  | .mixed es, pm => .mk 1 (mixedEd (edList es 0)) pm (layouts es 0)
/-- The loop over the sub-elements of a mixed element. -/
def layouts : List Elem → Nat → List Layout
  | [], _ => []
  | e :: es, o => e.layout ((List.range e.dim).map fun j => o + 1 * j) :: layouts es (o + e.dim)
end

/-- One step of `sub_view`, L104-119: `root` is `this`, the state is `element_dofmap_current` and `dof_list`.  The
next layout is taken from the sub-layouts of `this`. -/
def subStep (root : Layout) (s : Layout × List Nat) (i : Nat) : Option (Layout × List Nat) :=
  if s.1.subs.length ≤ i then none
  else do
    let cur ← root.subs[i]?
    let dofs ← (List.range (cur.numDofs * cur.bs)).mapM fun j => do s.2[← cur.parentMap[j]?]?
    some (cur, dofs)

/-- `sub_view(component)`, L97-122. -/
def Layout.subView (L : Layout) (comp : List Nat) : Option (List Nat) :=
  (comp.foldlM (subStep L) (L, List.range (L.numDofs * L.bs))).map Prod.snd

/-- `sub_layout(component)`, L83-94. -/
def Layout.subLayout (L : Layout) (comp : List Nat) : Option Layout :=
  match comp with
  | [] => none
  | a :: rest => do
    let cur ← L.subs[a]?
    rest.foldlM (fun _ i => L.subs[i]?) cur

/-- `DofMap` on one rank, without the index map. -/
structure DofMap where
  layout : Layout
  imbs : Nat
  arr : List Nat
  bs : Nat

/-- `_shape1`, `DofMap.h` L97-98. -/
def DofMap.width (D : DofMap) : Nat := D.layout.numDofs * D.layout.bs / D.bs

/-- `cell_dofs(c)`, `DofMap.h` L126-129. -/
def DofMap.cellDofs (D : DofMap) (c : Nat) : List Nat := (D.arr.drop (D.width * c)).take D.width

/-- `_dofmap.size() / _shape1` -/
def DofMap.numCells (D : DofMap) : Nat := D.arr.length / D.width

/-- `extract_sub_dofmap(component)`, L166-208. -/
def DofMap.extractSub (D : DofMap) (comp : List Nat) : Option DofMap := do
  let view ← D.layout.subView comp
  let rows ← (List.range D.numCells).mapM fun c => view.mapM fun l => do
    some (D.bs * (← (D.cellDofs c)[l / D.bs]?) + l % D.bs)
  some { layout := ← D.layout.subLayout comp, imbs := D.imbs, arr := rows.flatten, bs := 1 }

/-- `create_dofmap`, for the dofmap array of `build_dofmap_data` and the cell permutation info of the cells. -/
def createDofmap (e : Elem) (arr : List Nat) (info : Nat → Nat) : DofMap :=
  let L := e.layout []
  { layout := L, imbs := L.bs, bs := L.bs
    arr := (List.range (arr.length / L.numDofs)).flatMap fun c =>
      e.permuteScalar (info c) ((arr.drop (c * L.numDofs)).take L.numDofs) }

/-! ## Collapsing -/

/-- `dofs_view`, L42-49. -/
def dofsView (D : DofMap) : List Nat := unique (sortNat D.arr)

/-- The indices given to `create_sub_index_map`, L59-78. -/
def viewInput (W : World) (D : Nat → DofMap) : SubMap.Input where
  w := W
  ind r := if (D r).imbs = 1 then dofsView (D r) else (dofsView (D r)).map (· / (D r).imbs)
  preserve := true

/-- `old_to_new`, L80-92. -/
def oldToNewView (D : DofMap) (toParent : List Nat) : List (Option Nat) :=
  let size := match (dofsView D).getLast? with
    | none => 0
    | some x => x + D.imbs
  (toParent.zipIdx.flatMap fun p => (List.range D.imbs).map fun k => (p.1 * D.imbs + k, p.2)).foldl
    (fun a e => a.set e.1 (some e.2)) (List.replicate size none)

/-- A dofmap on all ranks with its index map. -/
structure Maps where
  W : World
  D : Nat → DofMap

/-- `build_collapsed_dofmap`, L28-115, when no rank throws. -/
def buildCollapsed (V : Maps) (P : Nat) : Option Maps := do
  let s := viewInput V.W V.D
  if (List.range P).any (fun r => decide ((V.D r).layout.bs > 1) || s.throws r) then none
  else
    let rows ← (List.range P).mapM fun r =>
      (V.D r).arr.mapM fun x => ((oldToNewView (V.D r) (s.toParent r)).getD x none)
    some { W := s.sub, D := fun r => { layout := (V.D r).layout.copy, imbs := 1, arr := rows.getD r [], bs := 1 } }

/-- The new dofmap of `collapse`, L219-243; `I` has the topology, the entity dofs and reordering for
`build_dofmap_data`, and `R` the required entities. -/
def collapseDofmap (V : Maps) (I : Dofmap.Input) (R : List Req) : Option Maps :=
  if (V.D 0).imbs = 1 ∧ (V.D 0).layout.bs > 1 then
    some { W := dofWorld I R
           D := fun r => { layout := (V.D r).layout, imbs := (V.D r).layout.bs, arr := dofmap I R r 0,
                           bs := (V.D r).layout.bs } }
  else buildCollapsed V I.P

/-- `collapsed_map`, L246-269. -/
def collapsedMap (V N : Maps) (r : Nat) : List Nat :=
  let bs := (N.D r).bs
  ((List.range (V.D r).numCells).flatMap fun c =>
    ((N.D r).cellDofs c).zipIdx.flatMap fun p => (List.range bs).map fun k =>
      (bs * p.1 + k, ((V.D r).cellDofs c).getD (bs * p.2 + k) 0)).foldl (fun a e => a.set e.1 e.2)
    (List.replicate ((N.W.size r + (N.W.ghosts r).length) * (N.D r).imbs) 0)

/-- `Function::collapse`, L130-139, on the values of one rank. -/
def collapseValues {α : Type} (map : List Nat) (x : List α) : Option (List α) := map.mapM fun i => x[i]?

end Verif.SubSpace
