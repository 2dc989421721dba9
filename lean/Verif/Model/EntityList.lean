import Mathlib.Data.List.Basic
/-!
# Vertex lists of mesh entities

Model of `build_entity_list`, `mesh/topologycomputation.cpp` L57-242, for one entity of one cell.  Local
vertex numbers are integers; `g` is `vertex_index_map.local_to_global`.  Exceptions are error values.  The
branch that sorts more than four vertices with `std::ranges::sort` always ends in the exception (L218-219) and
is modelled by it; the loop over cells and threads only places the rows.
-/
namespace Verif.EntityList

/-- Errors. -/
inductive Err where
  /-- "Unsupported entity vertex count." -/
  | unsupported
deriving DecidableEq, Repr

/-- Exchange of two elements. -/
def swapAt {α : Type} (d : α) (a b : Nat) (l : List α) : List α := (l.set a (l.getD b d)).set b (l.getD a d)

/-- `cmpswap`, L170-174 and L221-225. -/
def cmpswap {α : Type} (d : α) (key : α → Int) (a b : Nat) (l : List α) : List α :=
  if key (l.getD a d) > key (l.getD b d) then swapAt d a b l else l

/-- The five exchanges, L175-179 and L226-230. -/
def network {α : Type} (d : α) (key : α → Int) (l : List α) : List α :=
  cmpswap d key 1 2 (cmpswap d key 1 3 (cmpswap d key 0 2 (cmpswap d key 2 3 (cmpswap d key 0 1 l))))

/-- `std::rotate(it, it + 1, end)` at position `i`: that element moves to the end. -/
def rotateOut (i : Nat) (l : List Nat) : List Nat := l.take i ++ l.drop (i + 1) ++ (l.drop i).take 1

/-- The oriented vertices and the sorted key of an entity, L97-231. -/
def entityRow (g : Int → Int) (ev : List Int) : Except Err (List Int × List Int) :=
  match ev with
  | [l0, l1] =>
    let el := if g l0 ≤ g l1 then (l0, l1) else (l1, l0)
    .ok ([el.1, el.2], [min el.1 el.2, max el.1 el.2])
  | [l0, l1, l2] =>
    -- the pairs (g, l) are exchanged together
    let p := if g l0 > g l1 then (l1, l0) else (l0, l1)
    let l0 := p.1
    let l1 := p.2
    let p := if g l1 > g l2 then (l2, l1) else (l1, l2)
    let l1 := p.1
    let l2 := p.2
    let p := if g l0 > g l1 then (l1, l0) else (l0, l1)
    let l0 := p.1
    let l1 := p.2
    let q := if l0 > l1 then (l1, l0) else (l0, l1)
    let s0 := q.1
    let s1 := q.2
    let q := if s1 > l2 then (l2, s1) else (s1, l2)
    let s1 := q.1
    let s2 := q.2
    let q := if s0 > s1 then (s1, s0) else (s0, s1)
    .ok ([l0, l1, l2], [q.1, q.2, s2])
  | [_, _, _, _] =>
    let perm := network 0 (fun i => g (ev.getD i 0)) [0, 1, 2, 3]
    let opposite := 3 - perm.getD 0 0
    let perm := rotateOut (perm.idxOf opposite) perm
    let elist := perm.map fun i => ev.getD i 0
    .ok (elist, network 0 (fun x => x) elist)
  | _ => .error .unsupported

end Verif.EntityList
