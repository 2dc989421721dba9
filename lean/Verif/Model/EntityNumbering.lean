import Verif.Model.EntityList
import Verif.Model.LocalRange
/-!
# Numbering of mesh entities on one process

Model of the process-local part of `compute_entities_by_key_matching`,
`cpp/dolfinx/mesh/topologycomputation.cpp` L712-952.  The cell-vertex array is given by its rows.  The two
arrays written by `build_entity_list` (oriented vertices and sorted keys) are one array of pairs, since both are
written at the same row by the same step.  Threads are modelled by their lists of writes, executed in any
interleaving.  The sort of L829-866 is a parameter `order` of the numbering loop.
-/
namespace Verif.EntityNumbering
open Verif.EntityList Verif.LocalRange

/-- The cells of one type on this process: rows of the cell-vertex array, the cell vertices of each entity of the
wanted type (`e_vertices.links(cell_type_entities[k][e])`, L736-741 and L777), and the number of owned cells. -/
structure CellList where
  cells : List (List Int)
  ents : List (List Nat)
  owned : Nat

/-- Vertices of entity `e` of cell `c`, L104-105. -/
def CellList.verts (cl : CellList) (c e : Nat) : List Int :=
  (cl.ents.getD e []).map fun j => (cl.cells.getD c []).getD j 0

/-- Number of entity instances of a cell type, L743-746. -/
def CellList.count (cl : CellList) : Nat := cl.cells.length * cl.ents.length

/-- `cell_type_offsets[k]`, L733, L745. -/
def offset (ls : List CellList) (k : Nat) : Nat := ((ls.take k).map CellList.count).sum

/-- The pair of rows of an entity (an unsupported vertex count raises; see C36). -/
def row (g : Int → Int) (ev : List Int) : List Int × List Int :=
  match entityRow g ev with
  | .ok r => r
  | .error _ => ([], [])

/-- Writes of one call of `build_entity_list` (L75-239) on cells `c0, ..., c1-1`, the first one at row
`base + c0 * m` (L789-797, L808-813). -/
def threadWrites (g : Int → Int) (cl : CellList) (base : Nat) (rng : Nat × Nat) : List (Nat × (List Int × List Int)) :=
  (List.range (rng.2 - rng.1)).flatMap fun c => (List.range cl.ents.length).map fun e =>
    (base + rng.1 * cl.ents.length + c * cl.ents.length + e, row g (cl.verts (rng.1 + c) e))

/-- All writes for one cell type, thread by thread, L785-820. -/
def typeWrites (g : Int → Int) (threads : Nat) (cl : CellList) (base : Nat) : List (Nat × (List Int × List Int)) :=
  (List.range threads).flatMap fun t => threadWrites g cl base (localRange t cl.cells.length threads)

/-- The arrays after executing a sequence of writes. -/
def runWrites {α : Type} (a : List α) (ws : List (Nat × α)) : List α := ws.foldl (fun a w => a.set w.1 w.2) a

/-- The numbering loop, L868-892: the run of rows with the key of the first remaining row gets the next number.
`fuel` bounds the number of runs; `order.length` is enough. -/
def numberLoop (key : Nat → List Int) : Nat → List Nat → Nat → List Nat → List Nat × Nat
  | 0, _, count, index => (index, count)
  | _ + 1, [], count, index => (index, count)
  | fuel + 1, i0 :: rest, count, index =>
    let run := (i0 :: rest).takeWhile fun i => decide (key i0 = key i)
    let after := (i0 :: rest).dropWhile fun i => decide (key i0 = key i)
    numberLoop key fuel after (count + 1) (run.foldl (fun a i => a.set i count) index)

/-- `entity_index` and `entity_count`, L823-893. -/
def number (keys : List (List Int)) (order : List Nat) : List Nat × Nat :=
  numberLoop (fun i => keys.getD i []) order.length order 0 (List.replicate keys.length 0)

/-- `ghost_status`, L900-918: all ones, then zero for every entity of an owned cell. -/
def ghostStatus (ls : List CellList) (index : List Nat) (count : Nat) : List Nat :=
  (List.range ls.length).foldl (fun s k =>
    match ls[k]? with
    | some cl => (List.range (cl.owned * cl.ents.length)).foldl
        (fun s i => s.set (index.getD (i + offset ls k) 0) 0) s
    | none => s) (List.replicate count 1)

/-- `ev`, L926-934: row `i` is copied to entity `local_index[i]`. -/
def entityVertices (rows : List (List Int)) (localIndex : List Nat) (count : Nat) : List (List Int) :=
  runWrites (List.replicate count []) (localIndex.zip rows)

/-- `ce[k]->links(c)`, L936-948. -/
def cellEntities (ls : List CellList) (localIndex : List Nat) (k c : Nat) : List Nat :=
  match ls[k]? with
  | some cl => (((localIndex.take (offset ls (k + 1))).drop (offset ls k)).drop (c * cl.ents.length)).take cl.ents.length
  | none => []

end Verif.EntityNumbering
