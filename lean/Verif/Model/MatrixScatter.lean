import Verif.Model.World
import Verif.Model.Exchange
import Verif.Model.Offsets
import Verif.Model.SharedIndices
/-!
# Ghost row accumulation in `la::MatrixCSR`

Model of the communication set-up in the constructor, `la/MatrixCSR.h` L705-850, and of
`scatter_rev_begin` / `scatter_rev_end`, L399-470, in compact block mode, where `w0`, `w1` are
the row and column index maps of the matrix and every stored entry is a `bs0 * bs1` block.
A pair of `int64` (global row, global column) is one element of an exchange buffer.  Asserted
lookups (`lower_bound` hits) read a default value when the entry is missing.
-/
namespace Verif.MatScatter
open Verif.Std Verif.Exchange Verif.Offsets Verif.World

/-- Sparsity arrays of a rank: `_row_ptr` and `_cols`. -/
structure Graph where
  rowPtr : Nat → Nat
  cols : List Nat

/-- `std::copy(l, out + pos)`. -/
def copyAt {β : Type} (buf : List β) (pos : Nat) (l : List β) : List β :=
  l.zipIdx.foldl (fun b x => b.set (pos + x.2) x.1) buf

/-- `_ghost_row_to_rank[i]`, L723-732. -/
def ghostRowToRank (w0 : World) (q i : Nat) : Nat :=
  lowerBound (fun s => decide (s < (w0.owners q).getD i 0)) (w0.src q)

/-- `data_per_proc`, L734-741. -/
def dataPerProc (w0 : World) (g : Nat → Graph) (q : Nat) : List Nat :=
  (List.range (w0.owners q).length).foldl
    (fun c i => c.modify (ghostRowToRank w0 q i)
      (· + ((g q).rowPtr (w0.size q + i + 1) - (g q).rowPtr (w0.size q + i))))
    (List.replicate (w0.src q).length 0)

/-- `_val_send_disp`, L743-746, in entries. -/
def sendDisp (w0 : World) (g : Nat → Graph) (q b : Nat) : Nat := ((dataPerProc w0 g q).take b).sum

/-- Global index of a local column, L762-765. -/
def globalCol (w1 : World) (q c : Nat) : Nat :=
  if c < w1.size q then c + w1.r0 q else (w1.ghosts q).getD (c - w1.size q) 0

/-- The iterations of the index pack loop, L752-767: (`rank`, (row, column)). -/
def indexRecords (w0 w1 : World) (g : Nat → Graph) (q : Nat) : List (Nat × (Nat × Nat)) :=
  (List.range (w0.owners q).length).flatMap fun i =>
    (List.range ((g q).rowPtr (w0.size q + i + 1) - (g q).rowPtr (w0.size q + i))).map fun t =>
      (ghostRowToRank w0 q i,
        ((w0.ghosts q).getD i 0, globalCol w1 q ((g q).cols.getD ((g q).rowPtr (w0.size q + i) + t) 0)))

/-- `ghost_index_data`, L748-769, through the cursors `insert_pos`. -/
def ghostIndexData (w0 w1 : World) (g : Nat → Graph) (q : Nat) : List (Nat × Nat) :=
  (fill Prod.fst Prod.snd (sendDisp w0 g q) (List.replicate (dataPerProc w0 g q).sum (0, 0))
    (indexRecords w0 w1 g q)).2

/-- `ghost_index_array`, L771-799. -/
def ghostIndexArray (w0 w1 : World) (g : Nat → Graph) (r : Nat) : List (Nat × Nat) :=
  neighborAlltoallv w0.src w0.dest (fun q => chunks (dataPerProc w0 g q) (ghostIndexData w0 w1 g q)) r

/-- Sorted `global_to_local` pairs of the ghost columns, L810-815. -/
def globalToLocal (w1 : World) (r : Nat) : List (Nat × Nat) :=
  Shared.lexSort ((w1.ghosts r).zipIdx.map fun p => (p.1, p.2 + w1.size r))

/-- Local index of a global column, L826-836. -/
def localCol (w1 : World) (r gc : Nat) : Nat :=
  if gc < w1.r0 r ∨ w1.r0 r + w1.size r ≤ gc then
    ((globalToLocal w1 r).getD (lowerBound (fun p => decide (p.1 < gc)) (globalToLocal w1 r)) (0, 0)).2
  else gc - w1.r0 r

/-- Position `d` of a received entry in the arrays of the owner, L820-846. -/
def entryPos (w0 w1 : World) (g : Nat → Graph) (r : Nat) (e : Nat × Nat) : Nat :=
  let row := e.1 - w0.r0 r
  let b := (g r).rowPtr row
  b + lowerBound (fun c => decide (c < localCol w1 r e.2)) (((g r).cols.drop b).take ((g r).rowPtr (row + 1) - b))

/-- `_unpack_pos`, L817-848. -/
def unpackPos (w0 w1 : World) (g : Nat → Graph) (r : Nat) : List Nat :=
  (ghostIndexArray w0 w1 g r).map (entryPos w0 w1 g r)

variable {R : Type}

/-- One iteration of the value pack loop, L409-420: state (`insert_pos`, `_ghost_value_data`). -/
def packStep (w0 : World) (g : Nat → Graph) (bs2 q : Nat) (data : Nat → R)
    (s : (Nat → Nat) × List R) (i : Nat) : (Nat → Nat) × List R :=
  let rank := ghostRowToRank w0 q i
  let b := (g q).rowPtr (w0.size q + i)
  let e := (g q).rowPtr (w0.size q + i + 1)
  let slice := (List.range (e * bs2 - b * bs2)).map fun t => data (b * bs2 + t)
  (fun k => if k = rank then s.1 k + bs2 * (e - b) else s.1 k, copyAt s.2 (s.1 rank) slice)

/-- `_ghost_value_data`, L405-421 (`_val_send_disp` scaled by `bs2`, L806-807). -/
def ghostValueData [Zero R] (w0 : World) (g : Nat → Graph) (bs2 : Nat) (data : Nat → Nat → R) (q : Nat) : List R :=
  ((List.range (w0.ghosts q).length).foldl (packStep w0 g bs2 q (data q))
    (fun b => sendDisp w0 g q b * bs2, List.replicate ((dataPerProc w0 g q).sum * bs2) 0)).2

/-- `_ghost_value_data_in`, L423-438; the counts are `bs2` times those of the entries. -/
def ghostValueDataIn [Zero R] (w0 : World) (g : Nat → Graph) (bs2 : Nat) (data : Nat → Nat → R) (r : Nat) : List R :=
  neighborAlltoallv w0.src w0.dest
    (fun q => chunks ((dataPerProc w0 g q).map (· * bs2)) (ghostValueData w0 g bs2 data q)) r

/-- `_data[p] += v`. -/
def addAt [Add R] (d : Nat → R) (p : Nat) (v : R) : Nat → R := fun n => if n = p then d n + v else d n

/-- `scatter_rev_begin` followed by `scatter_rev_end` on rank `r`. -/
def scatterRev [Zero R] [Add R] (w0 w1 : World) (g : Nat → Graph) (bs2 : Nat) (data : Nat → Nat → R) (r : Nat) :
    Nat → R :=
  let buf := ghostValueDataIn w0 g bs2 data r
  let pos := unpackPos w0 w1 g r
  let d := (List.range pos.length).foldl (fun d i =>
    (List.range bs2).foldl (fun d j => addAt d (pos.getD i 0 * bs2 + j) (buf.getD (i * bs2 + j) 0)) d) (data r)
  fun n => if (g r).rowPtr (w0.size r) * bs2 ≤ n then 0 else d n

end Verif.MatScatter
