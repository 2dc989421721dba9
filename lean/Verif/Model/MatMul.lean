import Verif.Model.SpMV
import Verif.Model.MatrixScatter
import Verif.Model.SharedIndices
/-!
# `la::matmul`

Model of `la/matmul.h` L107-580 for block size 1 (other block sizes are rejected, L554-558).
`wA` is the column map of `A`, `wR` and `wC` are the row and column maps of `B`.  The three
parallel buffers of values, global columns and column owners are one exchange of records.
-/
namespace Verif.MatMul
open Verif.Std Verif.Exchange Verif.Offsets Verif.World Verif.SpMV Verif.MatScatter

variable {R : Type}

/-- Rank `r` fetches nothing, L132-133. -/
def fast (wA : World) (r : Nat) : Bool := decide (wA.P = 1) || (decide (wA.src r = []) && decide (wA.dest r = []))

/-! ## `fetch_ghost_rows` -/

/-- `rank_to_nbr(ghost_owners[i])`, L145-150. -/
def nbr (wA : World) (q i : Nat) : Nat :=
  lowerBound (fun s => decide (s < (wA.owners q).getD i 0)) (wA.src q)

/-- `send_count`, L166-170. -/
def sendCount (wA : World) (q : Nat) : List Nat :=
  (List.range (wA.owners q).length).foldl (fun c i => c.modify (nbr wA q i) (· + 1)) (List.replicate (wA.src q).length 0)

/-- One iteration of the loop filling `required_globals` and `perm`, L186-191. -/
def permStep (wA : World) (q : Nat) (s : ((Nat → Nat) × List Nat) × List Nat) (i : Nat) :
    ((Nat → Nat) × List Nat) × List Nat :=
  (fillStep (nbr wA q) (fun i => (wA.ghosts q).getD i 0) s.1 i, s.2 ++ [s.1.1 (nbr wA q i)])

/-- The loop L184-191. -/
def permLoop (wA : World) (q : Nat) : ((Nat → Nat) × List Nat) × List Nat :=
  (List.range (wA.owners q).length).foldl (permStep wA q)
    ((fun b => ((sendCount wA q).take b).sum, List.replicate (wA.ghosts q).length 0), [])

/-- `required_globals`. -/
def required (wA : World) (q : Nat) : List Nat := (permLoop wA q).1.2

/-- `perm`. -/
def perm (wA : World) (q : Nat) : List Nat := (permLoop wA q).2

/-- `recv_count`, L171-172. -/
def recvCount (wA : World) (r : Nat) : List Nat := neighborAlltoall wA.src wA.dest (sendCount wA) r

/-- `recv_row_locals`, L197-211. -/
def recvLocals (wA wR : World) (r : Nat) : List Nat :=
  (neighborAlltoallv wA.src wA.dest (fun q => chunks (sendCount wA q) (required wA q)) r).map
    fun g : Nat => ((wR.map r).globalToLocal (g : Int)).toNat

/-- `row_ptr_B[j + 1] - row_ptr_B[j]`. -/
def rowSize (M : Mat R) (j : Nat) : Nat := M.rowPtr (j + 1) - M.rowPtr j

/-- `send_entry_count`, L216-230. -/
def sendEntryCount (wA wR : World) (B : Nat → Mat R) (r : Nat) : List Nat :=
  (chunks (recvCount wA r) (recvLocals wA wR r)).map fun l => (l.map (rowSize (B r))).sum

/-- The records of one row: value, global column, owner of the column; L242-250 and L273-291. -/
def rowRecord (wC : World) (B : Nat → Mat R) (r j : Nat) : List (R × Nat × Nat) :=
  (List.range (rowSize (B r) j)).map fun t =>
    let c := (B r).cols ((B r).rowPtr j + t)
    ((B r).values ((B r).rowPtr j + t), ((wC.map r).localToGlobal c).getD 0,
      if c < wC.size r then r else (wC.owners r).getD (c - wC.size r) 0)

/-- `send_vals`, `send_col_data`, `send_col_owners` (written one row after the other), L239-295. -/
def sendEntries (wA wR wC : World) (B : Nat → Mat R) (r : Nat) : List (R × Nat × Nat) :=
  (recvLocals wA wR r).flatMap (rowRecord wC B r)

/-- `recv_vals`, `recv_col_data`, `recv_col_owners`, L251-255 and L297-304. -/
def recvEntries (wA wR wC : World) (B : Nat → Mat R) (r : Nat) : List (R × Nat × Nat) :=
  neighborAlltoallv wA.dest wA.src (fun s => chunks (sendEntryCount wA wR B s) (sendEntries wA wR wC B s)) r

/-- `recv_row_size`, L293 and L305-308. -/
def recvRowSize (wA wR : World) (B : Nat → Mat R) (r : Nat) : List Nat :=
  neighborAlltoallv wA.dest wA.src
    (fun s => chunks (recvCount wA s) ((recvLocals wA wR s).map (rowSize (B s)))) r

/-- `col_owner_pairs` sorted and without repetition, L323-346. -/
def colOwnerPairs (wA wR wC : World) (B : Nat → Mat R) (r : Nat) : List (Nat × Nat) :=
  unique (Shared.lexSort
    ((((recvEntries wA wR wC B r).map fun e => (e.2.1, e.2.2)).filter
        fun p => !(decide (wC.r0 r ≤ p.1) && decide (p.1 < wC.r0 r + wC.size r))) ++
      (wC.ghosts r).zip (wC.owners r)))

/-- `new_col_map` of all ranks, L135-138 and L348-358. -/
def newColMap (wA wR wC : World) (B : Nat → Mat R) : World where
  P := wC.P
  size := wC.size
  ghosts := fun r => if fast wA r then wC.ghosts r else (colOwnerPairs wA wR wC B r).map Prod.fst
  owners := fun r => if fast wA r then wC.owners r else (colOwnerPairs wA wR wC B r).map Prod.snd

/-- Local index in the new column map, L360-362 and L433-435. -/
def toNew (wA wR wC : World) (B : Nat → Mat R) (r g : Nat) : Nat :=
  (((newColMap wA wR wC B).map r).globalToLocal (g : Int)).toNat

/-- `orig_ghost_row_ptr`, L367-372. -/
def origPtr (wA wR : World) (B : Nat → Mat R) (r : Nat) : Nat → Nat :=
  excl fun i => (recvRowSize wA wR B r).getD ((perm wA r).getD i 0) 0

/-- The reordering of one received buffer, L374-387. -/
def reorder {γ : Type} (wA wR : World) (B : Nat → Mat R) (r : Nat) (z : γ) (buf : List γ) : List γ :=
  let ptr := excl fun p => (recvRowSize wA wR B r).getD p 0
  (List.range (perm wA r).length).foldl (fun out i =>
    let p := (perm wA r).getD i 0
    copyAt out (origPtr wA wR B r i) ((buf.drop (ptr p)).take (ptr (p + 1) - ptr p))) (List.replicate buf.length z)

/-- The fetched rows: row pointer, columns in the new map, values; L139-140 and L389. -/
def ghostRows [Zero R] (wA wR wC : World) (B : Nat → Mat R) (r : Nat) : (Nat → Nat) × List Nat × List R :=
  if fast wA r then (fun _ => 0, [], []) else
    (origPtr wA wR B r,
     reorder wA wR B r 0 ((recvEntries wA wR wC B r).map fun e => toNew wA wR wC B r e.2.1),
     reorder wA wR B r 0 ((recvEntries wA wR wC B r).map fun e => e.1))

/-! ## `impl::matmul` -/

section
variable [Semiring R] [DecidableEq R]

/-- `acc`, `in_row`, `row_cols`. -/
structure Acc (R : Type) where
  acc : Nat → R
  inRow : Nat → Bool
  rowCols : List Nat

/-- One contribution `v` to column `k`, L470-476 and L489-495. -/
def addTerm (s : Acc R) (kv : Nat × R) : Acc R :=
  let s' : Acc R := if !s.inRow kv.1 && decide (kv.2 ≠ 0) then
      ⟨s.acc, fun k => if k = kv.1 then true else s.inRow k, s.rowCols ++ [kv.1]⟩ else s
  ⟨fun k => if k = kv.1 then s'.acc k + kv.2 else s'.acc k, s'.inRow, s'.rowCols⟩

/-- Contributions to row `i` from owned columns of `A`, L460-478. -/
def localTerms (wA wR wC : World) (A B : Nat → Mat R) (r i : Nat) : List (Nat × R) :=
  (List.range ((A r).offDiag i - (A r).rowPtr i)).flatMap fun s =>
    let ka := (A r).rowPtr i + s
    let j := (A r).cols ka
    (List.range (rowSize (B r) j)).map fun t =>
      let kb := (B r).rowPtr j + t
      let c := (B r).cols kb
      (if c < wC.size r then c else toNew wA wR wC B r ((wC.ghosts r).getD (c - wC.size r) 0),
       (A r).values ka * (B r).values kb)

/-- Contributions to row `i` from ghost columns of `A`, L480-497. -/
def ghostTerms (wA wR wC : World) (A B : Nat → Mat R) (r i : Nat) : List (Nat × R) :=
  let g := ghostRows wA wR wC B r
  (List.range ((A r).rowPtr (i + 1) - (A r).offDiag i)).flatMap fun s =>
    let ka := (A r).offDiag i + s
    let j := (A r).cols ka - wR.size r
    (List.range (g.1 (j + 1) - g.1 j)).map fun t =>
      (g.2.1.getD (g.1 j + t) 0, (A r).values ka * g.2.2.getD (g.1 j + t) 0)

/-- Removal of cancelled columns, L499-510: (`in_row`, remaining columns). -/
def cancel (acc : Nat → R) : (Nat → Bool) → List Nat → (Nat → Bool) × List Nat
  | inRow, [] => (inRow, [])
  | inRow, c :: cs =>
    if acc c = 0 then cancel acc (fun k => if k = c then false else inRow k) cs
    else let s := cancel acc inRow cs; (s.1, c :: s.2)

/-- Output arrays: `cols_C`, `vals_C`, `row_ptr_C`, `off_diag_offsets_C`. -/
structure Out (R : Type) where
  cols : List Nat
  vals : List R
  rowPtr : List Nat
  offDiag : List Nat

/-- One row, L456-531: state (`acc`, `in_row`, output). -/
def rowStep (nown : Nat) (terms : Nat → List (Nat × R)) (s : (Nat → R) × (Nat → Bool) × Out R) (i : Nat) :
    (Nat → R) × (Nat → Bool) × Out R :=
  let a := (terms i).foldl addTerm ⟨s.1, s.2.1, []⟩
  let c := cancel a.acc a.inRow a.rowCols
  let row := sortNat c.2
  let od := lowerBound (fun c => decide (c < nown)) row
  let f := row.foldl (fun (f : (Nat → R) × (Nat → Bool) × List Nat × List R) c =>
    (fun k => if k = c then 0 else f.1 k, fun k => if k = c then false else f.2.1 k, f.2.2.1 ++ [c], f.2.2.2 ++ [f.1 c]))
    (a.acc, c.1, s.2.2.cols, s.2.2.vals)
  (f.1, f.2.1, ⟨f.2.2.1, f.2.2.2, s.2.2.rowPtr ++ [f.2.2.1.length], s.2.2.offDiag ++ [od]⟩)

/-- `impl::matmul` on rank `r`, L409-535. -/
def product (wA wR wC : World) (A B : Nat → Mat R) (r : Nat) : Out R :=
  ((List.range (A r).nrows).foldl
    (rowStep (wC.size r) fun i => localTerms wA wR wC A B r i ++ ghostTerms wA wR wC A B r i)
    (fun _ => 0, fun _ => false, ⟨[], [], [0], []⟩)).2.2

/-- `la::matmul` on rank `r`, L548-580 (`off_diag_offset` is the row start plus the number of
owned columns, `la/MatrixCSR.h` L696-702). -/
def matmul (wA wR wC : World) (A B : Nat → Mat R) (r : Nat) : Mat R :=
  let o := product wA wR wC A B r
  ⟨(A r).nrows, fun i => o.rowPtr.getD i 0, fun i => o.rowPtr.getD i 0 + o.offDiag.getD i 0,
   fun k => o.cols.getD k 0, fun k => o.vals.getD k 0⟩

end

end Verif.MatMul
