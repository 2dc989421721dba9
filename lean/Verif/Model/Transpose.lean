import Verif.Model.SpMV
import Verif.Model.MatrixScatter
/-!
# `la::transpose`

Model of `la/mattrans.h` L41-438.  `A r` holds the arrays of rank `r` (owned rows only are
read), `w0`, `w1` the row and column maps.  One element of a message is the record (global row,
global column, block) that the code sends in three parallel buffers.  The block-size variants
selected at compile time run the same loops.  Arrays of scalars are functions on positions.
-/
namespace Verif.Transpose
open Verif.Std Verif.Exchange Verif.Offsets Verif.World Verif.SpMV Verif.MatScatter

variable {R : Type} [Zero R]

/-- `vals[pos*bs0*bs1 + k1*bs0 + k0] = blk[k0*bs1 + k1]` for all components, L82-96, L400-413. -/
def putBlock (bs0 bs1 : Nat) (v : Nat → R) (pos : Nat) (blk : Nat → R) : Nat → R :=
  (List.range bs0).foldl (fun v k0 => (List.range bs1).foldl (fun v k1 =>
    fun n => if n = pos * bs0 * bs1 + k1 * bs0 + k0 then blk (k0 * bs1 + k1) else v n) v) v

/-- `pos = cursor[key]++; cols[pos] = col;` block write, L77-97 and L396-415: state (cursor,
columns, values). -/
def putStep {α : Type} (bs0 bs1 : Nat) (key col : α → Nat) (blk : α → Nat → R)
    (s : (Nat → Nat) × List Nat × (Nat → R)) (x : α) : (Nat → Nat) × List Nat × (Nat → R) :=
  let pos := s.1 (key x)
  (fun b => if b = key x then s.1 b + 1 else s.1 b, s.2.1.set pos (col x), putBlock bs0 bs1 s.2.2 pos (blk x))

/-- Iterations (row, position) of the loops over owned columns, L59-61 and L73-75. -/
def localItems (A : Mat R) : List (Nat × Nat) :=
  (List.range A.nrows).flatMap fun i => (List.range (A.offDiag i - A.rowPtr i)).map fun t => (i, A.rowPtr i + t)

/-- `row_offsetT`, L57-67. -/
def at0Ptr (A : Mat R) : Nat → Nat := excl (cnt (fun x => A.cols x.2) (localItems A))

/-- `local_transpose`, L41-100; `ncol` owned columns: (columns, values). -/
def localTranspose (bs0 bs1 ncol : Nat) (A : Mat R) : List Nat × (Nat → R) :=
  ((localItems A).foldl (putStep bs0 bs1 (fun x => A.cols x.2) Prod.fst fun x c => A.values (x.2 * bs0 * bs1 + c))
    (at0Ptr A, List.replicate (at0Ptr A ncol) 0, fun _ => 0)).2

/-- Iterations (row, position) of the loops over ghost columns, L212-214 and L250-253. -/
def sendItems (A : Mat R) : List (Nat × Nat) :=
  (List.range A.nrows).flatMap fun i => (List.range (A.rowPtr (i + 1) - A.offDiag i)).map fun t => (i, A.offDiag i + t)

/-- `ghost_col_owners[cols_A[k] - n_col]`, L187-198. -/
def sendPos (w1 : World) (A : Nat → Mat R) (q : Nat) (x : Nat × Nat) : Nat :=
  lowerBound (fun s => decide (s < (w1.owners q).getD ((A q).cols x.2 - w1.size q) 0)) (w1.src q)

/-- `send_count`, L211-219. -/
def sendCount (w1 : World) (A : Nat → Mat R) (q : Nat) : List Nat :=
  (sendItems (A q)).foldl (fun c x => c.modify (sendPos w1 A q x) (· + 1)) (List.replicate (w1.src q).length 0)

/-- Record written for one entry, L257-262. -/
def sendRecord (w0 w1 : World) (bs0 bs1 : Nat) (A : Nat → Mat R) (q : Nat) (x : Nat × Nat) : Nat × Nat × List R :=
  (w0.r0 q + x.1, (w1.ghosts q).getD ((A q).cols x.2 - w1.size q) 0,
    (List.range (bs0 * bs1)).map fun c => (A q).values (x.2 * (bs0 * bs1) + c))

/-- Send buffers, L225-264. -/
def sendBuf (w0 w1 : World) (bs0 bs1 : Nat) (A : Nat → Mat R) (q : Nat) : List (Nat × Nat × List R) :=
  (fill (sendPos w1 A q) (sendRecord w0 w1 bs0 bs1 A q) (fun b => ((sendCount w1 A q).take b).sum)
    (List.replicate (sendCount w1 A q).sum (0, 0, [])) (sendItems (A q))).2

/-- `recv_count`, L221-223. -/
def recvCount (w1 : World) (A : Nat → Mat R) (r : Nat) : List Nat :=
  neighborAlltoall w1.src w1.dest (sendCount w1 A) r

/-- Receive buffers, L266-301. -/
def recvBuf (w0 w1 : World) (bs0 bs1 : Nat) (A : Nat → Mat R) (r : Nat) : List (Nat × Nat × List R) :=
  neighborAlltoallv w1.src w1.dest (fun q => chunks (sendCount w1 A q) (sendBuf w0 w1 bs0 bs1 A q)) r

/-- `ghost_row_pairs` sorted and without repetition, L325-357. -/
def ghostPairs (w0 w1 : World) (bs0 bs1 : Nat) (A : Nat → Mat R) (r : Nat) : List (Nat × Nat) :=
  unique (Shared.lexSort (((w1.dest r).zip (chunks (recvCount w1 A r) (recvBuf w0 w1 bs0 bs1 A r))).flatMap
    fun pb => pb.2.map fun e => (e.1, pb.1)))

/-- Rank `r` takes the path without communication, L159-161. -/
def fast (w1 : World) (r : Nat) : Bool := decide (w1.P = 1) || (decide (w1.src r = []) && decide (w1.dest r = []))

/-- `at_col_map` of all ranks, L164 and L359-360. -/
def colMap (w0 w1 : World) (bs0 bs1 : Nat) (A : Nat → Mat R) : World where
  P := w0.P
  size := w0.size
  ghosts := fun r => if fast w1 r then [] else (ghostPairs w0 w1 bs0 bs1 A r).map Prod.fst
  owners := fun r => if fast w1 r then [] else (ghostPairs w0 w1 bs0 bs1 A r).map Prod.snd

/-- `at_row_map`, L165 and L421: ghost-free. -/
def rowMap (w1 : World) : World := ⟨w1.P, w1.size, fun _ => [], fun _ => []⟩

/-- `new_col_local`, L362-364. -/
def newCol (w0 w1 : World) (bs0 bs1 : Nat) (A : Nat → Mat R) (r : Nat) (e : Nat × Nat × List R) : Nat :=
  (((colMap w0 w1 bs0 bs1 A).map r).globalToLocal (e.1 : Int)).toNat

/-- `new_row_count`, L311-320. -/
def newRowCount (w0 w1 : World) (bs0 bs1 : Nat) (A : Nat → Mat R) (r j : Nat) : Nat :=
  (at0Ptr (A r) (j + 1) - at0Ptr (A r) j) + cnt (fun e => e.2.1 - w1.r0 r) (recvBuf w0 w1 bs0 bs1 A r) j

/-- Copy of a slice of values, L374-376. -/
def copyVals (v : Nat → R) (dst n : Nat) (src : Nat → R) : Nat → R :=
  fun p => if dst ≤ p ∧ p < dst + n then src (p - dst) else v p

/-- One iteration of the loop copying local rows, L369-377. -/
def copyRow (bs0 bs1 : Nat) (ptr0 ptr : Nat → Nat) (at0 : List Nat × (Nat → R)) (s : List Nat × (Nat → R)) (i : Nat) :
    List Nat × (Nat → R) :=
  (copyAt s.1 (ptr i) ((at0.1.drop (ptr0 i)).take (ptr0 (i + 1) - ptr0 i)),
   copyVals s.2 (ptr i * bs0 * bs1) (ptr0 (i + 1) * bs0 * bs1 - ptr0 i * bs0 * bs1)
     fun t => at0.2 (ptr0 i * bs0 * bs1 + t))

/-- Result on a rank with neighbours, L309-427. -/
def slow (w0 w1 : World) (bs0 bs1 : Nat) (A : Nat → Mat R) (r : Nat) : Mat R :=
  let ncol := w1.size r
  let at0 := localTranspose bs0 bs1 ncol (A r)
  let ptr0 := at0Ptr (A r)
  let ptr := excl (newRowCount w0 w1 bs0 bs1 A r)
  let s := (List.range ncol).foldl (copyRow bs0 bs1 ptr0 ptr at0) (List.replicate (ptr ncol) 0, fun _ => 0)
  let out := ((recvBuf w0 w1 bs0 bs1 A r).foldl
    (putStep bs0 bs1 (fun e => e.2.1 - w1.r0 r) (newCol w0 w1 bs0 bs1 A r) fun e c => e.2.2.getD c 0)
    (fun j => ptr j + (ptr0 (j + 1) - ptr0 j), s.1, s.2)).2
  ⟨ncol, ptr, fun j => ptr j + (ptr0 (j + 1) - ptr0 j), fun p => out.1.getD p 0, out.2⟩

/-- `transpose` on rank `r`, L127-438 (`off_diag_offset` is the row start plus the number of
owned columns, `la/MatrixCSR.h` L696-702). -/
def transpose (w0 w1 : World) (bs0 bs1 : Nat) (A : Nat → Mat R) (r : Nat) : Mat R :=
  if fast w1 r then
    let at0 := localTranspose bs0 bs1 (w1.size r) (A r)
    let ptr0 := at0Ptr (A r)
    ⟨w1.size r, ptr0, fun j => ptr0 j + (ptr0 (j + 1) - ptr0 j), fun p => at0.1.getD p 0, at0.2⟩
  else slow w0 w1 bs0 bs1 A r

end Verif.Transpose
