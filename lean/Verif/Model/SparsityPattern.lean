import Verif.Model.World
import Verif.Model.Exchange
import Verif.Model.Offsets
/-!
# `la::SparsityPattern`

Model of `cpp/dolfinx/la/SparsityPattern.cpp` L28-44 and L194-527 (the stacking constructor
L56-192 is not modelled here).  A record of three `int64` (global row, global column, column
owner) is one element of an exchange buffer.  Local and global indices are naturals.
-/
namespace Verif.SP
open Verif.Std Verif.Exchange Verif.Offsets Verif.World

/-- Errors raised by the class. -/
inductive Err where
  /-- "Cannot insert into sparsity pattern. It has already been finalized" -/
  | alreadyFinalized
  /-- "Sparsity pattern has already been finalised." -/
  | finalizedTwice
  /-- "Sparsity pattern has not been finalized." -/
  | notFinalized
deriving DecidableEq, Repr

/-- Members of one rank's object: `_cache_rows`/`_cache_cols` (always of equal length),
`_offsets`, `_edges`, `_off_diagonal_offsets`, `_col_ghosts`, `_col_ghost_owners`. -/
structure Pattern where
  cache : List (Nat × Nat)
  offsets : List Nat
  edges : List Nat
  offDiag : List Nat
  colGhosts : List Nat
  colOwners : List Nat
deriving DecidableEq, Repr

/-- Constructor, L47-53. -/
def new : Pattern := ⟨[], [], [], [], [], []⟩

/-- `insert(row, col)`, L194-205. -/
def insert1 (p : Pattern) (row col : Nat) : Except Err Pattern :=
  if p.offsets ≠ [] then .error .alreadyFinalized
  else .ok { p with cache := p.cache ++ [(row, col)] }

/-- `insert(rows, cols)`, L207-227. -/
def insert (p : Pattern) (rows cols : List Nat) : Except Err Pattern :=
  if p.offsets ≠ [] then .error .alreadyFinalized
  else .ok { p with cache := rows.foldl (fun c row => c ++ cols.map fun col => (row, col)) p.cache }

/-- `insert_diagonal(rows)`, L229-240. -/
def insertDiagonal (p : Pattern) (rows : List Nat) : Except Err Pattern :=
  if p.offsets ≠ [] then .error .alreadyFinalized
  else .ok { p with cache := p.cache ++ rows.map fun row => (row, row) }

/-- `bucket_by_row`, L28-44: offsets and columns grouped by row. -/
def bucketByRow (entries : List (Nat × Nat)) (numRows : Nat) : List Nat × List Nat :=
  let c := cnt Prod.fst entries
  ((List.range (numRows + 1)).map (excl c),
   (fill Prod.fst Prod.snd (excl c) (List.replicate entries.length 0) entries).2)

/-- Columns of row `i` in a bucketed list. -/
def slice (b : List Nat × List Nat) (i : Nat) : List Nat :=
  (b.2.drop (b.1.getD i 0)).take (b.1.getD (i + 1) 0 - b.1.getD i 0)

/-- Global column and owner of a local column, L336-345. -/
def colRecord (w1 : World) (q c : Nat) : Nat × Nat :=
  if c < w1.size q then (c + w1.r0 q, q)
  else ((w1.ghosts q).getD (c - w1.size q) 0, (w1.owners q).getD (c - w1.size q) 0)

/-- Bucketed cache of a rank, L286-290. -/
def bucketed (w0 : World) (cache : Nat → List (Nat × Nat)) (q : Nat) : List Nat × List Nat :=
  bucketByRow (cache q) (w0.size q + (w0.ghosts q).length)

/-- `neighbour_rank[i]`, L297-306. -/
def neighbourRank (w0 : World) (q i : Nat) : Nat :=
  lowerBound (fun s => decide (s < (w0.owners q).getD i 0)) (w0.src q)

/-- Records packed for ghost rows, in the order of the pack loop L325-349:
(position of the destination, (global row, global column, column owner)). -/
def records (w0 w1 : World) (cache : Nat → List (Nat × Nat)) (q : Nat) : List (Nat × (Nat × Nat × Nat)) :=
  (List.range (w0.owners q).length).flatMap fun i =>
    (slice (bucketed w0 cache q) (w0.size q + i)).map fun c =>
      (neighbourRank w0 q i, ((w0.ghosts q).getD i 0, colRecord w1 q c))

/-- `send_sizes`, L309-320, in records. -/
def sendSizes (w0 : World) (cache : Nat → List (Nat × Nat)) (q : Nat) : List Nat :=
  (List.range (w0.src q).length).map fun b =>
    ((List.range (w0.owners q).length).map fun i =>
      if neighbourRank w0 q i = b then (slice (bucketed w0 cache q) (w0.size q + i)).length else 0).sum

/-- `ghost_data`, L329-349, written through the cursors `insert_pos`. -/
def ghostData (w0 w1 : World) (cache : Nat → List (Nat × Nat)) (q : Nat) : List (Nat × Nat × Nat) :=
  (fill Prod.fst Prod.snd (fun b => ((sendSizes w0 cache q).take b).sum)
    (List.replicate (sendSizes w0 cache q).sum (0, 0, 0)) (records w0 w1 cache q)).2

/-- `ghost_data_in`, L351-379. -/
def ghostDataIn (w0 w1 : World) (cache : Nat → List (Nat × Nat)) (r : Nat) : List (Nat × Nat × Nat) :=
  neighborAlltoallv w0.src w0.dest (fun q => chunks (sendSizes w0 cache q) (ghostData w0 w1 cache q)) r

/-- State of the loop over received records: `global_to_local`, ghosts, owners, and the
(row, column) entries read so far. -/
structure Recv where
  g2l : Nat → Option Nat
  ghosts : List Nat
  owners : List Nat
  entries : List (Nat × Nat)

/-- One received record, L395-424; `next` is `local_i`. -/
def recvStep (w0 w1 : World) (r : Nat) (s : Recv) (e : Nat × Nat × Nat) : Recv :=
  let row := e.1 - w0.r0 r
  let col := e.2.1
  if w1.r0 r ≤ col ∧ col < w1.r0 r + w1.size r then
    { s with entries := s.entries ++ [(row, col - w1.r0 r)] }
  else
    match s.g2l col with
    | some j => { s with entries := s.entries ++ [(row, j)] }
    | none =>
      let j := w1.size r + s.ghosts.length
      { g2l := fun g => if g = col then some j else s.g2l g,
        ghosts := s.ghosts ++ [col], owners := s.owners ++ [e.2.2],
        entries := s.entries ++ [(row, j)] }

/-- `global_to_local` after inserting the ghosts already present, L386-390 (`insert` keeps the
first of equal keys). -/
def initG2l (n : Nat) (ghosts : List Nat) : Nat → Option Nat :=
  ghosts.zipIdx.foldl (fun m p => fun g => if g = p.1 ∧ m g = none then some (n + p.2) else m g) (fun _ => none)

def received (w0 w1 : World) (r : Nat) (data : List (Nat × Nat × Nat)) : Recv :=
  data.foldl (recvStep w0 w1 r)
    { g2l := initG2l (w1.size r) (w1.ghosts r), ghosts := w1.ghosts r, owners := w1.owners r, entries := [] }

/-- De-duplication of one row with the stamp array, L449-473: `last_seen[c] != i`. -/
def dedupStep (i : Nat) (s : (Nat → Option Nat) × List Nat) (c : Nat) : (Nat → Option Nat) × List Nat :=
  if s.1 c ≠ some i then (fun x => if x = c then some i else s.1 x, s.2 ++ [c]) else s

/-- State of the loop building the CSR arrays. -/
structure Build where
  lastSeen : Nat → Option Nat
  offsets : List Nat
  edges : List Nat
  offDiag : List Nat

/-- One row, L446-488. -/
def rowStep (n0 n1 : Nat) (cache recv : List Nat × List Nat) (s : Build) (i : Nat) : Build :=
  let a := (slice cache i).foldl (dedupStep i) (s.lastSeen, [])
  let b := if i < n0 then (slice recv i).foldl (dedupStep i) a else a
  let row := sortNat b.2
  { lastSeen := b.1,
    offDiag := s.offDiag ++ [lowerBound (fun c => decide (c < n1)) row],
    edges := s.edges ++ row,
    offsets := s.offsets ++ [s.offsets.getLast?.getD 0 + row.length] }

/-- `finalize` on rank `r` given the received records, L264-491. -/
def finalizeWith (w0 w1 : World) (r : Nat) (p : Pattern) (data : List (Nat × Nat × Nat)) : Except Err Pattern :=
  if p.offsets ≠ [] then .error .finalizedTwice
  else
    let numRows := w0.size r + (w0.ghosts r).length
    let cache := bucketByRow p.cache numRows
    let rc := received w0 w1 r data
    let recv := bucketByRow rc.entries (w0.size r)
    let b := (List.range numRows).foldl (rowStep (w0.size r) (w1.size r) cache recv)
      { lastSeen := fun _ => none, offsets := [0], edges := [], offDiag := [] }
    .ok { cache := [], offsets := b.offsets, edges := b.edges, offDiag := b.offDiag,
          colGhosts := rc.ghosts, colOwners := rc.owners }

/-- `finalize` called by all ranks. -/
def finalize (w0 w1 : World) (p : Nat → Pattern) (r : Nat) : Except Err Pattern :=
  finalizeWith w0 w1 r (p r) (ghostDataIn w0 w1 (fun q => (p q).cache) r)

/-- `num_nonzeros`, L493-498. -/
def numNonzeros (p : Pattern) : Except Err Nat :=
  if p.offsets = [] then .error .notFinalized else .ok p.edges.length

/-- `nnz_diag`, L500-505; the inner `none` is a read past the end. -/
def nnzDiag (p : Pattern) (row : Nat) : Except Err (Option Nat) :=
  if p.offsets = [] then .error .notFinalized else .ok (p.offDiag[row]?)

/-- `nnz_off_diag`, L507-512. -/
def nnzOffDiag (p : Pattern) (row : Nat) : Except Err (Option Nat) :=
  if p.offsets = [] then .error .notFinalized
  else .ok (match p.offsets[row + 1]?, p.offsets[row]?, p.offDiag[row]? with
    | some b, some a, some d => some (b - a - d)
    | _, _, _ => none)

/-- `graph`, L514-519. -/
def graph (p : Pattern) : Except Err (List Nat × List Nat) :=
  if p.offsets = [] then .error .notFinalized else .ok (p.edges, p.offsets)

/-- `off_diagonal_offsets`, L521-526. -/
def offDiagonalOffsets (p : Pattern) : Except Err (List Nat) :=
  if p.offsets = [] then .error .notFinalized else .ok p.offDiag

/-- `column_indices`, L248-260. -/
def columnIndices (w1 : World) (r : Nat) (p : Pattern) : Except Err (List Nat) :=
  if p.offsets = [] then .error .notFinalized
  else .ok ((List.range (w1.size r)).map (fun i => w1.r0 r + i) ++ p.colGhosts)

end Verif.SP
