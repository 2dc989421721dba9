import Verif.Model.CommGraph
import Mathlib.Algebra.Field.Defs
import Mathlib.Order.Defs.LinearOrder
/-!
# Tables of timings

Model of `common/Table.cpp` L41-222 (`set`, `get`, `reduce` and the entries that `str` collects) and of
`common/TimeLogger.cpp` L40-66 (`list_timings`, `timing_table`).  Simplifications: `double` is a field; a `std::map` is a list of
pairs with distinct keys in the order of their first assignment (the real one is ordered by key); titles and the layout of the
text are left out; ranks other than 0 return an empty table and print nothing.
-/
namespace Verif.TimingTable
open Verif.CommGraph

variable {K : Type}

abbrev Name := List Char
abbrev Key := Name × Name

/-- `std::variant<std::string, int, double>`. -/
inductive Val (K : Type) where
  | str (s : Name)
  | int (n : Nat)
  | dbl (x : K)
deriving DecidableEq

/-- `map[k] = v`. -/
def assign {α β : Type} [DecidableEq α] (m : List (α × β)) (k : α) (v : β) : List (α × β) :=
  if m.any fun e => decide (e.1 = k) then m.map fun e => if e.1 = k then (k, v) else e else m ++ [(k, v)]

/-- Members of `Table`, Table.h L85-91. -/
structure Table (K : Type) where
  rows : List Name
  cols : List Name
  values : List (Key × Val K)

/-- The empty table. -/
def Table.empty : Table K := ⟨[], [], []⟩

/-- `Table::set`, Table.cpp L41-55. -/
def Table.set (t : Table K) (k : Key) (v : Val K) : Table K where
  rows := if k.1 ∈ t.rows then t.rows else t.rows ++ [k.1]
  cols := if k.2 ∈ t.cols then t.cols else t.cols ++ [k.2]
  values := assign t.values k v

/-- `Table::get`, Table.cpp L57-69; `none` is the exception. -/
def Table.get (t : Table K) (k : Key) : Option (Val K) := t.values.lookup k

inductive Reduction where
  | average
  | max
  | min
deriving DecidableEq

/-- Entries of type `double`, Table.cpp L107-117. -/
def doubles (t : Table K) : List (Key × K) :=
  t.values.filterMap fun e => match e.2 with | .dbl x => some (e.1, x) | _ => none

/-- `keys`, Table.cpp L114. -/
def keyString (t : Table K) : List Char := (doubles t).flatMap fun e => e.1.1 ++ '\x00' :: e.1.2 ++ ['\x00']

/-- `std::getline(stream, s, '\0')`; `none` if nothing is left. -/
def getline : List Char → Option (Name × List Char)
  | [] => none
  | c :: s =>
    if c = '\x00' then some ([], s)
    else match getline s with
      | none => some ([c], [])
      | some (n, r) => some (c :: n, r)

/-- The loop over the keys of a rank, Table.cpp L164-172; the stream has at most `fuel` keys. -/
def readKeys : Nat → List Char → List Key
  | 0, _ => []
  | fuel + 1, s =>
    match getline s with
    | none => []
    | some (a, s1) =>
      match getline s1 with
      | none => []
      | some (b, s2) => (a, b) :: readKeys fuel s2

section field
variable [Field K] [LinearOrder K]

/-- `op_impl`, Table.cpp L75-93. -/
def opImpl : Reduction → K → K → K
  | .average, y, x => y + x
  | .min, y, x => min y x
  | .max, y, x => max y x

/-- One value for a key, Table.cpp L168-171. -/
def addValue (red : Reduction) (m : List (Key × K)) (k : Key) (x : K) : List (Key × K) :=
  match m.lookup k with
  | some y => assign m k (opImpl red y x)
  | none => assign m k x

/-- Values of all ranks, Table.cpp L158-173: `values_ptr` goes on over the ranks. -/
def merge (red : Reduction) (keysAll : List Name) (valuesAll : List K) : List (Key × K) × Nat :=
  keysAll.foldl (fun st s => (readKeys (s.length + 1) s).foldl (fun st k => (addValue red st.1 k (valuesAll.getD st.2 0), st.2 + 1)) st) ([], 0)

/-- `Table::reduce` on rank 0 of `P`, Table.cpp L71-200. -/
def reduce (P : Nat) (red : Reduction) (tables : Nat → Table K) : Table K :=
  if P = 1 then tables 0
  else
    let offsets := displacements (gather P 0 (fun p => (keyString (tables p)).length) 0)
    let outStr := gatherv P 0 (fun p => keyString (tables p)) offsets (List.replicate (offsets.getLast?.getD 0) '\x00') 0
    let keysAll := (List.range P).map fun p => (outStr.drop (offsets.getD p 0)).take (offsets.getD (p + 1) 0 - offsets.getD p 0)
    let offsets2 := displacements (gather P 0 (fun p => (doubles (tables p)).length) 0)
    let valuesAll := gatherv P 0 (fun p => (doubles (tables p)).map Prod.snd) offsets2 (List.replicate (offsets2.getLast?.getD 0) 0) 0
    let dvalues := (merge red keysAll valuesAll).1
    let dvalues := if red = .average then dvalues.map fun e => (e.1, e.2 * (1 / (P : K))) else dvalues
    let ints := (tables 0).values.filter fun e => match e.2 with | .int _ => true | _ => false
    let t := ints.foldl (fun t e => t.set e.1 e.2) Table.empty
    dvalues.foldl (fun t e => t.set e.1 (.dbl e.2)) t

/-- `timing_table`, TimeLogger.cpp L52-66. -/
def timingTable (log : List (Name × Nat × K)) : Table K :=
  log.foldl (fun t e =>
    ((t.set (e.1, "reps".toList) (.int e.2.1)).set (e.1, "avg".toList) (.dbl (e.2.2 / (e.2.1 : K)))).set (e.1, "tot".toList) (.dbl e.2.2))
    Table.empty

/-- Entries of the text, Table.cpp L208-222: for each row the values of all columns; `none` is the exception of `get`. -/
def cells (t : Table K) : Option (List (Name × List (Name × Val K))) :=
  t.rows.mapM fun r => (t.cols.mapM fun c => (t.get (r, c)).map fun v => (c, v)).map fun l => (r, l)

/-- What `list_timings` prints on rank 0, TimeLogger.cpp L40-50. -/
def listTimings (P : Nat) (red : Reduction) (logs : Nat → List (Name × Nat × K)) : Option (List (Name × List (Name × Val K))) :=
  cells (reduce P red fun r => timingTable (logs r))

end field

end Verif.TimingTable
