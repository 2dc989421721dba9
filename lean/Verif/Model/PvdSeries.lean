import Verif.Model.XdmfText
/-!
# Model: the files of a VTK series

`VTKFile::write` for meshes and `write_function` (`cpp/dolfinx/io/VTKFile.cpp` L38-50, L318-395 and L600-708, L766-870): which files are
written, with which names, and what the PVD file lists.

Simplifications: what a rank writes in its `.vtu` file is one object (C64, C87 are about it); names are names within one directory; ranks are in
step about the number of calls (each counts its own list of steps, and they append one in each call).
-/
namespace Verif.PvdSeries
open Verif.XdmfText (Text stem)

def digit (d : Nat) : Char := Char.ofNat (48 + d)

/-- `std::to_string`, with a bound for the number of digits. -/
def decAux : Nat → Nat → Text
  | 0, _ => []
  | f + 1, n => if n < 10 then [digit n] else decAux f (n / 10) ++ [digit (n % 10)]

/-- `std::to_string`. -/
def dec (n : Nat) : Text := decAux (n + 1) n

/-- `std::string(num_digits - counter.size(), '0').append(counter)`, L49. -/
def pad (n : Nat) : Text := List.replicate (6 - (dec n).length) '0' ++ dec n

/-- `get_counter` (L39-50): a negative number of zeros throws `std::length_error`. -/
def counter (n : Nat) : Option Text := if 6 < (dec n).length then none else some (pad n)

/-- `create_vtu_path` (L601-608, L817-824): `s` is the stem of the name of the PVD file, `c` the counter. -/
def vtuName (s c : Text) (r : Nat) : Text := stem (s ++ ('_' :: 'p' :: (dec r ++ '_' :: c))) ++ ['.', 'v', 't', 'u']

/-- Name of the `.pvtu` file (L618-622, L834-836). -/
def pvtuName (s c : Text) : Text := stem (s ++ c) ++ ['.', 'p', 'v', 't', 'u']

/-- A call of `write`: time, and what each rank writes. -/
structure Call (T D : Type) where
  time : T
  data : Nat → D

/-- Contents of a file: the piece of a rank, or the list of pieces. -/
inductive Content (D : Type) where
  | piece (d : D)
  | parts (names : List Text)

/-- The list of the PVD file, and all that has been written to files. -/
structure Series (T D : Type) where
  entries : List (T × Text)
  writes : List (Text × Content D)

/-- The files that `n` ranks write in a call. -/
def filesOf {T D : Type} (s : Text) (n : Nat) (c : Text) (call : Call T D) : List (Text × Content D) :=
  (List.range n).map (fun r => (vtuName s c r, Content.piece (call.data r))) ++ [(pvtuName s c, Content.parts ((List.range n).map (vtuName s c)))]

/-- `write`. -/
def write {T D : Type} (s : Text) (n : Nat) (st : Series T D) (call : Call T D) : Option (Series T D) :=
  (counter st.entries.length).map (fun c => ⟨st.entries ++ [(call.time, pvtuName s c)], st.writes ++ filesOf s n c call⟩)

/-- A program that writes to the VTK file with the name `file`, on `n` ranks; `none` is an exception. -/
def run {T D : Type} (file : Text) (n : Nat) (calls : List (Call T D)) : Option (Series T D) :=
  calls.foldl (fun st c => st.bind (fun st => write (stem file) n st c)) (some ⟨[], []⟩)

/-- The files after a list of writes. -/
def disk {D : Type} (ws : List (Text × Content D)) : Text → Option (Content D) := ws.foldl (fun fs w q => if q = w.1 then some w.2 else fs q) (fun _ => none)

/-- The data in a file. -/
def pieceAt {D : Type} (fs : Text → Option (Content D)) (p : Text) : Option D :=
  match fs p with
  | some (.piece d) => some d
  | _ => none

/-- The data of all the pieces of a file. -/
def partsAt {D : Type} (fs : Text → Option (Content D)) (p : Text) : List (Option D) :=
  match fs p with
  | some (.parts ps) => ps.map (pieceAt fs)
  | _ => []

/-- What a reader of the PVD file finds: for each step the time and the data of all pieces. -/
def readSeries {T D : Type} (entries : List (T × Text)) (fs : Text → Option (Content D)) : List (T × List (Option D)) :=
  entries.map (fun e => (e.1, partsAt fs e.2))

end Verif.PvdSeries
