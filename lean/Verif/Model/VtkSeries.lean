import Verif.Model.Vtkhdf
/-!
# Model: time series of point and cell data in VTKHDF files

`VTKHDF::write_data`, `cpp/dolfinx/io/VTKHDF.h` L178-305 (`write_point_data` and `write_cell_data` of `python/dolfinx/io/vtkhdf.py` L88-111), on `P`
processes.

Simplifications: a data set is the list of its rows as in `Model/Vtkhdf`; chunked data sets change their extent as HDF5 specifies; data sets with one
entry per step are lists; collective calls of HDF5 with different shapes on different processes are errors; if one process throws, the call ends and
the others with it.  The attributes `NumberOfComponents` and `Vectors` and the number of steps that fits into 32 bits are left out.
-/
namespace Verif.VtkSeries
open Verif.Vtkhdf
open Verif.CellPerm (Err)

variable {α τ : Type}

/-- `"Point"` or `"Cell"` -/
inductive Kind where
  | point
  | cell
deriving DecidableEq

/-- A data set of rank 2. -/
structure DSet (α : Type) where
  width : Nat
  rows : List (List α)

/-- What `write_data` writes: the attribute `NSteps`, the data sets of the group `Steps`, and the data sets `u`. -/
structure TFile (α τ : Type) where
  nsteps : Option Int
  cellOffsets : List Int
  connOffsets : List Int
  parts : List Int
  partOffsets : List Int
  pointOffsets : List Int
  dataOffsets : Kind → List Int
  values : List τ
  u : Kind → Option (DSet α)

/-- The file after `write_mesh`. -/
def fresh : TFile α τ := ⟨none, [], [], [], [], [], fun _ => [], [], fun _ => none⟩

/-- `npoints`, L193-195, for index maps given by their local sizes. -/
def npoints (maps : List (Nat → Nat)) (r : Nat) : Int := accumulate (maps.map fun m => m r)

/-- `range0`, L267-269. -/
def range0 (maps : List (Nat → Nat)) (r : Nat) : Int := accumulate (maps.map fun m => Offsets.excl m r)

/-- `global_size`, L272-274; the sum has the type of the literal `0`. -/
def globalSize (P : Nat) (maps : List (Nat → Nat)) : Int := accumulate (maps.map fun m => Offsets.excl m P)

/-- `data_width`, L196-201; a division by zero ends the program, and a negative number becomes so large an unsigned one that the
remainder is the size. -/
def dataWidth (maps : List (Nat → Nat)) (data : Nat → List α) (r : Nat) : Option Nat :=
  let n := npoints maps r
  if n ≤ 0 then none
  else if (data r).length % n.toNat ≠ 0 then none
  else some ((data r).length / n.toNat)

/-- The number of steps is counted and the offset found, L208-227: the new attribute and, if no exception is thrown, the offset. -/
def countStep (f : TFile α τ) (kind : Kind) : TFile α τ × Option Int :=
  match f.nsteps with
  | none => ({ f with nsteps := some 1 }, some 0)
  | some n => ({ f with nsteps := some (n + 1) }, (f.u kind).map fun d => (d.rows.length : Int))

/-- The calls of `append_dataset`, L231-260. -/
def appendSteps (f : TFile α τ) (kind : Kind) (offset : Int) (time : τ) : TFile α τ :=
  { f with
    cellOffsets := f.cellOffsets ++ [0]
    connOffsets := f.connOffsets ++ [0]
    parts := f.parts ++ [1]
    partOffsets := f.partOffsets ++ [0]
    pointOffsets := f.pointOffsets ++ [0]
    dataOffsets := fun k => if k = kind then f.dataOffsets k ++ [offset] else f.dataOffsets k
    values := f.values ++ [time] }

/-- A row of another width. -/
def fitRow (fill : α) (w : Nat) (row : List α) : List α := row.take w ++ List.replicate (w - row.length) fill

/-- `H5Dset_extent` -/
def extend (fill : α) (n w : Nat) (d : DSet α) : List (List α) :=
  (d.rows.take n).map (fitRow fill w) ++ List.replicate (n - d.rows.length) (List.replicate w fill)

/-- Row-major data. -/
def toRows (w n : Nat) (data : List α) : List (List α) := (List.range n).map fun i => (data.drop (i * w)).take w

/-- The data set `u`, L276-302; chunks of width zero are an error of HDF5. -/
def writeU (fill : α) (P : Nat) (maps : List (Nat → Nat)) (data : Nat → List α) (w : Nat) (old : Option (DSet α)) : Except Err (DSet α) :=
  let g := globalSize P maps
  if g < 0 ∨ w = 0 then .error .range
  else
    let offset : Int := match old with
      | some d => d.rows.length
      | none => 0
    let size : Int := g + offset
    let start : List (List α) := match old with
      | some d => extend fill size.toNat w d
      | none => List.replicate size.toNat (List.replicate w fill)
    let parts := (List.range P).map fun r =>
      (range0 maps r + offset, range0 maps r + npoints maps r + offset, toRows w (npoints maps r).toNat (data r))
    match parts.foldlM (fun d p => writeRows size p.1 p.2.1 p.2.2 d) start with
    | .ok rows => .ok ⟨w, rows⟩
    | .error e => .error e

/-- `write_data` on all processes: the file afterwards and whether the call has returned. -/
def writeData (fill : α) (P : Nat) (maps : Kind → List (Nat → Nat)) (kind : Kind) (data : Nat → List α) (time : τ) (f : TFile α τ) :
    TFile α τ × Bool :=
  match (List.range P).mapM (dataWidth (maps kind) data) with
  | none => (f, false)
  | some widths =>
    match countStep f kind with
    | (f1, none) => (f1, false)
    | (f1, some offset) =>
      let f2 := appendSteps f1 kind offset time
      let w := widths.headD 0
      if widths.any (· != w) then (f2, false)
      else
        match writeU fill P (maps kind) data w (f2.u kind) with
        | .error _ => (f2, false)
        | .ok d => ({ f2 with u := fun k => if k = kind then some d else f2.u k }, true)

/-- Calls one after the other, as long as they return. -/
def writeAll (fill : α) (P : Nat) (maps : Kind → List (Nat → Nat)) (kind : Kind) (calls : List ((Nat → List α) × τ)) (f : TFile α τ) :
    TFile α τ × Bool :=
  calls.foldl (fun s c => if s.2 then writeData fill P maps kind c.1 c.2 s.1 else s) (f, true)

end Verif.VtkSeries
