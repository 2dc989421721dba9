import Verif.Model.XdmfText
/-!
# Model: time series of functions in an XDMF file

`XDMFFile::write_function` (`cpp/dolfinx/io/XDMFFile.cpp` L244-298), the end of `xdmf_function::add_function` (`xdmf_function.cpp` L169-215), and
`hdf5::write_dataset` (`HDF5Interface.h` L144-285) for whole arrays, with the HDF5 encoding.

Simplifications: the values of a function are one object (C87 is about them); a time is the text that `boost::lexical_cast` makes of it; names
have no character with a meaning in XPath; arrays that are written to the same place have the same size; a file opened for appending goes on
with the XML text as it was.
-/
namespace Verif.XdmfSeries
open Verif.XdmfText (Text)

/-- A call of `write_function`: name of the function, time, and its components: one with the prefix `""` for real functions, two with the
prefixes `"real_"` and `"imag_"` for complex ones (`xdmf_function.cpp`, `components`). -/
structure Call (D : Type) where
  name : Text
  time : Text
  parts : List (Text × D)

/-- A grid in a collection: time, and for each attribute its name and the path of its data. -/
structure Step where
  time : Text
  items : List (Text × Text)
deriving DecidableEq

/-- XML text and HDF5 file. -/
structure File (D : Type) where
  grids : List (Text × List Step)
  h5 : Text → Option D

/-- A file opened for writing. -/
def File.empty {D : Type} : File D := ⟨[], fun _ => none⟩

/-- `std::replace(…, '.', '_')`. -/
def plain (t : Text) : Text := t.map (fun c => if c = '.' then '_' else c)

/-- `"/Function/{}/{}"` (`xdmf_function.cpp` L209). -/
def dataPath (attr time : Text) : Text := "/Function/".toList ++ (attr ++ '/' :: plain time)

/-- `write_dataset`: data that exist are written over (L179-186), others created. -/
def writeData {D : Type} (h : Text → Option D) (p : Text) (d : D) : Text → Option D := fun q => if q = p then some d else h q

/-- The collection with the name gets a step, and is made if there is none (`XDMFFile.cpp` L250-267). -/
def addStep (name : Text) (s : Step) : List (Text × List Step) → List (Text × List Step)
  | [] => [(name, [s])]
  | g :: gs => if g.1 = name then (g.1, g.2 ++ [s]) :: gs else g :: addStep name s gs

/-- The grid that a call adds. -/
def stepOf {D : Type} (c : Call D) : Step := ⟨c.time, c.parts.map (fun p => (p.1 ++ c.name, dataPath (p.1 ++ c.name) c.time))⟩

/-- `write_function`. -/
def write {D : Type} (f : File D) (c : Call D) : File D :=
  ⟨addStep c.name (stepOf c) f.grids, c.parts.foldl (fun h p => writeData h (dataPath (p.1 ++ c.name) c.time) p.2) f.h5⟩

/-- A program that writes functions. -/
def run {D : Type} (cs : List (Call D)) : File D := cs.foldl write File.empty

/-- Steps of the first collection with the name. -/
def stepsIn (name : Text) : List (Text × List Step) → List Step
  | [] => []
  | g :: gs => if g.1 = name then g.2 else stepsIn name gs

/-- What a reader finds: for each step of a collection its time, and for each attribute its name and data. -/
def series {D : Type} (f : File D) (name : Text) : List (Text × List (Text × Option D)) :=
  (stepsIn name f.grids).map (fun s => (s.time, s.items.map (fun i => (i.1, f.h5 i.2))))

end Verif.XdmfSeries
