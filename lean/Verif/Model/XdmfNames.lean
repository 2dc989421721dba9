import Verif.Model.XdmfText
/-!
# Model: meshes, tags, functions and information in one XDMF file

`XDMFFile::write_mesh`, `write_geometry`, `write_function`, `write_meshtags`, `write_information` and the readers `read_topology_data`,
`read_geometry_data`, `read_meshtags`, `read_information` (`cpp/dolfinx/io/XDMFFile.cpp` L143-420, L450-484): which grid of the XML file and which
array of the HDF5 file they use, with the default `xpath`.

Simplifications: arrays are objects (C74 is about them); a path in the HDF5 file is a triple instead of its text
`/kind/name/last` (different triples have different texts: `C119_paths`; the last part of functions is a time, C116); arrays
written to the same path have the same size; names have no character with a meaning in XPath.
-/
namespace Verif.XdmfNames
open Verif.XdmfText (Text)

inductive Kind where
  | mesh | meshTags | geometry | function
deriving DecidableEq

inductive Last where
  | topology | geometry | values
deriving DecidableEq

/-- Path in the HDF5 file. -/
structure Path where
  kind : Kind
  name : Text
  last : Last
deriving DecidableEq

/-- First part of the text of a path (`xdmf_mesh.cpp` L235, `xdmf_mesh.h` L117, `XDMFFile.cpp` L178, `xdmf_function.cpp` `add_function`). -/
def Kind.text : Kind → Text
  | .mesh => "/Mesh/".toList
  | .meshTags => "/MeshTags/".toList
  | .geometry => "/Geometry/".toList
  | .function => "/Function/".toList

/-- Last part (`xdmf_mesh.cpp` `add_topology_data`, `add_geometry_data`, `xdmf_mesh.h` L140). -/
def Last.text : Last → Text
  | .topology => "/topology".toList
  | .geometry => "/geometry".toList
  | .values => "/Values".toList

/-- The text of a path. -/
def Path.text (p : Path) : Text := p.kind.text ++ p.name ++ p.last.text

/-- A `Grid` in the domain: name and the paths of the arrays of its children `Topology`, `Geometry` and `Attribute`. -/
structure Grid where
  name : Text
  topology : Option Path
  geometry : Option Path
  attr : Option Path

/-- The file. -/
structure File (D : Type) where
  grids : List Grid
  h5 : Path → Option D
  infos : List (Text × Text)

def File.empty {D : Type} : File D := ⟨[], fun _ => none, []⟩

/-- Calls that write. -/
inductive Op (D : Type) where
  | mesh (name : Text) (topology geometry : D)
  | geometry (name : Text) (geometry : D)
  | tags (name : Text) (topology values : D)
  | function (name : Text) (values : D)
  | info (name value : Text)

/-- `write_dataset`: writes over what exists (`HDF5Interface.h` L179-186). -/
def put {D : Type} (h : Path → Option D) (p : Path) (d : D) : Path → Option D := fun q => if q = p then some d else h q

/-- The collection of a function (`XDMFFile.cpp` L250-267): a grid without arrays of its own, made once. -/
def withCollection (name : Text) (gs : List Grid) : List Grid :=
  if gs.any (fun g => decide (g.name = name) && g.topology.isNone && g.geometry.isNone && g.attr.isNone) = true then gs
  else gs ++ [⟨name, none, none, none⟩]

/-- One call: `write_mesh` (L144-158, `xdmf_mesh.cpp` L222-252), `write_geometry` (L164-185), `write_meshtags` (L314-340, `xdmf_mesh.h` L117-141),
`write_function` (L245-298) and `write_information` (L450-466). -/
def step {D : Type} (f : File D) : Op D → File D
  | .mesh n t g =>
    { f with
      grids := f.grids ++ [⟨n, some ⟨.mesh, n, .topology⟩, some ⟨.mesh, n, .geometry⟩, none⟩]
      h5 := put (put f.h5 ⟨.mesh, n, .topology⟩ t) ⟨.mesh, n, .geometry⟩ g }
  | .geometry n g =>
    { f with
      grids := f.grids ++ [⟨n, none, some ⟨.geometry, n, .geometry⟩, none⟩]
      h5 := put f.h5 ⟨.geometry, n, .geometry⟩ g }
  | .tags n t v =>
    { f with
      grids := f.grids ++ [⟨n, some ⟨.meshTags, n, .topology⟩, none, some ⟨.meshTags, n, .values⟩⟩]
      h5 := put (put f.h5 ⟨.meshTags, n, .topology⟩ t) ⟨.meshTags, n, .values⟩ v }
  | .function n v => { f with grids := withCollection n f.grids, h5 := put f.h5 ⟨.function, n, .values⟩ v }
  | .info n v => { f with infos := f.infos ++ [(n, v)] }

def run {D : Type} (ops : List (Op D)) : File D := ops.foldl step File.empty

/-- `Grid[@Name='…']`: the first. -/
def findGrid {D : Type} (f : File D) (n : Text) : Option Grid := f.grids.find? (fun g => decide (g.name = n))

/-- Data at the path of a child; `none` if there is no child or no array. -/
def dataAt {D : Type} (f : File D) (p : Option Path) : Option D := p.bind f.h5

/-- `read_topology_data` and `read_geometry_data` (L205-241). -/
def readMesh {D : Type} (f : File D) (n : Text) : Option (D × D) :=
  (findGrid f n).bind (fun g => (dataAt f g.topology).bind (fun t => (dataAt f g.geometry).map (fun x => (t, x))))

/-- `read_geometry_data` alone (L225-241), for what `write_geometry` has written. -/
def readGeometry {D : Type} (f : File D) (n : Text) : Option D := (findGrid f n).bind (fun g => dataAt f g.geometry)

/-- `read_meshtags` without a name of an attribute (L351-420). -/
def readTags {D : Type} (f : File D) (n : Text) : Option (D × D) :=
  (findGrid f n).bind (fun g => (dataAt f g.topology).bind (fun t => (dataAt f g.attr).map (fun x => (t, x))))

/-- `read_information` (L468-484): the first with the name. -/
def readInfo {D : Type} (f : File D) (n : Text) : Option Text := (f.infos.find? (fun i => decide (i.1 = n))).map (·.2)

end Verif.XdmfNames
