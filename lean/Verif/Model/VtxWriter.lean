import Verif.Model.XdmfText
/-!
# Model: the VTX writer for functions

`VTXWriter` (`cpp/dolfinx/io/ADIOS2Writers.h` L455-700: the constructor for functions and `write`), `extract_function_names` (L171-216) and the
names of the variables that `vtx_write_data`, `vtx_write_mesh` and `vtx_write_mesh_from_space` (L225-438) put.

Simplifications: the values of a component of a function and the geometry of the mesh are objects (C87 and C94 are about them); the variables of
the mesh are one, with the name of the first of them; all functions have the same mesh and Lagrange elements; a reader takes the last that
was put under a name in a step, and for the mesh the last step that has one.
-/
namespace Verif.VtxWriter
open Verif.XdmfText (Text)

/-- A function: name, whether its element is constant on cells (`is_cellwise`), whether its values are complex, and its element. -/
structure Fn where
  name : Text
  cell : Bool
  cplx : Bool
  elem : Nat
deriving DecidableEq

/-- Names of the variables of a function (L192-198). -/
def varNames (f : Fn) : List Text := if f.cplx = true then [f.name ++ "_real".toList, f.name ++ "_imag".toList] else [f.name]

/-- Names of the variables of the functions that are not constant on cells (`names`, L175-200). -/
def pointNames (u : List Fn) : List Text := (u.filter (fun f => !f.cell)).flatMap varNames

/-- `V0` (L506-529): the first function that is not constant on cells, else the first. -/
def firstSpace (u : List Fn) : Option Fn := (u.find? (fun f => !f.cell)).or u.head?

/-- The checks of the constructor (L503-589, L203-213); `false` is an exception. -/
def accepted (u : List Fn) : Bool :=
  match firstSpace u with
  | none => false
  | some f0 => u.all (fun f => f.cell || f.elem == f0.elem) && decide (pointNames u).Nodup

/-- A variable: time, nodes of the mesh, nodes at the dofs of a function, or values. -/
inductive Var (T G D : Type) where
  | time (t : T)
  | meshNodes (g : G)
  | dofNodes (f : Fn) (g : G)
  | values (d : D)
deriving DecidableEq

/-- A call of `write`: time, geometry of the mesh, and values of each component of each function at that moment. -/
structure Call (T G D : Type) where
  time : T
  geom : G
  val : Nat → Nat → D

/-- What `vtx_write_data` puts. -/
def dataPuts {T G D : Type} (u : List Fn) (c : Call T G D) : List (Text × Var T G D) :=
  u.zipIdx.flatMap (fun x => (varNames x.1).zipIdx.map (fun y => (y.1, Var.values (c.val x.2 y.2))))

/-- What is put for the mesh (L640-674): `has` tells whether a mesh has been written before. -/
def meshPuts {T G D : Type} (u : List Fn) (update has : Bool) (c : Call T G D) : List (Text × Var T G D) :=
  if pointNames u = [] then [("geometry".toList, Var.meshNodes c.geom)]
  else if update = true ∨ has = false then
    match u with
    | [] => []
    | f :: _ => [("geometry".toList, Var.dofNodes f c.geom)]
  else []

/-- `write` (L629-685). -/
def puts {T G D : Type} (u : List Fn) (update has : Bool) (c : Call T G D) : List (Text × Var T G D) :=
  ("step".toList, Var.time c.time) :: (meshPuts u update has c ++ dataPuts u c)

/-- The steps that a list of calls writes. -/
def runFrom {T G D : Type} (u : List Fn) (update : Bool) : Bool → List (Call T G D) → List (List (Text × Var T G D))
  | _, [] => []
  | has, c :: cs => puts u update has c :: runFrom u update true cs

/-- What a reader gets for a name in a step. -/
def lookupVar {T G D : Type} (ps : List (Text × Var T G D)) (n : Text) : Option (Var T G D) := (ps.filter (fun p => decide (p.1 = n))).getLast?.map (·.2)

/-- What a reader gets in each step: time, mesh, and the components of each function. -/
def readFrom {T G D : Type} (u : List Fn) : Option (Var T G D) → List (List (Text × Var T G D)) →
    List (Option (Var T G D) × Option (Var T G D) × List (List (Option (Var T G D))))
  | _, [] => []
  | cur, ps :: rest =>
    (lookupVar ps "step".toList, (lookupVar ps "geometry".toList).or cur, u.map (fun f => (varNames f).map (lookupVar ps)))
      :: readFrom u ((lookupVar ps "geometry".toList).or cur) rest

end Verif.VtxWriter
