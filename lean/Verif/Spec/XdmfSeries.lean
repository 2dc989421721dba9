import Verif.Model.XdmfSeries
/-! Specification of time series in XDMF files. -/
namespace Verif.Spec.XdmfSeries
open Verif.XdmfText (Text) 
open Verif.XdmfSeries (Call)

/-- Texts of numbers. -/
def IsTime (t : Text) : Prop := '/' ∉ t ∧ '_' ∉ t

/-- The attributes that a program writes: name, time and data. -/
def written {D : Type} (cs : List (Call D)) : List ((Text × Text) × D) := cs.flatMap (fun c => c.parts.map (fun p => ((p.1 ++ c.name, c.time), p.2)))

/-- The steps of the functions with a name, in the order in which they are written, with data from a function of attribute and call. -/
def expected {D : Type} (value : Text × Text → D → Option D) (cs : List (Call D)) (name : Text) : List (Text × List (Text × Option D)) :=
  (cs.filter (fun c => decide (c.name = name))).map (fun c => (c.time, c.parts.map (fun p => (p.1 ++ c.name, value (p.1 ++ c.name, c.time) p.2))))

/-- The data last written for a key. -/
def lastWritten {D : Type} (cs : List (Call D)) (k : Text × Text) : Option D := ((written cs).filter (fun w => decide (w.1 = k))).getLast?.map (·.2)

end Verif.Spec.XdmfSeries
