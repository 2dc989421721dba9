import Verif.Model.PvdSeries
/-! Specification of VTK series. -/
namespace Verif.Spec.PvdSeries
open Verif.XdmfText (Text)
open Verif.PvdSeries (Call)

/-- Each step has its time and what each rank has given. -/
def steps {T D : Type} (n : Nat) (calls : List (Call T D)) : List (T × List (Option D)) :=
  calls.map (fun c => (c.time, (List.range n).map (fun r => some (c.data r))))

/-- A list has the same members as another: the same writes, in any order, as the ranks may have made them. -/
def SameWrites {A : Type} (ws ws' : List A) : Prop := ∀ w, w ∈ ws ↔ w ∈ ws'

end Verif.Spec.PvdSeries
