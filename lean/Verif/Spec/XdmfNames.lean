import Verif.Model.XdmfNames
/-! Specification of names in XDMF files. -/
namespace Verif.Spec.XdmfNames
open Verif.XdmfText (Text)
open Verif.XdmfNames (Op)

/-- A call writes something with this name other than information. -/
def Uses {D : Type} (n : Text) : Op D → Prop
  | .mesh m _ _ => m = n
  | .geometry m _ => m = n
  | .tags m _ _ => m = n
  | .function m _ => m = n
  | .info _ _ => False

/-- A call writes information with this name. -/
def Informs {D : Type} (n : Text) : Op D → Prop
  | .info m _ => m = n
  | _ => False

end Verif.Spec.XdmfNames
