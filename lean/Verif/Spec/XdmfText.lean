import Verif.Model.XdmfText
/-! Specification of texts in XDMF files. -/
namespace Verif.Spec.XdmfText
open Verif.XdmfText

/-- Numbers are written as words and read back. -/
structure Numbers {T : Type} (fmt : T → Text) (parse : Text → Option T) : Prop where
  back : ∀ x, parse (fmt x) = some x
  word : ∀ x, ' ' ∉ fmt x ∧ '\n' ∉ fmt x
  some : ∀ x, fmt x ≠ []

/-- A path in an HDF5 file: its last character is not blank. -/
def EndsWell (p : Text) : Prop := ∃ q c, p = q ++ [c] ∧ c ∉ [' ', '\n', '\t', '\r', '\x0b', '\x0c']

end Verif.Spec.XdmfText
