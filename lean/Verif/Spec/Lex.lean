/-! # Specification: lexicographic comparison of rows -/
namespace Verif.Spec

/-- Lexicographic `≤` on rows of integers, first entry most significant. -/
def LexLe : List Int → List Int → Prop
  | [], _ => True
  | _ :: _, [] => False
  | a :: as, b :: bs => a < b ∨ (a = b ∧ LexLe as bs)

/-- A row of integers compared lexicographically. -/
structure LexRow where
  row : List Int
deriving DecidableEq

instance : LE LexRow := ⟨fun a b => LexLe a.row b.row⟩

end Verif.Spec
