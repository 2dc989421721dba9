import Verif.Prelude
/-!
# Block vectors: specification

A block vector with owned parts `p.1` and ghost parts `p.2`, one pair per field.
-/
namespace Verif.Spec.BlockSystem

/-- The owned parts of all fields, then the ghost parts of all fields. -/
def stack {T : Type} (ps : List (List T × List T)) : List T := ps.flatMap Prod.fst ++ ps.flatMap Prod.snd

/-- The local array of a field. -/
def whole {T : Type} (p : List T × List T) : List T := p.1 ++ p.2

/-- Two lists of fields have the same numbers of owned and ghost entries. -/
def SameSizes {T U : Type} (ps : List (List T × List T)) (qs : List (List U × List U)) : Prop :=
  ps.map (fun p => (p.1.length, p.2.length)) = qs.map (fun q => (q.1.length, q.2.length))

/-- Sum of two arrays entry by entry. -/
def add {T : Type} [Add T] (x y : List T) : List T := List.zipWith (· + ·) x y

end Verif.Spec.BlockSystem
