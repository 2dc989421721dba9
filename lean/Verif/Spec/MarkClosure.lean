import Verif.Spec.GlobalIndex
/-! Specification: which edges must be marked.  Edges are named by global numbers. -/
namespace Verif.Spec.Marks
open Verif.World

/-- The smallest set of edges that contains the given edges of all ranks and, with any edge of a face (on any rank), the
longest edge of the face.  `edges r = none` means all edges of rank `r`. -/
inductive Must (w : World) (faces : Nat → List (List Nat × Nat)) (edges : Nat → Option (List Nat)) : Nat → Prop
  | given (r e g : Nat) (l : List Nat) : r < w.P → edges r = some l → e ∈ l → globalOf w r e = some g → Must w faces edges g
  | all (r e g : Nat) : r < w.P → edges r = none → globalOf w r e = some g → Must w faces edges g
  | long (r : Nat) (face : List Nat × Nat) (e g g' : Nat) : r < w.P → face ∈ faces r → e ∈ face.1 → globalOf w r e = some g →
      Must w faces edges g → globalOf w r face.2 = some g' → Must w faces edges g'

end Verif.Spec.Marks
