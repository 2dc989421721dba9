import Mathlib.Data.List.Basic
/-!
# Orientation of a face or edge seen from a cell

Vertices of a reference triangle are listed anticlockwise; those of a reference quadrilateral in tensor
order, so that the boundary cycle is 0, 1, 3, 2.
-/
namespace Verif.Spec

/-- Rotation of the listed vertices by one place. -/
def rot : List Int → List Int
  | [a, b, c] => [c, a, b]
  | [a, b, c, d] => [c, a, d, b]
  | l => l

/-- Reflection that keeps the first vertex (and the opposite one of a quadrilateral); swaps an edge. -/
def reflect : List Int → List Int
  | [a, b] => [b, a]
  | [a, b, c] => [a, c, b]
  | [a, b, c, d] => [a, c, b, d]
  | l => l

/-- `n` rotations. -/
def rotN : Nat → List Int → List Int
  | 0, l => l
  | n + 1, l => rot (rotN n l)

/-- The operation encoded by a number: bit 0 says reflect, the other bits are the number of rotations that
follow. -/
def orient (code : Nat) (l : List Int) : List Int :=
  rotN (code / 2) (if code % 2 = 1 then reflect l else l)

/-- Two lists describe the same geometric face: one is the other after some reflection and rotations. -/
def SameFace (l m : List Int) : Prop := ∃ code, m = orient code l

/-- A face whose first vertex is the lowest and whose second vertex is lower than the third (the two
neighbours of the first vertex); for an edge: first lower than second. -/
def LowToHigh : List Int → Prop
  | [a, b] => a < b
  | [a, b, c] => a < b ∧ b < c
  | [a, b, c, d] => a < b ∧ b < c ∧ a < d
  | _ => False

end Verif.Spec
