import Verif.Model.BBTree
/-! Specification: boxes of leaves, and when arithmetic is monotone. -/
namespace Verif.Spec.BB
open Verif.BB

variable {K : Type} [LinearOrder K]

/-- Box `x` lies inside box `b`. -/
def Inside (b x : Box K) : Prop := ∀ j, j < 3 → b.lo j ≤ x.lo j ∧ x.hi j ≤ b.hi j

/-- Point `p` lies in box `b`. -/
def In (b : Box K) (p : Nat → K) : Prop := ∀ j, j < 3 → b.lo j ≤ p j ∧ p j ≤ b.hi j

/-- Point `p` lies in box `b` up to the tolerance of the code. -/
def Near (F : Fl K) (b : Box K) (p : Nat → K) : Prop :=
  ∀ j, j < 3 → F.sub (b.lo j) (F.mul F.rtol (F.sub (b.hi j) (b.lo j))) ≤ p j ∧
    p j ≤ F.add (b.hi j) (F.mul F.rtol (F.sub (b.hi j) (b.lo j)))

/-- Boxes `a` and `b` overlap up to the tolerance of the code. -/
def Overlap (F : Fl K) (a b : Box K) : Prop :=
  ∀ j, j < 3 → F.sub (b.lo j) (F.mul F.rtol (F.sub (b.hi j) (b.lo j))) ≤ a.hi j ∧
    a.lo j ≤ F.add (b.hi j) (F.mul F.rtol (F.sub (b.hi j) (b.lo j)))

/-- Rounded operations are monotone, as correctly rounded operations without NaN are, and `a - rtol * (b - a) ≤ a` for `a ≤ b`. -/
structure Mono (F : Fl K) : Prop where
  sub : ∀ a b c d : K, a ≤ b → d ≤ c → F.sub a c ≤ F.sub b d
  add : ∀ a b c d : K, a ≤ b → c ≤ d → F.add a c ≤ F.add b d
  mul : ∀ a b : K, a ≤ b → F.mul F.rtol a ≤ F.mul F.rtol b
  widen : ∀ a b : K, a ≤ b → F.sub a (F.mul F.rtol (F.sub b a)) ≤ a ∧ b ≤ F.add b (F.mul F.rtol (F.sub b a))

end Verif.Spec.BB
