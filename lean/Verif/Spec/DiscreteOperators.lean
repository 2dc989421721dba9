import Verif.Spec.Interpolate
/-!
# What discrete operators should do

The product of a row of the matrix with the dofs of a function is a dof of the interpolated function, gradient or curl.  Only the structures `Elem` and `DMap` are used from the model.
-/
namespace Verif.Spec.DiscOp
open Verif.Interp (Elem DMap)
open Verif.Spec.Interp

variable {T : Type} [CommRing T]

/-- Row `g` of the matrix times `x`. -/
def rowDot (M : Nat → Nat → T) (g : Nat) (x : List T) : T := ∑ h ∈ Finset.range x.length, M g h * x.getD h 0

/-- The transformations of the dofs and the maps at points are linear. -/
structure Linear (e : Elem T) : Prop where
  transAdd : ∀ c v w i, e.invTransT c (fun i => v i + w i) i = e.invTransT c v i + e.invTransT c w i
  transMul : ∀ c a v i, e.invTransT c (fun i => a * v i) i = a * e.invTransT c v i
  pullAdd : ∀ c p v w m, e.pull c p (fun m => v m + w m) m = e.pull c p v m + e.pull c p w m
  pullMul : ∀ c p a v m, e.pull c p (fun m => a * v m) m = a * e.pull c p v m

/-- `y` is component `m` of the expansion of dofs `x` on cell `c` in functions with values `G i m` (gradients or curls of the basis functions). -/
def IsExpansion (e : Elem T) (dm : DMap) (x : List T) (c : Nat) (G : Nat → Nat → T) (m : Nat) (y : T) : Prop :=
  ∃ co : Nat → T, (∀ i < e.bs * e.dim, ∃ g, flat dm c i = some g ∧ x[g]? = some (co i)) ∧ y = ∑ i ∈ Finset.range (e.bs * e.dim), co i * G i m

/-- Derivatives of functions of one space are in the other: on all cells that have dof `g`, the expansion of any dofs has the same value of dof `g`. -/
def Conform (e0 e1 : Elem T) (dm0 dm1 : DMap) (n ncells : Nat) (G : Nat → Nat → Nat → Nat → T) : Prop :=
  ∀ c < ncells, ∀ c' < ncells, ∀ j j' g, flat dm1 c j = some g → flat dm1 c' j' = some g → ∀ x : List T, x.length = n → ∀ y y',
    IsDof e1 c c (fun p => IsExpansion e0 dm0 x c (G c p)) j y → IsDof e1 c' c' (fun p => IsExpansion e0 dm0 x c' (G c' p)) j' y' → y = y'

/-- Component `m` of a curl, with `D d k` the derivative of component `k` in direction `d`. -/
def IsCurl (D : Nat → Nat → T) (m : Nat) (y : T) : Prop :=
  ∀ a b, (m, a, b) ∈ [(0, 1, 2), (1, 2, 0), (2, 0, 1)] → y = D a b - D b a

/-- Block sizes of one, two or three, that are equal if neither is one. -/
def BlocksOk (b1 b0 : Nat) : Prop := 1 ≤ b1 ∧ b1 ≤ 3 ∧ 1 ≤ b0 ∧ b0 ≤ 3 ∧ (b1 = 1 ∨ b0 = 1 ∨ b1 = b0)

end Verif.Spec.DiscOp
