/-!
# Specification of a stable sort by key
-/
namespace Verif.Spec

/-- `out` is the result of stably sorting `inp` by `key`: same elements, ordered
by key, and elements with the same key in their input order. -/
structure StableSorted {α κ : Type} [LE κ] [DecidableEq κ] (key : α → κ) (inp out : List α) :
    Prop where
  perm : out.Perm inp
  sorted : out.Pairwise (fun x y => key x ≤ key y)
  stable : ∀ k, out.filter (fun x => decide (key x = k)) = inp.filter (fun x => decide (key x = k))

end Verif.Spec
