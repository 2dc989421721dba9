import Verif.Spec.RefinedMesh
/-! Specification: tags of a refined mesh. -/
namespace Verif.Spec.TagTransfer
open Verif.World Verif.Refine Verif.Spec Verif.Spec.SimplexMesh

variable {K : Type}

/-- Facets of the old mesh on rank `r`: `c2f` lists facets of cells, facet `k` opposite to vertex `k`, and `fv f` is the set of the
vertices (global numbers) of facet `f`, different for different facets. -/
structure OldFacets (d : Nat) (wv : World) (m : Nat → RankMesh K) (r nf : Nat) (c2f : List (List Nat)) (fv : Nat → Finset Nat) : Prop where
  card : ∀ f < nf, (fv f).card = d
  inj : ∀ f < nf, ∀ f' < nf, fv f = fv f' → f = f'
  cell : ∀ c < (m r).c2v.length, ∀ k < d + 1, ∃ f < nf, (c2f.getD c [])[k]? = some f ∧
    fv f = ((List.range (d + 1)).toFinset.erase k).image (gv wv r ((m r).c2v.getD c []))

/-- The refined mesh has the cells that the rank has computed, in some order and without ghosts: `orig` gives the number of each
cell in the input of create_mesh, which begins with `off` on this rank. -/
def SameCells (o : Refined) (orig : List Int) (off : Int) : Prop :=
  orig.length = o.cells.length ∧ orig.Perm ((List.range orig.length).map fun (c : Nat) => off + (c : Int))

/-- Facets of the refined mesh: facet `j` of a cell is opposite to its vertex `j`, and `fv x` is the set of the vertices (numbers
given by the refinement) of facet `x`. -/
def NewFacets (d : Nat) (o : Refined) (orig : List Int) (off : Int) (c2f : List (List Nat)) (fv : Nat → Finset Int) : Prop :=
  ∀ (l c : Nat) (row : List Int), orig[l]? = some (off + (c : Int)) → o.cells[c]? = some row → ∀ j < d + 1, ∃ x, (c2f.getD l [])[j]? = some x ∧
    fv x = (row.eraseIdx j).toFinset

/-- Point number `y` lies on the set of vertices `F`: it is a vertex of it or the middle of an edge in it. -/
def LiesOn (we wv : World) (ends : Nat → Finset Nat) (M : Nat → Prop) (name : Finset Nat → Nat) (y : Int) (F : Finset Nat) : Prop :=
  ∃ s ⊆ F, IsPoint we wv ends M s ∧ y = ((name s : Nat) : Int)

/-- `order` returns positions that sort keys. -/
def SortsKeys (order : List Nat → List Nat) : Prop :=
  ∀ l : List Nat, (order l).Perm (List.range l.length) ∧ ((order l).map fun i => l.getD i 0).Pairwise (· ≤ ·)

end Verif.Spec.TagTransfer
