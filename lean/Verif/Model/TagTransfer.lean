import Verif.Model.Offsets
import Verif.Model.StdAlg
/-!
# Transfer of mesh tags to a refined mesh

`transfer_facet_meshtag` (`cpp/dolfinx/refinement/utils.cpp` L153-272) and `transfer_cell_meshtag` (L274-367) on one rank.

Simplifications: adjacency lists that are arguments are given by their rows, and so is `facet`; the pairs of the arrays
`indices`/`values` are one list.  Rows of the map from parents to children are sorted in place (L244-245) in the code; with different
indices no row is visited twice.  The result of `radix_sort` is `order`, any order of positions that sorts the keys (C03).
-/
namespace Verif.TagTransfer
open Verif.Offsets Verif.Std

/-- Failures. -/
inductive Err where
  /-- "Input meshtag is not cell-based" -/
  | notCells
  /-- "Ghosted meshes are not supported" -/
  | ghosted
  /-- "Parent mesh is missing cell-facet connectivity." -/
  | parent
  /-- "Refined mesh is missing cell-facet connectivity." -/
  | refined
  /-- a violated assertion -/
  | assert
deriving DecidableEq, Repr

/-- `local_cell_index`, L184-191 and L306-313. -/
def localIndex (orig : List Int) (off : Int) : Option (List Nat) :=
  orig.zipIdx.foldlM (fun a p =>
    if off ≤ p.1 ∧ p.1 - off < orig.length then some (a.set (p.1 - off).toNat p.2) else none) (List.replicate orig.length 0)

/-- `links(p)` of the map from `n` parents to children, L193-235 and L315-343: histogram, offsets and cursor loop over pairs of
parent and child. -/
def children (l : List (Nat × Nat)) (n p : Nat) : List Nat :=
  let offsets := (List.range (n + 1)).map (excl (cnt Prod.fst l))
  let data := (fill Prod.fst Prod.snd (fun b => offsets.getD b 0) (List.replicate (offsets.getD n 0) 0) l).2
  (data.drop (offsets.getD p 0)).take (offsets.getD (p + 1) 0 - offsets.getD p 0)

/-- The results are written in the order of the sorted keys, L255-269 and L356-364. -/
def sortPairs (order : List Nat → List Nat) (pairs : List (Nat × Int)) : List (Nat × Int) :=
  (order (pairs.map Prod.fst)).map fun i => pairs.getD i (0, 0)

/-- `transfer_cell_meshtag`, L274-367. -/
def transferCells (order : List Nat → List Nat) (tagDim tdim size ghosts : Nat) (tags : List (Nat × Int)) (orig : List Int) (off : Int)
    (cell : List Nat) : Except Err (List (Nat × Int)) :=
  if tagDim ≠ tdim then .error .notCells
  else if 0 < ghosts then .error .ghosted
  else if orig.length ≠ cell.length then .error .assert
  else match localIndex orig off with
    | none => .error .assert
    | some loc =>
      .ok (sortPairs order (tags.flatMap fun t => (children (cell.zip loc) (size + ghosts) t.1).map fun c => (c, t.2)))

/-- Pairs of parent facet and facet of the refined mesh, L195-204 and L218-235. -/
def facetLinks (tdim : Nat) (c2f0 c2f1 : List (List Nat)) (cell loc : List Nat) (facet : List (List Int)) : List (Nat × Nat) :=
  (List.range cell.length).flatMap fun c => (List.range (tdim + 1)).flatMap fun j =>
    if (facet.getD c []).getD j 0 = -1 then []
    else [((c2f0.getD (cell.getD c 0) []).getD ((facet.getD c []).getD j 0).toNat 0, (c2f1.getD (loc.getD c 0) []).getD j 0)]

/-- `transfer_facet_meshtag`, L153-272; `ghosts` counts ghost cells of the parent mesh, `nf` all its facets. -/
def transferFacets (order : List Nat → List Nat) (tdim ghosts nf : Nat) (tags : List (Nat × Int)) (orig : List Int) (off : Int)
    (c2f0 c2f1 : Option (List (List Nat))) (cell : List Nat) (facet : List (List Int)) : Except Err (List (Nat × Int)) :=
  if 0 < ghosts then .error .ghosted
  else match c2f0 with
    | none => .error .parent
    | some c2f0 =>
      if orig.length ≠ cell.length then .error .assert
      else match localIndex orig off with
        | none => .error .assert
        | some loc =>
          match c2f1 with
          | none => .error .refined
          | some c2f1 =>
            .ok (sortPairs order (tags.flatMap fun t =>
              (unique (sortNat (children (facetLinks tdim c2f0 c2f1 cell loc facet) nf t.1))).map fun c => (c, t.2)))

end Verif.TagTransfer
