import Verif.Spec.GlobalIndex
import Verif.Model.NewVertices
/-! Specification: numbers and positions of the vertices of a refined mesh. -/
namespace Verif.Spec.Vertices
open Verif.World Verif.NewVert

/-- `old` numbers the `nv` old vertices and `mid` the marked ones of `ne` edges, together by `0, ..., N - 1` without gaps and
repetitions. -/
structure Numbering (nv ne : Nat) (M : Nat → Prop) (old mid : Nat → Nat) (N : Nat) : Prop where
  old_lt : ∀ g < nv, old g < N
  mid_lt : ∀ g < ne, M g → mid g < N
  old_inj : ∀ g < nv, ∀ g' < nv, old g = old g' → g = g'
  mid_inj : ∀ g < ne, M g → ∀ g' < ne, M g' → mid g = mid g' → g = g'
  disj : ∀ g < nv, ∀ g' < ne, M g' → old g ≠ mid g'
  onto : ∀ x < N, (∃ g < nv, old g = x) ∨ (∃ g < ne, M g ∧ mid g = x)

/-- The geometry of rank `r` is that of a mesh of straight cells: `pos` gives the position of each vertex of the mesh by its
global number and `ends` the vertices of each edge. -/
structure Straight {X : Type} (we wv : World) (vpos : Nat → Nat) (closure : Nat → List Nat) (pos : Nat → X) (ends : Nat → Nat × Nat) (r : Nat)
    (m : Cells X) : Prop where
  len : m.c2v.length = m.xdof.length
  vertex : ∀ (c : Nat) (vs ds : List Nat), m.c2v[c]? = some vs → m.xdof[c]? = some ds → ∀ i v, vs[i]? = some v → ∀ g, globalOf wv r v = some g →
    m.x (ds.getD (vpos i) 0) = pos g
  used : ∀ v, v < wv.size r → ∃ (c : Nat) (vs : List Nat) (i : Nat), m.c2v[c]? = some vs ∧ vs[i]? = some v
  edge : ∀ e g, globalOf we r e = some g → ∃ (c : Nat) (es vs ds : List Nat) (i j vi vj a b : Nat), (m.e2c e).head? = some c ∧ m.c2e[c]? = some es ∧ e ∈ es ∧ m.c2v[c]? = some vs ∧
    m.xdof[c]? = some ds ∧ closure (es.idxOf e) = [vpos i, vpos j] ∧ vs[i]? = some vi ∧ vs[j]? = some vj ∧
    globalOf wv r vi = some a ∧ globalOf wv r vj = some b ∧ (ends g = (a, b) ∨ ends g = (b, a))

end Verif.Spec.Vertices
