import Mathlib.Data.List.Basic
import Mathlib.Algebra.Order.Ring.Defs
/-!
# Bounding box trees

`cpp/dolfinx/geometry/BoundingBoxTree.h` and the searches of `cpp/dolfinx/geometry/utils.h`.

Coordinates are elements of a linear order `K`; the rounded operations are parameters (`Fl`), so that the
results on collisions hold for floating point numbers (without NaN) as for exact ones.
`std::nth_element` along the longest axis is an arbitrary function on lists of leaves: the theorems
assume only that it permutes.  A read outside of the arrays gives `none`.
-/
namespace Verif.BB

/-- Six coordinates: lower and upper corner. -/
structure Box (K : Type) where
  lo : Nat → K
  hi : Nat → K

/-- Rounded operations of the floating point type, and `rtol`. -/
structure Fl (K : Type) where
  sub : K → K → K
  add : K → K → K
  mul : K → K → K
  rtol : K

/-- `_bboxes` (two entries per node) and `_bbox_coordinates` (one box per node), BoundingBoxTree.h L454-460. -/
structure Tree (K : Type) where
  nodes : List (Nat × Nat)
  boxes : List (Box K)

/-- Append a node, e.g. L96-99. -/
def Tree.push {K : Type} (t : Tree K) (c : Nat × Nat) (b : Box K) : Tree K := ⟨t.nodes ++ [c], t.boxes ++ [b]⟩

variable {K : Type} [LinearOrder K]

/-- `compute_bbox_of_entity`, L30-60; `x` are the coordinates of the nodes of the entity (`entities_to_geometry`). -/
def bboxOfEntity (x0 : Nat → K) (x : List (Nat → K)) : Box K :=
  x.foldl (fun b v => ⟨fun j => min (b.lo j) (v j), fun j => max (b.hi j) (v j)⟩) ⟨x0, x0⟩

/-- The padding of a leaf, L272-275. -/
def pad (F : Fl K) (padding : K) (b : Box K) : Box K :=
  ⟨fun j => F.sub (b.lo j) padding, fun j => F.add (b.hi j) padding⟩

/-- `compute_bbox_of_bboxes`, L65-81; `b0` is the first box of `l`. -/
def hull (b0 : Box K) (l : List (Box K × Nat)) : Box K :=
  l.foldl (fun b x => ⟨fun j => min (x.1.lo j) (b.lo j), fun j => max (x.1.hi j) (b.hi j)⟩) b0

/-- `_build_from_leaf`, L83-136; `nth` is the rearrangement by `nth_element`. -/
def build (nth : List (Box K × Nat) → List (Box K × Nat)) : Nat → List (Box K × Nat) → Tree K → Option (Nat × Tree K)
  | 0, _, _ => none
  | _ + 1, [], _ => none
  | _ + 1, [x], t => some (t.nodes.length, t.push (x.2, x.2) x.1)
  | f + 1, x :: y :: l, t =>
    (build nth f ((nth (x :: y :: l)).take ((nth (x :: y :: l)).length / 2)) t).bind fun r0 =>
    (build nth f ((nth (x :: y :: l)).drop ((nth (x :: y :: l)).length / 2)) r0.2).bind fun r1 =>
      some (r1.2.nodes.length, r1.2.push (r0.1, r1.1) (hull x.1 (x :: y :: l)))

/-- `build_from_leaf`, L138-146, and the constructor's test for no leaves, L280-282. -/
def fromLeaves (nth : List (Box K × Nat) → List (Box K × Nat)) (l : List (Box K × Nat)) : Option (Tree K) :=
  if l = [] then some ⟨[], []⟩ else (build nth l.length l ⟨[], []⟩).map (·.2)

/-- The constructor for mesh entities, L236-286; entities come with the coordinates of their nodes. -/
def fromMesh (F : Fl K) (padding : K) (nth : List (Box K × Nat) → List (Box K × Nat))
    (entities : List (Nat × (Nat → K) × List (Nat → K))) : Option (Tree K) :=
  fromLeaves nth (entities.map fun e => (pad F padding (bboxOfEntity e.2.1 e.2.2), e.1))

/-- Order of `std::pair<std::array<T, 3>, std::int32_t>`. -/
def lexLt (p q : (Nat → K) × Nat) : Bool :=
  decide (p.1 0 < q.1 0) || (decide (p.1 0 = q.1 0) && (decide (p.1 1 < q.1 1) || (decide (p.1 1 = q.1 1) &&
    (decide (p.1 2 < q.1 2) || (decide (p.1 2 = q.1 2) && decide (p.2 < q.2))))))

/-- `std::ranges::minmax_element`: first smallest and last largest element. -/
def minElement (p : (Nat → K) × Nat) (l : List ((Nat → K) × Nat)) : (Nat → K) × Nat :=
  l.foldl (fun m x => if lexLt x m then x else m) p
def maxElement (p : (Nat → K) × Nat) (l : List ((Nat → K) × Nat)) : (Nat → K) × Nat :=
  l.foldl (fun m x => if lexLt x m then m else x) p

/-- `_build_from_point`, L148-200. -/
def buildPoints (nth : List ((Nat → K) × Nat) → List ((Nat → K) × Nat)) :
    Nat → List ((Nat → K) × Nat) → Tree K → Option (Nat × Tree K)
  | 0, _, _ => none
  | _ + 1, [], _ => none
  | _ + 1, [x], t => some (t.nodes.length, t.push (x.2, x.2) ⟨x.1, x.1⟩)
  | f + 1, x :: y :: l, t =>
    (buildPoints nth f ((nth (x :: y :: l)).take ((nth (x :: y :: l)).length / 2)) t).bind fun r0 =>
    (buildPoints nth f ((nth (x :: y :: l)).drop ((nth (x :: y :: l)).length / 2)) r0.2).bind fun r1 =>
      some (r1.2.nodes.length, r1.2.push (r0.1, r1.1) ⟨(minElement x (y :: l)).1, (maxElement x (y :: l)).1⟩)

/-- The constructor for points, L291-303. -/
def fromPoints (nth : List ((Nat → K) × Nat) → List ((Nat → K) × Nat)) (l : List ((Nat → K) × Nat)) : Option (Tree K) :=
  if l = [] then some ⟨[], []⟩ else (buildPoints nth l.length l ⟨[], []⟩).map (·.2)

/-- `create_global_tree`, L337-371: the root boxes of all ranks, the largest number where a rank has none. -/
def globalTree (nth : List (Box K × Nat) → List (Box K × Nat)) (maxVal : K) (P : Nat) (trees : Nat → Tree K) :
    Option (Tree K) :=
  fromLeaves nth ((List.range P).map fun q => (((trees q).boxes.getLast?).getD ⟨fun _ => maxVal, fun _ => maxVal⟩, q))

/-- `point_in_bbox`, utils.h L198-212. -/
def pointIn (F : Fl K) (b : Box K) (p : Nat → K) : Bool :=
  (List.range 3).all fun i => decide (F.sub (b.lo i) (F.mul F.rtol (F.sub (b.hi i) (b.lo i))) ≤ p i) &&
    decide (p i ≤ F.add (b.hi i) (F.mul F.rtol (F.sub (b.hi i) (b.lo i))))

/-- `bbox_in_bbox`, utils.h L217-235. -/
def boxIn (F : Fl K) (a b : Box K) : Bool :=
  (List.range 3).all fun i => decide (F.sub (b.lo i) (F.mul F.rtol (F.sub (b.hi i) (b.lo i))) ≤ a.hi i) &&
    decide (a.lo i ≤ F.add (b.hi i) (F.mul F.rtol (F.sub (b.hi i) (b.lo i))))

/-- The loop of `_compute_collisions_point`, utils.h L305-361; `node` is `next`, the head of `stack` is its last element. -/
def pointLoop (F : Fl K) (t : Tree K) (p : Nat → K) : Nat → Option Nat → List Nat → List Nat → Option (List Nat)
  | 0, _, _, _ => none
  | _ + 1, none, _, out => some out
  | f + 1, some node, stack, out =>
    (t.nodes[node]?).bind fun c => (t.boxes[node]?).bind fun b =>
      if c.1 = c.2 ∧ pointIn F b p = true then
        pointLoop F t p f stack.head? stack.tail (out ++ [c.2])
      else
        (t.boxes[c.1]?).bind fun b0 => (t.boxes[c.2]?).bind fun b1 =>
          if pointIn F b0 p = true then
            pointLoop F t p f (some c.1) (if pointIn F b1 p = true then c.2 :: stack else stack) out
          else if pointIn F b1 p = true then pointLoop F t p f (some c.2) stack out
          else pointLoop F t p f stack.head? stack.tail out

/-- `compute_collisions` for one point, utils.h L480-502. -/
def collidePoint (F : Fl K) (t : Tree K) (p : Nat → K) : Option (List Nat) :=
  if t.nodes.length = 0 then some [] else pointLoop F t p (t.nodes.length + 1) (some (t.nodes.length - 1)) [] []

/-- `_compute_collisions_tree`, utils.h L364-417. -/
def treeRec (F : Fl K) (A B : Tree K) : Nat → Nat → Nat → Option (List (Nat × Nat))
  | 0, _, _ => none
  | f + 1, a, b =>
    (A.boxes[a]?).bind fun ba => (B.boxes[b]?).bind fun bb =>
      if boxIn F ba bb = true then
        (A.nodes[a]?).bind fun ca => (B.nodes[b]?).bind fun cb =>
          if ca.1 = ca.2 ∧ cb.1 = cb.2 then some [(ca.2, cb.2)]
          else if ca.1 = ca.2 then
            (treeRec F A B f a cb.1).bind fun l0 => (treeRec F A B f a cb.2).bind fun l1 => some (l0 ++ l1)
          else if cb.1 = cb.2 then
            (treeRec F A B f ca.1 b).bind fun l0 => (treeRec F A B f ca.2 b).bind fun l1 => some (l0 ++ l1)
          else if b < a then
            (treeRec F A B f ca.1 b).bind fun l0 => (treeRec F A B f ca.2 b).bind fun l1 => some (l0 ++ l1)
          else
            (treeRec F A B f a cb.1).bind fun l0 => (treeRec F A B f a cb.2).bind fun l1 => some (l0 ++ l1)
      else some []

/-- `compute_collisions` for two trees, utils.h L454-467. -/
def collideTree (F : Fl K) (A B : Tree K) : Option (List (Nat × Nat)) :=
  if 0 < A.nodes.length ∧ 0 < B.nodes.length then
    treeRec F A B (A.nodes.length + B.nodes.length) (A.nodes.length - 1) (B.nodes.length - 1)
  else some []

variable [CommRing K]

/-- `compute_squared_distance_bbox`, utils.h L135-155, without rounding. -/
def sqDistBox (b : Box K) (x : Nat → K) : K :=
  ((List.range 3).map fun j => if 0 < x j - b.lo j then 0 else (x j - b.lo j) * (x j - b.lo j)).sum +
  ((List.range 3).map fun j => if x j - b.hi j < 0 then 0 else (x j - b.hi j) * (x j - b.hi j)).sum

/-- Squared distance of two points. -/
def sqDist (x y : Nat → K) : K := ((List.range 3).map fun j => (y j - x j) * (y j - x j)).sum

/-- `_compute_closest_entity`, utils.h L238-298; `exact e` is the result of `squared_distance` (GJK) for entity `e`. -/
def closestRec (t : Tree K) (tdim : Nat) (exact : Nat → K) (x : Nat → K) : Nat → Nat → Nat × K → Option (Nat × K)
  | 0, _, _ => none
  | f + 1, node, s =>
    (t.nodes[node]?).bind fun c => (t.boxes[node]?).bind fun b =>
      if c.1 = c.2 then
        if tdim = 0 then some (if sqDist x b.lo ≤ s.2 then (c.2, sqDist x b.lo) else s)
        else if sqDistBox b x ≤ s.2 then some (if exact c.2 ≤ s.2 then (c.2, exact c.2) else s)
        else some s
      else if s.2 < sqDistBox b x then some s
      else (closestRec t tdim exact x f c.1 s).bind fun s0 => closestRec t tdim exact x f c.2 s0

/-- `compute_closest_entity` for one point, utils.h L568-612; the result `-1` for an empty tree is `none` inside. -/
def closest (t : Tree K) (tdim : Nat) (mid : Tree K) (exact : Nat → K) (x : Nat → K) : Option (Option Nat) :=
  if t.nodes.length = 0 then some none
  else
    (mid.nodes[0]?).bind fun leaf => (mid.boxes[0]?).bind fun b =>
      (closestRec mid 0 exact x mid.nodes.length (mid.nodes.length - 1) (leaf.1, sqDist x b.lo)).bind fun s =>
        (closestRec t tdim exact x t.nodes.length (t.nodes.length - 1) s).map fun r => some r.1

end Verif.BB
