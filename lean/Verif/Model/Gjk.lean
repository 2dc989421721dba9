import Mathlib.Algebra.Order.Field.Basic
import Verif.Prelude
import Verif.Model.LocalRange
/-!
# Distance of convex bodies

Model of `compute_distance_gjk` and of `nearest_simplex`, `det4`, `dot3`, `support`, `cpp/dolfinx/geometry/gjk.h` L34-498.

* Arithmetic is exact, in an ordered field `K`, for both floating point types `T` and `U`; casts between them do nothing.
* Bodies are lists of points; flat arrays of three numbers per point in the code.
* `sqrt` is a function; `eps` is a parameter (`1000 * epsilon` of the type `U`, L376).
* `nearest_simplex` for four points reads the diagonal of the local array `d`, which is never set (L210-224).  The model has the
  parameter `junk` for these numbers.
-/
namespace Verif.Gjk

/-- A point or vector. -/
abbrev V (K : Type) := K × K × K

variable {K : Type} [Field K] [LinearOrder K]

/-- `dot3`, L62-66. -/
def dot3 (a b : V K) : K := a.1 * b.1 + a.2.1 * b.2.1 + a.2.2 * b.2.2

/-- `nearest_simplex<T, 2>`, L82-112. -/
def nearest2 (s0 s1 : V K) : List K :=
  let lm := dot3 s0 s0 - dot3 s0 s1
  if lm < 0 then [1, 0]
  else
    let mu := dot3 s1 s1 - dot3 s1 s0
    if mu < 0 then [0, 1]
    else
      let f1 := 1 / (lm + mu)
      [mu * f1, lm * f1]

/-- `nearest_simplex<T, 3>`, L113-203. -/
def nearest3 (a b c : V K) : List K :=
  let aa := dot3 a a
  let ab := dot3 a b
  let ac := dot3 a c
  let d1 := aa - ab
  let d2 := aa - ac
  if d1 < 0 ∧ d2 < 0 then [1, 0, 0]
  else
    let bb := dot3 b b
    let bc := dot3 b c
    let d3 := bb - ab
    let d4 := bb - bc
    if d3 < 0 ∧ d4 < 0 then [0, 1, 0]
    else
      let cc := dot3 c c
      let d5 := cc - ac
      let d6 := cc - bc
      if d5 < 0 ∧ d6 < 0 then [0, 0, 1]
      else
        let vc := d4 * d1 - d1 * d3 + d3 * d2
        if vc < 0 ∧ 0 < d1 ∧ 0 < d3 then
          let f1 := 1 / (d1 + d3)
          [d3 * f1, d1 * f1, 0]
        else
          let vb := d1 * d5 - d5 * d2 + d2 * d6
          if vb < 0 ∧ 0 < d2 ∧ 0 < d5 then
            let f1 := 1 / (d2 + d5)
            [d5 * f1, 0, d2 * f1]
          else
            let va := d3 * d6 - d6 * d4 + d4 * d5
            if va < 0 ∧ 0 < d4 ∧ 0 < d6 then
              let f1 := 1 / (d4 + d6)
              [0, d6 * f1, d4 * f1]
            else
              let f1 := 1 / (va + vb + vc)
              [va * f1, vb * f1, vc * f1]

/-- `d[i][j]` for `i ≠ j`, L220-221. -/
def dd (s : Nat → V K) (i j : Nat) : K := dot3 (s i) (s i) - dot3 (s i) (s j)

/-- The variable `out` after the loop L216-225: no `d[i][j]` is positive, where `d[i][i]` is whatever it is. -/
def vertexOut (junk : Nat → K) (s : Nat → V K) (i : Nat) : Bool :=
  [0, 1, 2, 3].all fun j => decide (¬ 0 < if i = j then junk i else dd s i j)

/-- `edges`, L238. -/
def edges : List (Nat × Nat) := [(2, 3), (1, 3), (1, 2), (0, 3), (0, 2), (0, 1)]

/-- `v[i][k]`, L243-250. -/
def vv (s : Nat → V K) (i k : Nat) : K :=
  let j := edges.getD i (0, 0)
  let o := edges.getD (5 - i) (0, 0)
  let j2 := if k = 0 then o.1 else o.2
  dd s j.2 j2 * dd s j.1 j.2 - dd s j.1 j.2 * dd s j.2 j.1 + dd s j.2 j.1 * dd s j.1 j2

/-- The test of L253-254. -/
def edgeOn (s : Nat → V K) (i : Nat) : Bool :=
  let j := edges.getD i (0, 0)
  decide (vv s i 0 ≤ 0 ∧ vv s i 1 ≤ 0 ∧ 0 ≤ dd s j.1 j.2 ∧ 0 ≤ dd s j.2 j.1)

/-- The coordinates of L208 and L257-259. -/
def edgeWeights (s : Nat → V K) (i : Nat) : List K :=
  let j := edges.getD i (0, 0)
  let f1 := 1 / (dd s j.1 j.2 + dd s j.2 j.1)
  [0, 1, 2, 3].map fun k => if k = j.1 then f1 * dd s j.2 j.1 else if k = j.2 then f1 * dd s j.1 j.2 else 0

/-- `det4`, L34-56. -/
def det4 (s : Nat → V K) (k : Nat) : K :=
  let s0 := s 0
  let s1 := s 1
  let s2 := s 2
  let s3 := s 3
  let c0 := s2.2.1 * s3.2.2 - s2.2.2 * s3.2.1
  let c1 := s2.1 * s3.2.2 - s2.2.2 * s3.1
  let c2 := s2.1 * s3.2.1 - s2.2.1 * s3.1
  let e0 := s0.2.1 * s1.2.2 - s0.2.2 * s1.2.1
  let e1 := s0.1 * s1.2.2 - s0.2.2 * s1.1
  let e2 := s0.1 * s1.2.1 - s0.2.1 * s1.1
  if k = 2 then -s0.1 * c0 + s0.2.1 * c1 - s0.2.2 * c2
  else if k = 3 then s1.1 * c0 - s1.2.1 * c1 + s1.2.2 * c2
  else if k = 0 then -s2.1 * e0 + s2.2.1 * e1 - s2.2.2 * e2
  else s3.1 * e0 - s3.2.1 * e1 + s3.2.2 * e2

/-- The facets and the interior, L276-321, for determinants with a sum that is not negative. -/
def facets (s : Nat → V K) (w : Nat → K) (wsum : K) : List K :=
  if w 0 < 0 ∧ 0 < vv s 2 0 ∧ 0 < vv s 4 0 ∧ 0 < vv s 5 0 then
    let f1 := 1 / (vv s 2 0 + vv s 4 0 + vv s 5 0)
    [vv s 2 0 * f1, vv s 4 0 * f1, vv s 5 0 * f1, 0]
  else if w 1 < 0 ∧ 0 < vv s 1 0 ∧ 0 < vv s 3 0 ∧ 0 < vv s 5 1 then
    let f1 := 1 / (vv s 1 0 + vv s 3 0 + vv s 5 1)
    [vv s 1 0 * f1, vv s 3 0 * f1, 0, vv s 5 1 * f1]
  else if w 2 < 0 ∧ 0 < vv s 0 0 ∧ 0 < vv s 3 1 ∧ 0 < vv s 4 1 then
    let f1 := 1 / (vv s 0 0 + vv s 3 1 + vv s 4 1)
    [vv s 0 0 * f1, 0, vv s 3 1 * f1, vv s 4 1 * f1]
  else if w 3 < 0 ∧ 0 < vv s 0 1 ∧ 0 < vv s 1 1 ∧ 0 < vv s 2 1 then
    let f1 := 1 / (vv s 0 1 + vv s 1 1 + vv s 2 1)
    [0, vv s 0 1 * f1, vv s 1 1 * f1, vv s 2 1 * f1]
  else [w 3 / wsum, w 2 / wsum, w 1 / wsum, w 0 / wsum]

/-- `nearest_simplex<T, 4>`, L204-322. -/
def nearest4 (junk : Nat → K) (s : Nat → V K) : List K :=
  match [0, 1, 2, 3].find? (vertexOut junk s) with
  | some i => [0, 1, 2, 3].map fun k => if k = i then 1 else 0
  | none =>
    match [0, 1, 2, 3, 4, 5].find? (edgeOn s) with
    | some i => edgeWeights s i
    | none =>
      let wsum := det4 s 0 + det4 s 1 + det4 s 2 + det4 s 3
      if wsum < 0 then facets s (fun k => -det4 s k) (-wsum) else facets s (det4 s) wsum

/-- The loop L340-348, from point `m` on. -/
def supportLoop (v : V K) : Nat → Nat → K → List (V K) → Nat
  | _, i, _, [] => i
  | m, i, qmax, p :: ps =>
    if dot3 p v > qmax then supportLoop v (m + 1) m (dot3 p v) ps else supportLoop v (m + 1) i qmax ps

/-- `support`, L335-351; `none` for a body without points. -/
def support (bd : List (V K)) (v : V K) : Option Nat :=
  match bd with
  | [] => none
  | p :: ps => some (supportLoop v 1 0 (dot3 p v) ps)

/-- Exceptions. -/
inductive Err where
  /-- "GJK error - max iteration limit reached" -/
  | limit
  /-- "Invalid simplex size" -/
  | size
  /-- an index past the end -/
  | index
  deriving DecidableEq

/-- `nearest_simplex` for the size of the simplex, L451-464. -/
def nearest (junk : Nat → K) : List (V K) → Option (List K)
  | [s0, s1] => some (nearest2 s0 s1)
  | [s0, s1, s2] => some (nearest3 s0 s1 s2)
  | [s0, s1, s2, s3] => some (nearest4 junk fun i => [s0, s1, s2, s3].getD i (0, 0, 0))
  | _ => none

/-- The new point, L468-481: the sum over positive coordinates. -/
def combine (x : V K) : List (K × V K) → V K
  | [] => x
  | (l, p) :: r => if 0 < l then combine (x.1 + l * p.1, x.2.1 + l * p.2.1, x.2.2 + l * p.2.2) r else combine x r

/-- The points that are kept, L472-482. -/
def kept (l : List (K × V K)) : List (V K) := (l.filter fun p => decide (0 < p.1)).map fun p => p.2

/-- The result of one iteration. -/
inductive Step (K : Type) where
  | done (x : V K)
  | next (x : V K) (s : List (V K))
  | fail (e : Err)
  deriving DecidableEq

/-- `p - q`, L379-381 and L421-424. -/
def diff (p q : V K) : V K := (p.1 - q.1, p.2.1 - q.2.1, p.2.2 - q.2.2)

/-- `x_k_normalized`, L397-409. -/
def normalized (sqrt : K → K) (eps : K) (x : V K) : V K :=
  if dot3 x x > eps * eps then
    let inv := 1 / sqrt (dot3 x x)
    (x.1 * inv, x.2.1 * inv, x.2.2 * inv)
  else x

/-- The rest of an iteration, once the support point is found, L426-491. -/
def advance (junk : Nat → K) (eps : K) (x : V K) (s : List (V K)) (sk : V K) : Step K :=
  if sk ∈ s then .done x
  else
    let diff := dot3 x x - dot3 x sk
    if diff < eps * dot3 x x ∨ diff < eps then .done x
    else
      match nearest junk (s ++ [sk]) with
      | none => .fail .size
      | some lmn =>
        let l := lmn.zip (s ++ [sk])
        let y := combine (0, 0, 0) l
        if dot3 x x ≤ dot3 y y then .done y
        else if dot3 y y < eps * eps then .done y
        else .next y (kept l)

/-- One iteration, L392-492. -/
def step (junk : Nat → K) (sqrt : K → K) (eps : K) (P Q : List (V K)) (x : V K) (s : List (V K)) : Step K :=
  let n := normalized sqrt eps x
  match support P (-n.1, -n.2.1, -n.2.2), support Q n with
  | some ip, some iq =>
    match P[ip]?, Q[iq]? with
    | some p, some q => advance junk eps x s (diff p q)
    | _, _ => .fail .index
  | _, _ => .fail .index

/-- The loop with `k` iterations left, L392-495. -/
def loop (junk : Nat → K) (sqrt : K → K) (eps : K) (P Q : List (V K)) : Nat → V K → List (V K) → Except Err (V K)
  | 0, _, _ => .error .limit
  | k + 1, x, s =>
    match step junk sqrt eps P Q x s with
    | .done y => .ok y
    | .fail e => .error e
    | .next y t => loop junk sqrt eps P Q k y t

/-- `compute_distance_gjk`, L367-498. -/
def distance (junk : Nat → K) (sqrt : K → K) (eps : K) (P Q : List (V K)) : Except Err (V K) :=
  match P, Q with
  | p :: _, q :: _ => loop junk sqrt eps P Q 15 (diff p q) [diff p q]
  | _, _ => .error .index

/-- The number of threads, L527-528. -/
def numThreads (total threads : Nat) : Nat := max 1 (min threads total)

/-- What thread `i` writes, L535-542 and L548: positions and values. -/
def chunk {β : Type} (results : List β) (total n i : Nat) : List (Nat × β) :=
  let r := LocalRange.localRange i total n
  (List.range' r.1 (r.2 - r.1)).filterMap fun j => results[j]?.map fun v => (j, v)

/-- The array `results` after writes in some order. -/
def written {β : Type} (zero : β) (total : Nat) (writes : List (Nat × β)) : List β :=
  writes.foldl (fun r w => r.set w.1 w.2) (List.replicate total zero)

end Verif.Gjk
