import Verif.Model.SortByPerm
import Verif.Spec.Lex
import Verif.Props.C03_RadixSort
/-!
# C04: `sort_by_perm` returns the stable lexicographic row order
-/
namespace Verif.Props
open Verif.RadixSort Verif.SortByPerm Verif.Spec

variable {w : Nat}

/-- Composition of stable sorts: sorting stably by `k1` and then by `kc` is a
stable sort by the pair, most significant first. -/
theorem StableSorted.then {α : Type} {inp cur out : List α} {kc : α → Int} {k1 : α → LexRow}
    (h1 : StableSorted k1 inp cur) (h2 : StableSorted kc cur out) :
    StableSorted (fun x => (⟨kc x :: (k1 x).row⟩ : LexRow)) inp out := by
  have hstable : ∀ k : LexRow, out.filter (fun x => decide ((⟨kc x :: (k1 x).row⟩ : LexRow) = k)) =
      inp.filter (fun x => decide ((⟨kc x :: (k1 x).row⟩ : LexRow) = k)) := by
    intro k
    by_cases hk : ∃ v r, k = ⟨v :: r⟩
    · obtain ⟨v, r, rfl⟩ := hk
      have e : ∀ l : List α, l.filter (fun x => decide ((⟨kc x :: (k1 x).row⟩ : LexRow) = ⟨v :: r⟩)) =
          (l.filter (fun x => decide (kc x = v))).filter (fun x => decide (k1 x = ⟨r⟩)) := by
        intro l
        rw [List.filter_filter]
        apply List.filter_congr
        intro x _
        cases hk1 : k1 x with
        | mk row => simp [Bool.and_comm]
      have e' : ∀ l : List α, l.filter (fun x => decide ((⟨kc x :: (k1 x).row⟩ : LexRow) = ⟨v :: r⟩)) =
          (l.filter (fun x => decide (k1 x = ⟨r⟩))).filter (fun x => decide (kc x = v)) := by
        intro l
        rw [e l, List.filter_filter, List.filter_filter]
        apply List.filter_congr
        intro x _
        rw [Bool.and_comm]
      rw [e out, h2.stable, ← e, e' cur, h1.stable, ← e']
    · have hn : ∀ x, ¬ (⟨kc x :: (k1 x).row⟩ : LexRow) = k := fun x hx => hk ⟨_, _, hx.symm⟩
      simp [hn]
  refine ⟨h2.perm.trans h1.perm, ?_, hstable⟩
  have hs := h2.sorted
  rw [List.pairwise_iff_getElem] at hs ⊢
  intro i j hi hj hij
  have hij' := hs i j hi hj hij
  rcases lt_or_eq_of_le hij' with hlt | heq
  · exact Or.inl hlt
  · right
    refine ⟨heq, ?_⟩
    have hf : (out.filter (fun x => decide (kc x = kc out[j]))).Pairwise (fun x y => k1 x ≤ k1 y) := by
      rw [h2.stable]; exact h1.sorted.filter _
    rw [List.pairwise_filter, List.pairwise_iff_getElem] at hf
    exact hf i j hi hj hij (by simp [heq]) (by simp)

/-- The signed values of columns `c, c+1, ..., n-1` of row `i`. -/
def rowFrom (col : Nat → Nat → BitVec w) (n c : Nat) (i : Nat) : LexRow :=
  ⟨(List.range (n - c)).map (fun k => (col (c + k) i).toInt)⟩

theorem rowFrom_succ (col : Nat → Nat → BitVec w) (n c i : Nat) (h : c < n) :
    rowFrom col n c i = ⟨(col c i).toInt :: (rowFrom col n (c + 1) i).row⟩ := by
  simp only [rowFrom]
  have e : n - c = (n - (c + 1)) + 1 := by omega
  rw [e, List.range_succ_eq_map, List.map_cons, List.map_map]
  simp only [Nat.add_zero]
  congr 2
  apply List.map_congr_left
  intro k _
  simp only [Function.comp, Nat.succ_eq_add_one]
  rw [show c + (k + 1) = c + 1 + k by omega]

/-- The column loop. -/
theorem columns_sorted (b : Nat) (hb : 0 < b) (hbw : b < w) (col : Nat → Nat → BitVec w) (n m : Nat)
    (hm : m ≤ 2 ^ w) : ∀ k, k ≤ n →
    ∃ out, (List.range k).foldlM (fun perm i => sortColumn b perm (col (n - 1 - i))) (List.range m)
        = some out ∧ StableSorted (rowFrom col n (n - k)) (List.range m) out := by
  intro k
  induction k with
  | zero =>
    intro _
    refine ⟨List.range m, rfl, List.Perm.refl _, ?_, fun _ => rfl⟩
    apply List.pairwise_of_forall
    intro x y
    show LexLe _ _
    simp [rowFrom, LexLe]
  | succ k ih =>
    intro hk
    obtain ⟨cur, h1, h2⟩ := ih (by omega)
    have hlen : cur.length ≤ 2 ^ w := by rw [h2.perm.length_eq]; simpa using hm
    obtain ⟨out, h3, h4⟩ := C03_radix_sort_signed_partial b (col (n - 1 - k)) cur hb hbw hlen
    refine ⟨out, ?_, ?_⟩
    · rw [List.range_succ, List.foldlM_append, h1]
      simp only [Option.bind_eq_bind, Option.bind_some, List.foldlM_cons, List.foldlM_nil, sortColumn, h3]
      rfl
    · have h5 := StableSorted.then h2 h4
      have e : n - k = n - (k + 1) + 1 := by omega
      have e2 : n - 1 - k = n - (k + 1) := by omega
      rw [e2, e] at h5
      have : rowFrom col n (n - (k + 1)) =
          fun x => (⟨(col (n - (k + 1)) x).toInt :: (rowFrom col n (n - (k + 1) + 1) x).row⟩ : LexRow) := by
        funext x; exact rowFrom_succ col n _ x (by omega)
      rw [this]; exact h5

/-- Signed values of the leading `n` entries of row `i` of the flattened table `x`
with `shape1` columns. -/
def tableRow (x : List (BitVec w)) (shape1 n i : Nat) : LexRow :=
  ⟨(List.range n).map (fun c => (x.getD (i * shape1 + c) 0).toInt)⟩

/-- C04 (row-major): for every table of `w`-bit integers with at most `2^w` rows
(always true for 32-bit row numbers) and every number of leading columns, the
result is the stable lexicographic order of the rows. -/
theorem C04_sort_by_perm (b : Nat) (hb : 0 < b) (hbw : b < w) (x : List (BitVec w)) (shape1 : Nat)
    (ncols : Option Nat)
    (hrows : x.length / shape1 ≤ 2 ^ w) :
    ∃ perm, sortByPerm b x shape1 ncols = some perm ∧
      StableSorted (tableRow x shape1 (ncols.getD shape1)) (List.range (x.length / shape1)) perm := by
  unfold sortByPerm
  split
  · rename_i h
    subst h
    refine ⟨[], rfl, ?_⟩
    simp only [List.length_nil, Nat.zero_div]
    exact StableSorted.refl_of_sorted (by simp)
  · obtain ⟨out, h1, h2⟩ := columns_sorted b hb hbw (fun c j => x.getD (j * shape1 + c) 0)
      (ncols.getD shape1) (x.length / shape1) hrows (ncols.getD shape1) (le_refl _)
    refine ⟨out, h1, ?_⟩
    rw [Nat.sub_self] at h2
    have : rowFrom (fun c j => x.getD (j * shape1 + c) 0) (ncols.getD shape1) 0 =
        tableRow x shape1 (ncols.getD shape1) := by
      funext i; simp [rowFrom, tableRow]
    rw [← this]; exact h2

/-- Row `i` of a table given by columns. -/
def columnsRow (x : List (List (BitVec w))) (i : Nat) : LexRow :=
  ⟨x.map (fun c => (c.getD i 0).toInt)⟩

/-- C04 (column-major overload): stable lexicographic order of the rows. -/
theorem C04_sort_by_perm_columns (b : Nat) (hb : 0 < b) (hbw : b < w) (c0 : List (BitVec w))
    (cs : List (List (BitVec w))) (hrows : c0.length ≤ 2 ^ w) :
    ∃ perm, sortByPermCols b (c0 :: cs) = some perm ∧
      StableSorted (columnsRow (c0 :: cs)) (List.range c0.length) perm := by
  unfold sortByPermCols
  obtain ⟨out, h1, h2⟩ := columns_sorted b hb hbw
    (fun c j => ((c0 :: cs).getD c []).getD j 0) (c0 :: cs).length c0.length hrows
    (c0 :: cs).length (le_refl _)
  refine ⟨out, h1, ?_⟩
  rw [Nat.sub_self] at h2
  have : rowFrom (fun c j => ((c0 :: cs).getD c []).getD j 0) (c0 :: cs).length 0 =
      columnsRow (c0 :: cs) := by
    funext i
    simp only [rowFrom, columnsRow, Nat.zero_add, Nat.sub_zero]
    congr 1
    apply List.ext_getElem
    · simp
    · intro k h _
      simp only [List.length_map, List.length_range] at h
      simp only [List.getElem_map, List.getElem_range]
      have e : (c0 :: cs).getD k [] = (c0 :: cs)[k] := by
        rw [List.getD_eq_getElem?_getD, List.getElem?_eq_getElem h]; rfl
      rw [e]
  rw [← this]; exact h2

theorem lexLe_antisymm : ∀ a b : List Int, LexLe a b → LexLe b a → a = b
  | [], [], _, _ => rfl
  | [], _ :: _, _, h => h.elim
  | _ :: _, [], h, _ => h.elim
  | a :: as, b :: bs, h1, h2 => by
    simp only [LexLe] at h1 h2
    have hab : a = b := by omega
    subst hab
    rw [lexLe_antisymm as bs (h1.resolve_left (lt_irrefl _)).2 (h2.resolve_left (lt_irrefl _)).2]

/-- C04: the two overloads return the same order for the same table (`x` is the
row-major flattening of the columns `c0 :: cs`). -/
theorem C04_overloads_agree (b : Nat) (hb : 0 < b) (hbw : b < w) (c0 : List (BitVec w))
    (cs : List (List (BitVec w))) (hrows : c0.length ≤ 2 ^ w) :
    sortByPerm b ((List.range c0.length).flatMap (fun i => (c0 :: cs).map (fun c => c.getD i 0)))
      (c0 :: cs).length none = sortByPermCols b (c0 :: cs) := by
  generalize hx : (List.range c0.length).flatMap (fun i => (c0 :: cs).map (fun c => c.getD i 0)) = x
  have hexcl : ∀ i, Offsets.excl
      (fun i => ((c0 :: cs).map (fun c => c.getD i (0 : BitVec w))).length) i = i * (c0 :: cs).length := by
    intro i
    induction i with
    | zero => simp
    | succ i ih => rw [Offsets.excl_succ, ih, List.length_map, Nat.succ_mul]
  have hxl : x.length = c0.length * (c0 :: cs).length := by
    rw [← hx, Offsets.length_flatMap_range, hexcl]
  have hsh : x.length / (c0 :: cs).length = c0.length := by
    rw [hxl]; exact Nat.mul_div_cancel _ (by simp)
  obtain ⟨p, hp1, hp2⟩ := C04_sort_by_perm b hb hbw x (c0 :: cs).length none
    (by rw [hsh]; exact hrows)
  obtain ⟨q, hq1, hq2⟩ := C04_sort_by_perm_columns b hb hbw c0 cs hrows
  rw [hp1, hq1]
  rw [hsh] at hp2
  have hrow : ∀ i ∈ List.range c0.length,
      tableRow x (c0 :: cs).length ((none : Option Nat).getD (c0 :: cs).length) i = columnsRow (c0 :: cs) i := by
    intro i hi
    simp only [List.mem_range] at hi
    simp only [tableRow, columnsRow, Option.getD_none]
    congr 1
    apply List.ext_getElem
    · simp
    · intro k hk _
      simp only [List.length_map, List.length_range] at hk
      simp only [List.getElem_map, List.getElem_range]
      congr 1
      have h1 := Offsets.getElem?_flatMap_range
        (fun i => (c0 :: cs).map (fun c => c.getD i (0 : BitVec w))) (B := c0.length) hi (k := k)
        (by simpa using hk)
      rw [hexcl, hx] at h1
      rw [List.getD_eq_getElem?_getD, h1, List.getElem?_map, List.getElem?_eq_getElem hk]
      simp
  have hp3 : StableSorted (columnsRow (c0 :: cs)) (List.range c0.length) p := by
    apply hp2.congr_key
    · intro x hx y hy h; rw [← hrow x hx, ← hrow y hy]; exact h
    · intro x hx y hy h; rw [hrow x hx, hrow y hy]; exact h
  congr 1
  refine hp3.unique ?_ hq2 (fun _ => rfl)
  rintro ⟨a⟩ ⟨b⟩ h1 h2
  exact congrArg LexRow.mk (lexLe_antisymm a b h1 h2)

/-- A table with ties in the leading column, sorted by two of three columns. -/
example : sortByPerm 4 [(2 : BitVec 16), 1, 9,  1, 5, 8,  2, -1, 7,  1, 5, 6] 3 (some 2) =
    some [1, 3, 2, 0] := by decide +kernel
example : sortByPermCols 4 [[(2 : BitVec 16), 1, 2, 1], [1, 5, -1, 5]] = some [1, 3, 2, 0] := by
  decide +kernel

end Verif.Props
