import Verif.Spec.CsrView
import Verif.Lemmas.StdAlg
import Verif.Prelude
/-! Facts about the CSR search and about executing access sequences. -/
namespace Verif.Csr
open Verif.Std Verif.Spec

variable {R : Type}

theorem _root_.Verif.Spec.PatternOk.mono' {P : Pattern} {n : Nat} (h : PatternOk P n) {a b : Nat} (hab : a ≤ b) (hb : b ≤ n) :
    P.rowPtr a ≤ P.rowPtr b := by
  induction b with
  | zero => have : a = 0 := by omega
            subst this; exact le_refl _
  | succ b ih =>
    rcases Nat.lt_or_ge a (b + 1) with h1 | h1
    · exact le_trans (ih (by omega) (by omega)) (h.mono b (by omega))
    · have : a = b + 1 := by omega
      subst this; exact le_refl _

theorem _root_.Verif.Spec.PatternOk.row_get {P : Pattern} {n : Nat} (_h : PatternOk P n) {r : Nat} (_hr : r < n) (k : Nat)
    (hk : k < P.rowPtr (r + 1) - P.rowPtr r) : (P.row r)[k]? = P.cols[P.rowPtr r + k]? := by
  unfold Pattern.row
  rw [List.getElem?_take, if_pos hk, List.getElem?_drop]

theorem _root_.Verif.Spec.PatternOk.row_length {P : Pattern} {n : Nat} (h : PatternOk P n) {r : Nat} (hr : r < n) :
    (P.row r).length = P.rowPtr (r + 1) - P.rowPtr r := by
  have h1 := h.mono' (a := r + 1) (b := n) (by omega) (le_refl _)
  have := h.bound
  unfold Pattern.row
  simp only [List.length_take, List.length_drop]; omega

/-- The search returns `d` exactly when row `r` stores column `c` at `d`. -/
theorem _root_.Verif.Spec.PatternOk.find_iff {P : Pattern} {n : Nat} (h : PatternOk P n) {r : Nat} (hr : r < n) (c d : Nat) :
    P.find r c = some d ↔ P.rowPtr r ≤ d ∧ d < P.rowPtr (r + 1) ∧ P.cols[d]? = some c := by
  have hlen := h.row_length hr
  have hsort := h.sorted r hr
  unfold Pattern.find
  simp only
  constructor
  · intro hf
    split at hf
    · rename_i hk
      have hd : P.rowPtr r + _ = d := Option.some.inj hf
      obtain ⟨hlt, _⟩ := List.getElem?_eq_some_iff.mp hk
      rw [h.row_get hr _ (by omega)] at hk
      subst hd
      exact ⟨by omega, by omega, hk⟩
    · exact absurd hf (by simp)
  · rintro ⟨h1, h2, h3⟩
    have hk : (P.row r)[d - P.rowPtr r]? = some c := by
      rw [h.row_get hr _ (by omega), show P.rowPtr r + (d - P.rowPtr r) = d by omega]; exact h3
    obtain ⟨x, hx, hxc, _⟩ := lowerBound_find (fun c : Nat => c) (P.row r)
      (hsort.imp (fun h => le_of_lt h)) c ⟨c, List.mem_of_getElem? hk, rfl⟩
    have hx' : (P.row r)[lowerBound (fun c' => decide (c' < c)) (P.row r)]? = some c := by
      rw [hx]; rw [hxc]
    rw [if_pos hx']
    obtain ⟨a1, b1⟩ := List.getElem?_eq_some_iff.mp hx'
    obtain ⟨a2, b2⟩ := List.getElem?_eq_some_iff.mp hk
    have hnd : (P.row r).Nodup := hsort.imp (fun h => ne_of_lt h)
    have := (List.Nodup.getElem_inj_iff hnd).mp (b1.trans b2.symm)
    congr 1; omega

/-- Rows occupy disjoint position ranges. -/
theorem _root_.Verif.Spec.PatternOk.row_unique {P : Pattern} {n : Nat} (h : PatternOk P n) {r r' d : Nat} (hr : r < n) (hr' : r' < n)
    (h1 : P.rowPtr r ≤ d ∧ d < P.rowPtr (r + 1)) (h2 : P.rowPtr r' ≤ d ∧ d < P.rowPtr (r' + 1)) : r = r' := by
  rcases Nat.lt_trichotomy r r' with hlt | heq | hgt
  · have := h.mono' (a := r + 1) (b := r') (by omega) (by omega); omega
  · exact heq
  · have := h.mono' (a := r' + 1) (b := r) (by omega) (by omega); omega

/-- Values written at position `p`, in order. -/
def writesAt (p : Nat) (es : List (Ev R)) : List R :=
  es.filterMap (fun e => match e with | some (q, v) => if q = p then some v else none | none => none)

theorem writesAt_append (p : Nat) (a b : List (Ev R)) : writesAt p (a ++ b) = writesAt p a ++ writesAt p b := by
  simp [writesAt]

theorem writesAt_flatMap {α : Type} (p : Nat) (l : List α) (f : α → List (Ev R)) :
    writesAt p (l.flatMap f) = l.flatMap (fun a => writesAt p (f a)) := by
  induction l with
  | nil => rfl
  | cons a l ih => simp [List.flatMap_cons, writesAt_append, ih]

theorem writesAt_map {α : Type} (p : Nat) (l : List α) (f : α → Ev R) :
    writesAt p (l.map f) = l.flatMap (fun a => writesAt p [f a]) := by
  induction l with
  | nil => rfl
  | cons a l ih =>
    rw [List.map_cons, show f a :: l.map f = [f a] ++ l.map f from rfl, writesAt_append, ih, List.flatMap_cons]

/-- A sequence without a throw runs to the end. -/
theorem run_ok_iff (op : R → R → R) (data : Nat → R) (es : List (Ev R)) :
    (run op data es).2 = true ↔ none ∉ es := by
  induction es generalizing data with
  | nil => simp [run]
  | cons e es ih =>
    cases e with
    | none => simp [run]
    | some e => obtain ⟨p, v⟩ := e; simp [run, ih]

/-- Each position ends with `op` folded over the values written there. -/
theorem run_get (op : R → R → R) (data : Nat → R) (es : List (Ev R)) (h : none ∉ es) (p : Nat) :
    (run op data es).1 p = (writesAt p es).foldl op (data p) := by
  induction es generalizing data with
  | nil => simp [run, writesAt]
  | cons e es ih =>
    cases e with
    | none => simp at h
    | some e =>
      obtain ⟨q, v⟩ := e
      rw [run, ih _ (by simpa using h)]
      by_cases hq : q = p
      · subst hq; simp [writesAt]
      · have hq' : ¬ p = q := fun h => hq h.symm
        simp [writesAt, hq, hq']

/-- A position that is never written keeps its value, even if the run throws. -/
theorem run_unwritten (op : R → R → R) (data : Nat → R) (es : List (Ev R)) (p : Nat)
    (h : writesAt p es = []) : (run op data es).1 p = data p := by
  induction es generalizing data with
  | nil => simp [run]
  | cons e es ih =>
    cases e with
    | none => simp [run]
    | some e =>
      obtain ⟨q, v⟩ := e
      by_cases hq : q = p
      · subst hq; simp [writesAt] at h
      · have hq' : ¬ p = q := fun h => hq h.symm
        rw [run, ih _ (by simpa [writesAt, hq] using h)]
        simp [hq']

/-- Filtering one value out of a range loop. -/
theorem flatMap_range_if {β : Type} (n k : Nat) (f : Nat → List β) (hk : k < n)
    (h : ∀ i, i < n → i ≠ k → f i = []) : (List.range n).flatMap f = f k := by
  induction n with
  | zero => omega
  | succ n ih =>
    rw [List.range_succ, List.flatMap_append]
    simp only [List.flatMap_cons, List.flatMap_nil, List.append_nil]
    rcases Nat.lt_or_ge k n with hlt | hge
    · rw [ih hlt (fun i hi => h i (by omega)), h n (by omega) (by omega), List.append_nil]
    · have : k = n := by omega
      subst this
      have : (List.range k).flatMap f = [] := by
        rw [List.flatMap_eq_nil_iff]
        intro i hi; rw [List.mem_range] at hi
        exact h i (by omega) (by omega)
      rw [this, List.nil_append]

/-- Mixed-radix digits are unique. -/
theorem digits2 {b q q' r r' : Nat} (hr : r < b) (hr' : r' < b) (h : q * b + r = q' * b + r') : q = q' ∧ r = r' := by
  have hb : 0 < b := by omega
  have h1 : (q * b + r) / b = (q' * b + r') / b := by rw [h]
  have h2 : (q * b + r) % b = (q' * b + r') % b := by rw [h]
  rw [Nat.mul_comm q, Nat.mul_comm q', Nat.mul_add_div hb, Nat.mul_add_div hb, Nat.div_eq_of_lt hr,
    Nat.div_eq_of_lt hr'] at h1
  rw [Nat.mul_comm q, Nat.mul_comm q', Nat.mul_add_mod, Nat.mul_add_mod, Nat.mod_eq_of_lt hr,
    Nat.mod_eq_of_lt hr'] at h2
  exact ⟨by omega, h2⟩

end Verif.Csr
