/-!
# JSON texts

The grammar of RFC 8259, for the values that are needed here: the literals `true` and `false`, natural numbers, strings
without escapes, arrays and objects.
-/
namespace Verif.Spec.Json

inductive Json where
  | bool (b : Bool)
  | num (n : Nat)
  | arr (l : List Json)
  | obj (l : List (String × Json))

/-- White space. -/
def Ws (s : List Char) : Prop := ∀ c ∈ s, c = ' ' ∨ c = '\t' ∨ c = '\n' ∨ c = '\r'

/-- Decimal digits, most significant first. -/
inductive Digits : Nat → List Char → Prop
  | one (d : Nat) : d < 10 → Digits d ["0123456789".toList.getD d ' ']
  | more (n d : Nat) (s : List Char) : Digits n s → n ≠ 0 → d < 10 → Digits (10 * n + d) (s ++ ["0123456789".toList.getD d ' '])

mutual
/-- A text is a value. -/
inductive Reads : Json → List Char → Prop
  | tt : Reads (.bool true) ['t', 'r', 'u', 'e']
  | ff : Reads (.bool false) ['f', 'a', 'l', 's', 'e']
  | num (n : Nat) (s : List Char) : Digits n s → Reads (.num n) s
  | arr0 (s : List Char) : Ws s → Reads (.arr []) ('[' :: s ++ [']'])
  | arr (l : List Json) (s : List Char) : Elems l s → Reads (.arr l) ('[' :: s ++ [']'])
  | obj0 (s : List Char) : Ws s → Reads (.obj []) ('{' :: s ++ ['}'])
  | obj (l : List (String × Json)) (s : List Char) : Members l s → Reads (.obj l) ('{' :: s ++ ['}'])
  | ws (j : Json) (a s b : List Char) : Ws a → Ws b → Reads j s → Reads j (a ++ s ++ b)
/-- Values with commas between them. -/
inductive Elems : List Json → List Char → Prop
  | one (j : Json) (s : List Char) : Reads j s → Elems [j] s
  | more (j : Json) (s : List Char) (l : List Json) (t : List Char) : Reads j s → Elems l t → Elems (j :: l) (s ++ ',' :: t)
/-- Members of an object with commas between them. -/
inductive Members : List (String × Json) → List Char → Prop
  | one (k : String) (j : Json) (a b s : List Char) : Ws a → Ws b → (∀ c ∈ k.toList, c ≠ '"' ∧ c ≠ '\\' ∧ ' ' ≤ c) → Reads j s →
      Members [(k, j)] (a ++ '"' :: k.toList ++ '"' :: b ++ ':' :: s)
  | more (k : String) (j : Json) (a b s : List Char) (l : List (String × Json)) (t : List Char) : Ws a → Ws b →
      (∀ c ∈ k.toList, c ≠ '"' ∧ c ≠ '\\' ∧ ' ' ≤ c) → Reads j s → Members l t →
      Members ((k, j) :: l) (a ++ '"' :: k.toList ++ '"' :: b ++ ':' :: s ++ ',' :: t)
end

end Verif.Spec.Json
