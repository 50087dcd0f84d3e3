import Mathlib.Data.Rat.Defs
import Mathlib.Algebra.Order.Ring.Rat
import Mathlib.Algebra.BigOperators.Group.List.Basic

/-!
# What the text of a symmetry operator means

A grammar for texts such as `x - 1/2, 2/3*y + z` with the value of each phrase. Texts are lists of characters.
Nothing here refers to the model of the code.
-/

namespace Systre.OpText

/-- spaces and tabs only -/
def Blank (s : List Char) : Prop := ∀ c ∈ s, c = ' ' ∨ c = '\t'

/-- a decimal numeral of one to nine digits, and its value -/
def Numeral (s : List Char) (n : Nat) : Prop :=
  s ≠ [] ∧ s.length ≤ 9 ∧ (∀ c ∈ s, '0' ≤ c ∧ c ≤ '9') ∧
    n = s.foldl (fun n c => 10 * n + (c.toNat - '0'.toNat)) 0

/-- `12` or `3/4` -/
inductive Fraction : List Char → ℚ → Prop
  | int {s n} : Numeral s n → Fraction s (n : ℚ)
  | quot {s u v t n d} : Numeral s n → Blank u → Blank v → Numeral t d → d ≠ 0 →
      Fraction (s ++ u ++ '/' :: v ++ t) ((n : ℚ) / d)

/-- the letters of the axes -/
inductive Letter : Char → Fin 3 → Prop
  | x : Letter 'x' 0
  | y : Letter 'y' 1
  | z : Letter 'z' 2

/-- `2/3*x`, `2/3 x`, `2/3`, `x`: a number times an axis, or (axis `none`) just a number. -/
inductive Unsigned : List Char → ℚ → Option (Fin 3) → Prop
  | times {s q c k} : Fraction s q → Letter c k → Unsigned (s ++ '*' :: [c]) q (some k)
  | juxt {s u q c k} : Fraction s q → Blank u → Letter c k → Unsigned (s ++ u ++ [c]) q (some k)
  | const {s q} : Fraction s q → Unsigned s q none
  | axis {c k} : Letter c k → Unsigned [c] 1 (some k)

/-- with a sign -/
inductive Signed : List Char → ℚ → Option (Fin 3) → Prop
  | plus {u s q k} : Blank u → Unsigned s q k → Signed ('+' :: u ++ s) q k
  | minus {u s q k} : Blank u → Unsigned s q k → Signed ('-' :: u ++ s) (-q) k

/-- the further terms of a coordinate -/
inductive Tail : List Char → List (ℚ × Option (Fin 3)) → Prop
  | nil : Tail [] []
  | cons {u s t q k l} : Blank u → Signed s q k → Tail t l → Tail (u ++ s ++ t) ((q, k) :: l)

/-- a coordinate: a sum of terms, the first one with or without a sign -/
inductive Coord : List Char → List (ℚ × Option (Fin 3)) → Prop
  | unsigned {s t q k l} : Unsigned s q k → Tail t l → Coord (s ++ t) ((q, k) :: l)
  | signed {s t q k l} : Signed s q k → Tail t l → Coord (s ++ t) ((q, k) :: l)

/-- coordinates separated by commas -/
inductive Operator : List Char → List (List (ℚ × Option (Fin 3))) → Prop
  | single {s l} : Coord s l → Operator s [l]
  | cons {s u v t l ls} : Coord s l → Blank u → Blank v → Operator t ls →
      Operator (s ++ u ++ ',' :: v ++ t) (l :: ls)

/-- the coefficient of an axis, or (`none`) the constant, in a sum of terms -/
def coefficient (l : List (ℚ × Option (Fin 3))) (k : Option (Fin 3)) : ℚ :=
  ((l.filter (fun p => p.2 = k)).map Prod.fst).sum

/-- the row of coefficients in dimension `n` (at most 3) -/
def row (n : Nat) (l : List (ℚ × Option (Fin 3))) : List ℚ :=
  [coefficient l (some 0), coefficient l (some 1), coefficient l (some 2)].take n

/-- every axis, and a constant, occurs at most once -/
def Once (l : List (ℚ × Option (Fin 3))) : Prop := (l.map Prod.snd).Nodup

/-- the numerator and the denominator have at most nine digits -/
def Small (q : ℚ) : Prop := q.num.natAbs < 10 ^ 9 ∧ q.den < 10 ^ 9

/-- no slash is followed by blanks and then a numeral that is zero -/
def NoZeroDenominator (s : List Char) : Prop :=
  ∀ pre u t post, s = pre ++ '/' :: u ++ t ++ post → Blank u → Numeral t 0 → (∀ c r, post = c :: r → ¬ ('0' ≤ c ∧ c ≤ '9')) → False

end Systre.OpText
