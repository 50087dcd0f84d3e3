import Mathlib.Algebra.Order.Ring.Rat
import Mathlib.Algebra.Order.Field.Basic
import Mathlib.Tactic.Linarith
import Mathlib.Tactic.NormNum

/-! # Specification of rounding to double precision (IEEE 754, round to nearest, ties to even) -/

namespace Systre

/-- a number with at most 53 significant bits -/
def Fits (x : ℚ) : Prop := ∃ m e : ℤ, |m| < 2 ^ 53 ∧ x = m * 2 ^ e

/-- a number with exactly 53 significant bits, trailing zeros counted, of which the last one is zero -/
def EvenFits (x : ℚ) : Prop := ∃ m e : ℤ, 2 ^ 52 ≤ |m| ∧ |m| < 2 ^ 53 ∧ Even m ∧ x = m * 2 ^ e

/-- `x` is the number with 53 bits nearest to `q`, and if there are two of them, the one whose last bit is zero -/
def IsRounded (q x : ℚ) : Prop :=
  Fits x ∧ ∀ y, Fits y → |q - x| ≤ |q - y| ∧ (|q - y| = |q - x| → y ≠ x → EvenFits x)

end Systre
