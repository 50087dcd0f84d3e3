import Verif.Model.FloatSteps
import Verif.Spec.Padic
import Mathlib.Analysis.SpecialFunctions.Pow.Real

/-!
# What the floating point operations guarantee

The standard model of rounding errors: each operation returns the exact result up to a relative error of at
most `u`. For `f64` the basic operations and the square root are correctly rounded (`u = 2⁻⁵³`), and the usual
implementations of `log` and `pow` have an error below one unit in the last place (`u = 2⁻⁵²`).
-/

namespace Systre.Modular

/-- every operation has a relative error of at most `u` -/
structure FloatOps.Accurate (F : FloatOps) (u : ℝ) : Prop where
  ofInt : ∀ k : Int, |F.ofInt k - k| ≤ u * |(k : ℝ)|
  sq : ∀ x, |F.sq x - x ^ 2| ≤ u * x ^ 2
  add : ∀ x y, |F.add x y - (x + y)| ≤ u * |x + y|
  mul : ∀ x y, |F.mul x y - x * y| ≤ u * |x * y|
  div : ∀ x y, y ≠ 0 → |F.div x y - x / y| ≤ u * |x / y|
  sqrt : ∀ x, 0 ≤ x → |F.sqrt x - Real.sqrt x| ≤ u * Real.sqrt x
  ln : ∀ x, 0 < x → |F.ln x - Real.log x| ≤ u * |Real.log x|

/-- the real number whose rounded-up value is the exact number of steps, see `stepsNeeded` -/
noncomputable def exactQuotient {n m : Nat} (A : Matrix (Fin n) (Fin n) Int) (B : Matrix (Fin n) (Fin m) Int)
    (p : Nat) : ℝ :=
  2 * (Modular.logDelta A B + Real.log Real.goldenRatio) / Real.log p

/-- No integer `b` has `(φ b)²` slightly above `p^s`, where "slightly" means: at most `p^(s / (1 - η))`. -/
def NoNearMiss (p : Nat) (η : ℝ) (s : Nat) : Prop :=
  ∀ b : ℕ, (Real.goldenRatio * b) ^ 2 ≤ (p : ℝ) ^ s ∨ (p : ℝ) ^ ((s : ℝ) / (1 - η)) < (Real.goldenRatio * b) ^ 2

/-- all operations exact -/
noncomputable def exactFloat : FloatOps where
  ofInt k := k
  sq x := x ^ 2
  add := (· + ·)
  mul := (· * ·)
  div := (· / ·)
  sqrt := Real.sqrt
  ln := Real.log

/-- every operation too large by the factor `1 + u`: a machine that makes errors all the time -/
noncomputable def biasedFloat (u : ℝ) : FloatOps where
  ofInt k := (1 + u) * k
  sq x := (1 + u) * x ^ 2
  add x y := (1 + u) * (x + y)
  mul x y := (1 + u) * (x * y)
  div x y := (1 + u) * (x / y)
  sqrt x := (1 + u) * Real.sqrt x
  ln x := (1 + u) * Real.log x

theorem exactFloat_accurate : exactFloat.Accurate 0 := by
  constructor <;> intros <;> simp [exactFloat]

theorem biasedFloat_accurate {u : ℝ} (hu : 0 ≤ u) : (biasedFloat u).Accurate u := by
  constructor <;> intros <;> simp only [biasedFloat, add_mul, one_mul, add_sub_cancel_left, abs_mul,
    abs_of_nonneg hu, le_refl]
  · rw [abs_of_nonneg (sq_nonneg _)]
  · rw [abs_of_nonneg (Real.sqrt_nonneg _)]

end Systre.Modular
