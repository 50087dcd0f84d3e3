import Verif.Spec.Modular
import Mathlib.NumberTheory.Real.GoldenRatio
import Mathlib.Analysis.SpecialFunctions.Log.Basic
import Mathlib.Data.List.Sort

/-!
# The number of p-adic lifting steps, in exact real arithmetic

This mirrors `number_of_p_adic_steps_needed` (modular_solver.rs:156-172), where it is computed in `f64`.
For a zero right-hand side the code gets `ln 0 = -∞`, which is sorted first and skipped; here `log 0 = 0`,
which is also the smallest element (columns of a non-singular integer matrix have norm at least one).
-/

namespace Systre.Modular

/-- `column_norm` (modular_solver.rs:175-177) -/
noncomputable def columnNorm {r c : Nat} (A : Matrix (Fin r) (Fin c) Int) (j : Fin c) : ℝ :=
  Real.sqrt (∑ i, (A i j : ℝ) ^ 2)

/-- `log_norms`: the logarithms of the column norms of `A` and the largest one of `B` -/
noncomputable def logNorms {n m : Nat} (A : Matrix (Fin n) (Fin n) Int) (B : Matrix (Fin n) (Fin m) Int) :
    List ℝ :=
  (List.ofFn (fun j => Real.log (columnNorm A j))) ++ [⨆ j, Real.log (columnNorm B j)]

/-- sorted, all but the smallest summed -/
noncomputable def logDelta {n m : Nat} (A : Matrix (Fin n) (Fin n) Int) (B : Matrix (Fin n) (Fin m) Int) : ℝ :=
  ((logNorms A B).insertionSort (· ≤ ·)).tail.sum

/-- the number of steps -/
noncomputable def stepsNeeded {n m : Nat} (A : Matrix (Fin n) (Fin n) Int) (B : Matrix (Fin n) (Fin m) Int)
    (p : Nat) : Nat :=
  ⌈2 * (logDelta A B + Real.log Real.goldenRatio) / Real.log p⌉₊

end Systre.Modular
