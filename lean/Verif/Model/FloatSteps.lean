import Verif.Model.ModularSolver
import Mathlib.Data.Real.Sqrt
import Mathlib.Data.List.Sort
import Mathlib.Order.WithBot

/-!
# Model of the floating point part of `src/arithmetic/modular_solver.rs`

`number_of_p_adic_steps_needed` computes with `f64`. A finite `f64` is represented by its real value, and
`-∞`, which `ln` returns for `0.0`, by `⊥`. The operations of the machine are the fields of `FloatOps`; nothing
is assumed about them in this file (`Verif/Spec/FloatSteps.lean` states what IEEE 754 and `libm` guarantee).
Not modelled: `NaN`, `+∞` and subnormal numbers. They do not occur in this function: the entries are `i64`, so
sums of squares stay far below `f64::MAX`, and no negative number gets to `sqrt` or `ln`.
-/

namespace Systre.Modular

open Systre

/-- the operations on finite `f64` values that the function uses -/
structure FloatOps where
  /-- `x as f64` for an integer -/
  ofInt : Int → ℝ
  /-- `x.powf(2.0)` -/
  sq : ℝ → ℝ
  add : ℝ → ℝ → ℝ
  mul : ℝ → ℝ → ℝ
  div : ℝ → ℝ → ℝ
  sqrt : ℝ → ℝ
  /-- `x.ln()` for positive `x` -/
  ln : ℝ → ℝ

namespace FloatOps

variable (F : FloatOps)

/-- `x.ln()`: `-∞` at zero. -/
noncomputable def lnB (x : ℝ) : WithBot ℝ := if x = 0 then ⊥ else ((F.ln x : ℝ) : WithBot ℝ)

/-- `x + y`, where one of them may be `-∞` -/
def addB (x y : WithBot ℝ) : WithBot ℝ :=
  x.bind (fun a => y.bind (fun b => ((F.add a b : ℝ) : WithBot ℝ)))

/-- `iter.sum::<f64>()`: left to right, starting with zero. -/
def sum (l : List ℝ) : ℝ := l.foldl F.add 0

/-- the same where `-∞` may occur -/
noncomputable def sumB (l : List (WithBot ℝ)) : WithBot ℝ := l.foldl F.addB ((0 : ℝ) : WithBot ℝ)

/-- `iter.max_by(|a, b| a.total_cmp(b)).unwrap()` -/
noncomputable def maxUnwrap : List (WithBot ℝ) → Outcome (WithBot ℝ)
  | [] => .panic
  | x :: l => .ok (l.foldl max x)

/-- `column_norm` (modular_solver.rs:175-177) -/
def colNorm (a : IMat) (j : Nat) : Outcome ℝ := do
  let col ← omap (fun i => mget a i j) (List.range a.length)
  .ok (F.sqrt (F.sum (col.map (fun x => F.sq (F.ofInt x)))))

/-- `(0..a[0].len()).map(|j| column_norm(a, j).ln())` (modular_solver.rs:158-160, 161-162) -/
noncomputable def lnNorms (a : IMat) : Outcome (List (WithBot ℝ)) := do
  let row ← vecGet a 0
  omap (fun j => do
    let x ← F.colNorm a j
    .ok (F.lnB x)) (List.range row.length)

/-- `(1.0 + (5 as f64).sqrt()) / 2.0` (modular_solver.rs:169) -/
noncomputable def golden : ℝ := F.div (F.add 1 (F.sqrt (F.ofInt 5))) 2

open Classical in
/-- `log_delta` (modular_solver.rs:158-168) -/
noncomputable def logDelta (a b : IMat) : Outcome (WithBot ℝ) := do
  let la ← F.lnNorms a
  let lb ← F.lnNorms b
  let mx ← maxUnwrap lb
  .ok (F.sumB (((la ++ [mx]).insertionSort (· ≤ ·)).drop 1))

/-- the argument of `ceil` (modular_solver.rs:171) -/
noncomputable def quotient (a b : IMat) (prime : Int) : Outcome (WithBot ℝ) := do
  let d ← F.logDelta a b
  .ok ((F.addB d (F.lnB F.golden)).map
    (fun t => F.div (F.mul 2 t) (F.ln (F.ofInt prime))))

/-- `number_of_p_adic_steps_needed` (modular_solver.rs:156-172). The conversion `as u64` turns `-∞` and
negative numbers into zero. -/
noncomputable def numberOfSteps (a b : IMat) (prime : Int) : Outcome Nat := do
  let v ← F.quotient a b prime
  .ok (match v with
    | ⊥ => 0
    | (x : ℝ) => ⌈x⌉₊)

/-- `solve` (modular_solver.rs:199-245) with the number of steps it computes itself. -/
noncomputable def solve (ck : Int → Outcome Int) (a b : IMat) : Outcome (Option (List (List Rat))) := do
  match ← matrixInverse ck a thePrime with
  | none => .ok none
  | some _ => do
    let steps ← F.numberOfSteps a b thePrime
    solveWith ck thePrime steps a b

end FloatOps

end Systre.Modular
