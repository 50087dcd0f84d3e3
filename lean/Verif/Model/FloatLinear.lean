import Verif.Model.LinearAlgebra
import Mathlib.Algebra.Order.Ring.Rat

/-!
# Model of `impl Scalar for f64` (`src/arithmetic/linear_algebra.rs`)

Floating point numbers are any type with operations that satisfy no law of arithmetic at all: rounding, overflow to
infinity and NaN are covered, whatever they do. What is assumed is that `1.0` is not zero and that a number and its
negative are zero together. `0.0` and `-0.0` are one value; IEEE operations do not tell them apart except for division by
zero, and the model reports any division by zero as a panic (the theorems show that there is none).
-/

namespace Systre

/-- The arithmetic of `f64`, without laws. -/
class FloatArith (F : Type) extends Zero F, One F, Add F, Neg F, Sub F, Mul F, Div F where
  one_ne_zero : (1 : F) ≠ 0
  neg_eq_zero : ∀ x : F, -x = 0 ↔ x = 0

section
variable {F : Type} [FloatArith F] [DecidableEq F]

/-- `clear_column` for `f64` (linear_algebra.rs:69-76). -/
def floatClearColumn (col : Nat) (v b : List F) : Outcome (List F × List F) :=
  if rent b col = 0 then .panic
  else
    let f := rent v col / rent b col
    .ok (rowFn v.length (fun k =>
      if k < col then rent v k else if k = col then 0 else rent v k - rent b k * f), b)

/-- `normalize_column` for `f64` (linear_algebra.rs:78-85). -/
def floatNormalizeColumn (col : Nat) (v : List F) : Outcome (List F) :=
  if rent v col = 0 then .panic
  else
    let f := rent v col
    .ok (rowFn v.length (fun k => if k < col then rent v k else if k = col then 1 else rent v k / f))

/-- `reduce_column` for `f64` (linear_algebra.rs:87-94). -/
def floatReduceColumn (col : Nat) (v b : List F) : Outcome (List F) :=
  let f := rent v col
  .ok (rowFn v.length (fun k =>
    if k < col then rent v k else if k = col then 0 else rent v k - rent b k * f))

/-- `solve_row` for `f64` (linear_algebra.rs:96-100). -/
def floatSolveRow (_a : List F) (_x : List (List F)) (b : List F) : Outcome (Option (List F)) :=
  .ok (some b)

/-- `impl Scalar for f64` (linear_algebra.rs:68-101). -/
instance floatScalar : Scalar F where
  clearColumn := floatClearColumn
  normalizeColumn := floatNormalizeColumn
  reduceColumn := floatReduceColumn
  solveRow := floatSolveRow

end

/-- A number rounded to 53 significant bits, ties to even. -/
def round53 (q : Rat) : Rat :=
  if q = 0 then 0
  else
    let n := q.num.natAbs
    let d := q.den
    -- `2 ^ e ≤ |q| < 2 ^ (e + 1)`
    let e0 : Int := (n.log2 : Int) - (d.log2 : Int)
    let e : Int := if (if e0 ≤ 0 then n * 2 ^ (-e0).toNat < d else n < d * 2 ^ e0.toNat) then e0 - 1 else e0
    -- `|q| = (a / b) * 2 ^ (e - 52)`
    let a := if e ≤ 52 then n * 2 ^ (52 - e).toNat else n
    let b := if e ≤ 52 then d else d * 2 ^ (e - 52).toNat
    let m := a / b
    let r := a % b
    let m := if 2 * r < b ∨ (2 * r = b ∧ m % 2 = 0) then m else m + 1
    let x : Rat := if e ≤ 52 then mkRat m (2 ^ (52 - e).toNat) else ((m * 2 ^ (e - 52).toNat : Nat) : Rat)
    if q < 0 then -x else x

/-- IEEE double precision numbers, as the rational numbers they stand for. Not modelled: infinities, NaN, the bounds of the
exponent (so nothing overflows or underflows), and the sign of zero. -/
structure F64 where
  val : Rat
deriving DecidableEq, Repr

instance : FloatArith F64 where
  zero := ⟨0⟩
  one := ⟨1⟩
  add a b := ⟨round53 (a.val + b.val)⟩
  sub a b := ⟨round53 (a.val - b.val)⟩
  mul a b := ⟨round53 (a.val * b.val)⟩
  div a b := ⟨round53 (a.val / b.val)⟩
  neg a := ⟨-a.val⟩
  one_ne_zero := by
    intro h
    have := congrArg F64.val h
    exact absurd this (by decide)
  neg_eq_zero := by
    intro x
    constructor
    · intro h
      have h1 : -x.val = 0 := congrArg F64.val h
      cases x with
      | mk v =>
        have h2 : v = 0 := by simpa using h1
        rw [h2]; rfl
    · intro h; rw [h]; rfl

end Systre
