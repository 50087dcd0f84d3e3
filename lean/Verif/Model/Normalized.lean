import Verif.Model.Finder
import Verif.Model.Lattices
import Verif.Model.ParseTable

/-!
# Model of `normalized_basis_2d` and of `identitify_spacegroup_2d` (`src/spacegroups/finder.rs`)

Coordinates are `BigRational`, so `epsilon` is zero (types.rs:41-43) and `promote` is exact.
-/

namespace Systre.Finder
open ParseOperator Lattices
open Table (Centering)

/-- `dot` (finder.rs:79-90) as a total function, for the calls inside `reduced_lattice_basis`: there all
vectors have the same length (it is asserted in `dirichlet_vectors`), so the assertion in `dot` never fails. -/
def dotFn (v w : List Rat) : Rat := (List.range v.length).foldl (fun s i => s + rent v i * rent w i) 0

/-- the sum over a row of the operator (finder.rs:340-344): reads `b[i]` for every entry of the row -/
def rowSum : List Rat → List Rat → Outcome Rat
  | [], _ => .ok 0
  | _ :: _, [] => .panic
  | r :: rs, x :: xs => do
    let t ← rowSum rs xs
    .ok (r * x + t)

/-- the loop over the rows (finder.rs:336-345); addition of rationals is exact, so the order does not matter -/
def applyRows (n : Nat) (b : List Rat) : List (List Rat) → List Rat → Outcome (List Rat)
  | [], _ => .ok []
  | _ :: _, [] => .panic
  | r :: m, s :: ss => do
    rassert (decide (r.length = n))
    let x ← rowSum r b
    let rest ← applyRows n b m ss
    .ok ((x + s) :: rest)

/-- `apply_operator` (finder.rs:327-348). -/
def applyOperator (op : List Char) (b : List Rat) : Outcome (List Rat) := do
  let r ← parseOperator op
  match r with
  | .error _ _ => .panic
  | .parsed _ m s => do
    rassert (decide (s.length = m.length))
    applyRows m.length b m s

/-- two operators applied to one or two vectors, as columns: `as_columns(vec![..])` (finder.rs:281-287 and so on) -/
def twoColumns (op1 : List Char) (b1 : List Rat) (op2 : List Char) (b2 : List Rat) : Outcome (List (Mat Rat)) := do
  let u ← applyOperator op1 b1
  let v ← applyOperator op2 b2
  omap Mat.col [u, v]

/-- The `match` on the crystal system in `normalized_basis_2d` (finder.rs:274-323), for the reduced basis `b`. -/
def normalizedCases (crys : CrystalSystem) (b : List (List Rat)) : Outcome (List (Mat Rat) × Centering) :=
  match crys with
  | .oblique => do
    let c ← omap Mat.col b
    .ok (c, .primitive2d)
  | .rectangular => do
    let b0 ← vecGet b 0
    let b00 ← vecGet b0 0
    let b01 ← vecGet b0 1
    if b00 ≠ 0 ∧ b01 ≠ 0 then do
      let c ← twoColumns "0, 2y".toList b0 "2x, 0".toList b0
      .ok (c, .centered2d)
    else do
      let b1 ← vecGet b 1
      let b10 ← vecGet b1 0
      let b11 ← vecGet b1 1
      if b10 ≠ 0 ∧ b11 ≠ 0 then do
        let c ← twoColumns "0, 2y".toList b1 "2x, 0".toList b1
        .ok (c, .centered2d)
      else if b01 = 0 then do
        let c ← twoColumns "x, y".toList b1 "-x, -y".toList b0
        .ok (c, .primitive2d)
      else do
        let c ← omap Mat.col b
        .ok (c, .primitive2d)
  | .square => do
    let b0 ← vecGet b 0
    let c ← twoColumns "x, y".toList b0 "-y, x".toList b0
    .ok (c, .primitive2d)
  | .hexagonal => do
    let b0 ← vecGet b 0
    let c ← twoColumns "x, y".toList b0 "-y, x-y".toList b0
    .ok (c, .primitive2d)
  | _ => .panic

/-- `normalized_basis_2d` (finder.rs:265-324). `from_columns` (finder.rs:351-355) takes the entries of each
column. Evaluating `b[1][0]` only after the first test is kept. -/
def normalizedBasis2d (fuel : Nat) (crys : CrystalSystem) (basisIn : List (Mat Rat)) :
    Outcome (List (Mat Rat) × Centering) := do
  let r ← reducedLatticeBasis fuel (basisIn.map (·.data)) dotFn 0
  let b ← unwrap r
  normalizedCases crys b

/-- `identitify_spacegroup_2d` up to the tuple it returns (finder.rs:168-180): the crystal system, the
centring and `to_normalized`. -/
def identifyPrep (fuel : Nat) (ops : List (AffineMap Rat)) : Outcome (CrystalSystem × Centering × CoordMap Rat) := do
  let (sys, basis) ← crystalSystemAndBasis2d (ops.map (·.linear))
  let basis ← Mat.hstack basis
  let bt ← basis.transpose
  let m ← inverse bt
  let m ← unwrap m
  let cell ← primitiveCell ops
  let pcell ← omap (fun b => m.mul b) cell
  let (normalized, centering) ← normalizedBasis2d fuel sys pcell
  let normalized ← Mat.hstack normalized
  let nb ← normalized.mul basis
  let nbt ← nb.transpose
  let t ← inverse nbt
  let t ← unwrap t
  let t ← AffineMap.ofMat t
  let t ← CoordMap.new t
  .ok (sys, centering, t)

/-- `identitify_spacegroup_2d` (finder.rs:160-182): the first component of the tuple is `todo!()`. -/
def identifySpacegroup2d (fuel : Nat) (ops : List (AffineMap Rat)) : Outcome (List Char × CoordMap Rat) := do
  let _ ← identifyPrep fuel ops
  .panic

end Systre.Finder
