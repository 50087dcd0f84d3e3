import Verif.Model.Partitions
import Verif.Model.LinearAlgebra
import Verif.Model.FloatLinear

/-!
# The repository's own unit tests, run on the model: partitions, matrices, linear algebra

These are tests of the *model*, not proofs of properties: every `#[test]` of the three files is repeated with the
literals and the expected values of the repository, and evaluated by the kernel. A model that disagrees with the code on
one of them does not build. Assertions that differ only in by-value and by-reference operators are one line here.
-/

namespace Systre.Tests

/-- `assert_eq!(x, y)`: both sides are computed without a panic and the results are the same. -/
def Same {α : Type} (x y : Outcome α) : Prop := ∃ a, x = .ok a ∧ y = .ok a

instance {α : Type} [DecidableEq α] (x y : Outcome α) : Decidable (Same x y) :=
  match x, y with
  | .ok a, .ok b => if h : a = b then isTrue ⟨a, rfl, by rw [h]⟩ else isFalse (by
      rintro ⟨c, hc, hd⟩
      have h1 := Outcome.ok.inj hc
      have h2 := Outcome.ok.inj hd
      exact h (h1.trans h2.symm))
  | .panic, _ => isFalse (by rintro ⟨c, hc, _⟩; cases hc)
  | .diverge, _ => isFalse (by rintro ⟨c, hc, _⟩; cases hc)
  | .ok _, .panic => isFalse (by rintro ⟨c, _, hc⟩; cases hc)
  | .ok _, .diverge => isFalse (by rintro ⟨c, _, hc⟩; cases hc)

section Partitions

open Systre.Partitions

/-- partitions.rs:118-124. -/
def testPartition : Outcome (PState Nat) :=
  run PState.new ([(1, 2), (3, 4), (5, 6), (7, 8), (2, 3), (1, 6)].map (fun p => Op.unite p.1 p.2))

/-- The number of the class of an element (partitions.rs:126-131). -/
def testClass : Nat → Nat
  | 0 => 0
  | 7 => 2
  | 8 => 2
  | 9 => 3
  | _ => 1

/-- partitions.rs:133-141. -/
example : ∀ a ∈ List.range 10, ∀ b ∈ List.range 10, (do
    let p ← testPartition
    let (x, p) ← find p a
    let (y, _) ← find p b
    pure (decide (x = y))) = .ok (decide (testClass a = testClass b)) := by decide +kernel

/-- partitions.rs:143-145. -/
example : (do
    let p ← testPartition
    let (_, cl) ← classes p (List.range 10)
    pure cl) = .ok [[0], [1, 2, 3, 4, 5, 6], [7, 8], [9]] := by decide +kernel

end Partitions

section Matrices

/-- `Matrix::new` on integers. -/
def mi (ncols : Nat) (l : List Int) : Outcome (Mat Int) := Mat.new ncols l

/-- `_r` of the tests: a matrix of rational numbers with integer values (linear_algebra.rs:388-396). -/
def mq (ncols : Nat) (l : List Rat) : Outcome (Mat Rat) := Mat.new ncols l

/-- A matrix of double precision numbers with the given values. -/
def mf (ncols : Nat) (l : List Rat) : Outcome (Mat F64) := Mat.new ncols (l.map F64.mk)

-- `test_matrix_basics` (matrices.rs:256-322)
example : (do pure (← mi 3 [1, 2, 3, 4, 5, 6]).shape) = .ok (2, 3) := by decide +kernel
example : (do (← mi 3 [1, 2, 3, 4, 5, 6]).get 0 1) = .ok 2 := by decide +kernel
example : (do (← mi 3 [1, 2, 3, 4, 5, 6]).get 1 2) = .ok 6 := by decide +kernel
example : (do (← mi 3 [1, 2, 3, 4, 5, 6]).getRow 1) = .ok [4, 5, 6] := by decide +kernel
example : (do (← mi 3 [1, 2, 3, 4, 5, 6]).getCol 1) = .ok [2, 5] := by decide +kernel
example : Same (do (← mi 3 [1, 2, 3, 4, 5, 6]).transpose) (mi 2 [1, 4, 2, 5, 3, 6]) := by decide +kernel
example : (do pure (← mi 3 [1, 2, 3, 4, 5, 6]).data) = .ok [1, 2, 3, 4, 5, 6] := by decide +kernel
example : Same (do (← Mat.fromIter (← mi 3 [1, 2, 3, 4, 5, 6]).data).reshape 3) (mi 3 [1, 2, 3, 4, 5, 6]) := by
  decide +kernel
example : Same (do (← Mat.fromIter ((← mi 3 [1, 2, 3, 4, 5, 6]).data.map (fun i => i * i))).reshape 3)
    (mi 3 [1, 4, 9, 16, 25, 36]) := by decide +kernel
example : Same (do (← mi 3 [1, 2, 3, 4, 5, 6]).set 1 1 (-5)) (mi 3 [1, 2, 3, 4, -5, 6]) := by decide +kernel
example : Same (Mat.unitVector 5 2) (mi 5 [0, 0, 1, 0, 0]) := by decide +kernel
example : Same (Mat.identity 3) (mi 3 [1, 0, 0, 0, 1, 0, 0, 0, 1]) := by decide +kernel
example : (do (← (Mat.identity 6 : Outcome (Mat F64))).isIdentity) = .ok true := by decide +kernel
example : (do (← mi 5 [0, 0, 1, 0, 0]).isIdentity) = .ok false := by decide +kernel
example : (do (← mi 3 [1, 0, 0, 0, 2, 0, 0, 0, 1]).isIdentity) = .ok false := by decide +kernel
example : (do (← mi 3 [1, 0, 1, 0, 1, 0, 0, 0, 1]).isIdentity) = .ok false := by decide +kernel
example : (do pure (← mi 3 []).shape) = .ok (0, 3) := by decide +kernel
example : Same (do Mat.hstack [← Mat.col [1, 2], ← mi 2 [3, 4, 5, 6], ← Mat.col [7, 8]])
    (mi 4 [1, 3, 4, 7, 2, 5, 6, 8]) := by decide +kernel
example : Same (do Mat.vstack [← Mat.row [1, 2], ← mi 2 [3, 4, 5, 6], ← Mat.row [7, 8]])
    (mi 2 [1, 2, 3, 4, 5, 6, 7, 8]) := by decide +kernel
example : Same (do (← mi 3 [1, 2, 3, 4, 5, 6, 7, 8, 9]).submatrix 1 3 0 2) (mi 2 [4, 5, 7, 8]) := by decide +kernel

-- `test_matrix_neg` (matrices.rs:347-353)
example : Same (do (← mi 2 [1, 2, 3, 4]).neg) (mi 2 [-1, -2, -3, -4]) := by decide +kernel

-- `test_matrix_add` (matrices.rs:420-429)
example : Same (do pure ((← mi 2 [1, 2, 3, 4]).addScalar 2)) (mi 2 [3, 4, 5, 6]) := by decide +kernel
example : Same (do pure ((← mi 2 [1, 2, 3, 4]).addScalar 5)) (mi 2 [6, 7, 8, 9]) := by decide +kernel
example : Same (do let a ← mi 2 [1, 2, 3, 4]; a.add a) (mi 2 [2, 4, 6, 8]) := by decide +kernel
example : Same (do let a ← mi 2 [1, 2, 3, 4]; pure ((← a.add a).addScalar 1)) (mi 2 [3, 5, 7, 9]) := by decide +kernel
example : Same (do let a ← mi 2 [1, 2, 3, 4]; pure ((← a.add a).addScalar (-2))) (mi 2 [0, 2, 4, 6]) := by decide +kernel

-- `test_matrix_sub` (matrices.rs:496-505)
example : Same (do pure ((← mi 2 [1, 2, 3, 4]).subScalar 2)) (mi 2 [-1, 0, 1, 2]) := by decide +kernel
example : Same (do pure ((← mi 2 [1, 2, 3, 4]).subScalar 5)) (mi 2 [-4, -3, -2, -1]) := by decide +kernel
example : Same (do let a ← mi 2 [1, 2, 3, 4]; a.sub a) (Mat.zero 2 2) := by decide +kernel
example : Same (do let a ← mi 2 [1, 2, 3, 4]; pure ((← a.sub a).subScalar 1)) (mi 2 [-1, -1, -1, -1]) := by decide +kernel
example : Same (do let a ← mi 2 [1, 2, 3, 4]; pure ((← a.sub a).subScalar (-2))) (mi 2 [2, 2, 2, 2]) := by decide +kernel

-- `test_matrix_mul` (matrices.rs:598-612)
example : Same (do pure (((← mi 2 [1, 2, 3, 4]).smul 2).smul 3)) (mi 2 [6, 12, 18, 24]) := by decide +kernel
example : Same (do pure (((← mi 2 [1, 2, 3, 4]).smul 3).smul 5)) (mi 2 [15, 30, 45, 60]) := by decide +kernel
example : Same (do let a ← mi 2 [1, 2, 3, 4]; a.mul a) (mi 2 [7, 10, 15, 22]) := by decide +kernel
example : Same (do (← Mat.row [1, 2, 3]).mul (← mi 2 [1, 2, 3, 4, 5, 6])) (Mat.row [22, 28]) := by decide +kernel

-- `test_matrix_div` (matrices.rs:651-662)
example : Same (do ((← mi 2 [1, 2, 3, 4]).addScalar 3).divScalar quoInt 2) (mi 2 [2, 2, 3, 3]) := by decide +kernel
example : Same (do (← mi 2 [1, 2, 3, 4]).divScalar quoInt 3) (mi 2 [0, 0, 1, 1]) := by decide +kernel
example : Same (do (← mf 3 [1.75, 2.25, 0.75]).divScalar (fun x c => .ok (x / c)) ⟨0.25⟩) (mf 3 [7, 9, 3]) := by
  decide +kernel

end Matrices

section LinearAlgebra

-- `test_extend_basis_i64` (linear_algebra.rs:399)
example : extendBasis [5, 8, 13] [] = .ok [[(5 : Int), 8, 13]] := by decide +kernel
example : extendBasis [7, 12, 19] [[(5 : Int), 8, 13]] = .ok [[1, 0, 1], [0, 4, 4]] := by decide +kernel
example : extendBasis [3, 5, 9] [[(1 : Int), 0, 1], [0, 4, 4]] = .ok [[1, 0, 1], [0, -1, -2], [0, 0, -4]] := by
  decide +kernel

-- `test_reduced_basis` (linear_algebra.rs:413)
example : Same (do reducedBasis (← mq 3 [1, 2, 3, 4, 5, 6, 7, 8, 8])) (mq 3 [1, 0, 0, 0, 1, 0, 0, 0, 1]) := by
  decide +kernel
example : Same (do reducedBasis (← mq 3 [1, 2, 3, 4, 5, 6, 7, 8, 9])) (mq 3 [1, 0, -1, 0, 1, 2]) := by decide +kernel
example : Same (do reducedBasis (← mi 3 [1, 4, 7, 2, 5, 8, 3, 6, 8])) (mi 3 [1, 1, 0, 0, 3, 0, 0, 0, 1]) := by
  decide +kernel

-- `test_determinant` (linear_algebra.rs:431)
example : ∀ d ∈ List.range 5, (do determinant (← (Mat.identity d : Outcome (Mat F64)))) = .ok ⟨1⟩ := by decide +kernel
example : ∀ d ∈ List.range 5, (do
    let a ← (Mat.identity d : Outcome (Mat F64))
    determinant (← a.add a)) = .ok ⟨2 ^ d⟩ := by decide +kernel
example : ∀ d ∈ List.range 5, (do determinant (← (Mat.identity d : Outcome (Mat Rat)))) = .ok 1 := by decide +kernel
example : ∀ d ∈ List.range 5, (do
    let a ← (Mat.identity d : Outcome (Mat Rat))
    determinant (← a.add a)) = .ok (2 ^ d) := by decide +kernel
example : (do determinant (← mf 3 [1, round53 0.3, round53 0.7, 0, 2, round53 1.2, 0, 0, 0.25])) = .ok ⟨0.5⟩ := by
  decide +kernel

-- `test_determinant_i64` (linear_algebra.rs:455)
example : (do determinant (← mi 3 [5, 8, 13, 7, 12, 19, 3, 5, 9])) = .ok 4 := by decide +kernel
example : (do determinant (← mi 3 [5, 8, 13, 7, 12, 19, 3, 5, 8])) = .ok 0 := by decide +kernel

-- `test_matrix_rank` (linear_algebra.rs:472)
example : (do rank (← mf 3 [1, 0, 0, 0, 1, 0, 0, 0, 1])) = .ok 3 := by decide +kernel
example : (do rank (← mf 3 [1, round53 0.3, round53 0.7, 0, 2, round53 1.2, 0, 0, 0.25])) = .ok 3 := by decide +kernel
example : (do rank (← mq 3 [1, 0, 0, 0, 1, 0, 0, 0, 1])) = .ok 3 := by decide +kernel
example : (do rank (← mq 3 [1, 2, 3, 2, 4, 6, 3, 6, 9])) = .ok 1 := by decide +kernel
example : (do determinant (← mq 3 [1, 2, 3, 2, 4, 6, 3, 6, 9])) = .ok 0 := by decide +kernel
example : (do rank (← mq 3 [1, 2, 3, 4, 5, 6, 7, 8, 9])) = .ok 2 := by decide +kernel
example : (do determinant (← mq 3 [1, 2, 3, 4, 5, 6, 7, 8, 9])) = .ok 0 := by decide +kernel
example : (do rank (← mq 3 [7, 8, 8, 4, 5, 6, 1, 2, 3])) = .ok 3 := by decide +kernel
example : (do determinant (← mq 3 [7, 8, 8, 4, 5, 6, 1, 2, 3])) = .ok (-3) := by decide +kernel

-- `test_linalg_solve` (linear_algebra.rs:504)
example : Same (do (← mq 2 [1, 2, 3, 4]).mul (← mq 2 [1, 0, 1, -3])) (mq 2 [3, -6, 7, -12]) := by decide +kernel
example : Same (do unwrap (← solve (← mq 2 [1, 2, 3, 4]) (← mq 2 [3, -6, 7, -12]))) (mq 2 [1, 0, 1, -3]) := by
  decide +kernel
example : Same (do
    let a ← mq 2 [1, 2, 3, 4]
    a.mul (← unwrap (← solve a (← Mat.identity 2)))) (Mat.identity 2) := by decide +kernel
example : Same (do (← mq 2 [1, 2, 3, 6]).mul (← mq 1 [1, 1])) (mq 1 [3, 9]) := by decide +kernel
example : Same (do
    let a ← mq 2 [1, 2, 3, 6]
    a.mul (← unwrap (← solve a (← mq 1 [3, 9])))) (mq 1 [3, 9]) := by decide +kernel
example : Same (do (← mf 2 [1, 2, 3, 4]).mul (← mf 2 [1, 0, 1, -3])) (mf 2 [3, -6, 7, -12]) := by decide +kernel
example : Same (do unwrap (← solve (← mf 2 [1, 2, 3, 4]) (← mf 2 [3, -6, 7, -12]))) (mf 2 [1, 0, 1, -3]) := by
  decide +kernel
example : Same (do
    let a ← mf 2 [1, 2, 3, 4]
    a.mul (← unwrap (← solve a (← Mat.identity 2)))) (Mat.identity 2) := by decide +kernel

-- `test_linalg_nullspace` (linear_algebra.rs:536)
example : (do nullSpace (← mq 2 [1, 2, 3, 4])) = .ok none := by decide +kernel
example : Same (do
    let a ← mq 2 [1, 2, 3, 6]
    a.mul (← unwrap (← nullSpace a))) (Mat.zero 2 1) := by decide +kernel
example : (do nullSpace (← mf 2 [1, 2, 3, 4])) = .ok none := by decide +kernel
example : Same (do unwrap (← nullSpace (← mf 3 [0, 1, 0]))) (mf 2 [1, 0, 0, 0, 0, 1]) := by decide +kernel

-- `test_inverse` (linear_algebra.rs:555)
example : Same (do
    let a ← mq 2 [1, 2, 3, 4]
    a.mul (← unwrap (← inverse a))) (Mat.identity 2) := by decide +kernel
example : (do inverse (← mq 2 [1, 2, 3, 6])) = .ok none := by decide +kernel

-- `test_inverse_i64` (linear_algebra.rs:565)
example : Same (do
    let a ← mi 2 [1, 2, 3, 5]
    a.mul (← unwrap (← inverse a))) (Mat.identity 2) := by decide +kernel
example : (do inverse (← mi 2 [1, 2, 3, 4])) = .ok none := by decide +kernel

end LinearAlgebra

end Systre.Tests
