import Verif.Model.Geometry
import Verif.Tests.Arithmetic

/-!
# The repository's own unit tests, run on the model: geometry

Every `#[test]` of `src/arithmetic/geometry.rs` (848-1278). The tests over `f64` are run over the rational numbers, where the
model of `ScalarProduct` and `CoordinateMap` lives; all their literals and results but `0.51` and `0.2` are dyadic numbers.
-/

namespace Systre.Tests

def vi (l : List Int) : Outcome (Vec Int) := Vec.new l
def vq (l : List Rat) : Outcome (Vec Rat) := Vec.new l
def pi (l : List Int) : Outcome (Pt Int) := Pt.new l
def pq (l : List Rat) : Outcome (Pt Rat) := Pt.new l

-- `test_vector_basics`
example : (do pure (← vi [1, 2, 3]).dim) = .ok 3 := by decide +kernel
example : (do (← vi [1, 2, 3]).get 0) = .ok 1 := by decide +kernel
example : (do (← vi [1, 2, 3]).get 2) = .ok 3 := by decide +kernel
example : (do pure (← vi [1, 2, 3]).coords.data) = .ok [1, 2, 3] := by decide +kernel
example : (do pure ((← vi [1, 2, 3]).coords.data.map (fun i => i * i))) = .ok [1, 4, 9] := by decide +kernel
example : Same (do vi (← vi [1, 2, 3]).coords.data) (vi [1, 2, 3]) := by decide +kernel
example : Same (do (← vi [1, 2, 3]).set 1 4) (vi [1, 4, 3]) := by decide +kernel
example : Same (Vec.zero 0) (vi []) := by decide +kernel
example : Same (Vec.zero 5) (vi [0, 0, 0, 0, 0]) := by decide +kernel
example : Same (Vec.unit 3 1) (vi [0, 1, 0]) := by decide +kernel

-- `test_bad_vector_unit`
example : (Vec.unit 3 5 : Outcome (Vec Int)) = .panic := by decide +kernel

-- `test_point_basics` (`Index` on points is the one on vectors)
example : (do pure (← pi [1, 2, 3]).dim) = .ok 3 := by decide +kernel
example : (do (← pi [1, 2, 3]).coords.get 0 0) = .ok 1 := by decide +kernel
example : (do (← pi [1, 2, 3]).coords.get 2 0) = .ok 3 := by decide +kernel
example : (do pure (← pi [1, 2, 3]).coords.data) = .ok [1, 2, 3] := by decide +kernel
example : Same (do pi (← pi [1, 2, 3]).coords.data) (pi [1, 2, 3]) := by decide +kernel
example : Same (do pure (Pt.mk (← (← pi [1, 2, 3]).coords.set 1 0 4))) (pi [1, 4, 3]) := by decide +kernel
example : Same (Pt.origin 0) (pi []) := by decide +kernel
example : Same (Pt.origin 4) (pi [0, 0, 0, 0]) := by decide +kernel

-- `test_vector_negation`
example : Same (do (← vi [1, 2, 3]).neg) (vi [-1, -2, -3]) := by decide +kernel

-- `test_vector_addition`, `test_bad_vector_addition`
example : Same (do (← vi [1, 2, 3]).add (← vi [-1, -1, -1])) (vi [0, 1, 2]) := by decide +kernel
example : Same (do let v ← vi [0, 1, 2]; v.add v) (vi [0, 2, 4]) := by decide +kernel
example : Same (do let v ← vi [0, 2, 4]; v.add v) (vi [0, 4, 8]) := by decide +kernel
example : (do (← vi [1, 2, 3]).add (← vi [-1, -1, -1, -1])) = .panic := by decide +kernel

-- `test_point_vector_addition`
example : Same (do (← pi [1, 2, 3]).add (← Vec.unit 3 1)) (pi [1, 3, 3]) := by decide +kernel
example : Same (do (← pi [1, 3, 3]).add (← vi [1, 0, 1])) (pi [2, 3, 4]) := by decide +kernel
example : Same (do (← pi [2, 3, 4]).add (← vi [1, 0, 1])) (pi [3, 3, 5]) := by decide +kernel

-- `test_vector_subtraction`, `test_bad_vector_subtraction`
example : Same (do (← vi [1, 2, 3]).sub (← vi [1, 1, 1])) (vi [0, 1, 2]) := by decide +kernel
example : Same (do (← vi [0, 1, 2]).sub (← vi [-1, -1, -2])) (vi [1, 2, 4]) := by decide +kernel
example : Same (do (← vi [1, 2, 4]).sub (← Vec.unit 3 1)) (vi [1, 1, 4]) := by decide +kernel
example : Same (do (← vi [1, 2, 4]).sub (← Vec.unit 3 0)) (vi [0, 2, 4]) := by decide +kernel
example : Same (do (← vi [1, 2, 4]).sub (← Vec.unit 3 2)) (vi [1, 2, 3]) := by decide +kernel
example : (do (← vi [1, 2, 3]).sub (← vi [-1, -1, -1, -1])) = .panic := by decide +kernel

-- `test_point_vector_subtraction`
example : Same (do (← pi [1, 2, 3]).subVec (← vi [1, 1, 1])) (pi [0, 1, 2]) := by decide +kernel
example : Same (do (← pi [0, 1, 2]).subVec (← vi [-1, -1, -2])) (pi [1, 2, 4]) := by decide +kernel
example : Same (do (← pi [1, 2, 4]).subVec (← Vec.unit 3 1)) (pi [1, 1, 4]) := by decide +kernel
example : Same (do (← pi [1, 2, 4]).subVec (← Vec.unit 3 0)) (pi [0, 2, 4]) := by decide +kernel
example : Same (do (← pi [1, 2, 4]).subVec (← Vec.unit 3 2)) (pi [1, 2, 3]) := by decide +kernel

-- `test_point_point_subtraction`
example : Same (do (← pi [1, 2, 3]).sub (← pi [1, 0, 1])) (vi [0, 2, 2]) := by decide +kernel

-- `test_vector_multiplication`
example : Same (do pure ((← vi [1, 2, 3]).smul 2)) (vi [2, 4, 6]) := by decide +kernel
example : Same (do pure ((← vi [2, 4, 6]).smul 3)) (vi [6, 12, 18]) := by decide +kernel
example : Same (do pure ((← vi [6, 12, 18]).smul 2)) (vi [12, 24, 36]) := by decide +kernel
example : Same (do pure ((← vi [6, 12, 18]).smul 3)) (vi [18, 36, 54]) := by decide +kernel
example : Same (do pure ((← vi [6, 12, 18]).smul 4)) (vi [24, 48, 72]) := by decide +kernel
example : Same (do pure ((← vi [6, 12, 18]).smul 5)) (vi [30, 60, 90]) := by decide +kernel

-- `test_vector_division`
example : Same (do (← vi [73, 79, 83]).divScalar quoInt 2) (vi [36, 39, 41]) := by decide +kernel
example : Same (do (← vi [36, 39, 41]).divScalar quoInt 3) (vi [12, 13, 13]) := by decide +kernel
example : Same (do (← vi [12, 13, 13]).divScalar quoInt 2) (vi [6, 6, 6]) := by decide +kernel
example : Same (do (← vi [12, 13, 13]).divScalar quoInt 3) (vi [4, 4, 4]) := by decide +kernel
example : Same (do (← vi [12, 13, 13]).divScalar quoInt 4) (vi [3, 3, 3]) := by decide +kernel
example : Same (do (← vi [12, 13, 13]).divScalar quoInt 5) (vi [2, 2, 2]) := by decide +kernel

-- `test_scalar_product`
example : (do (← ScalarProduct.default 3).apply (← vq [1, 2, 3]) (← vq [1, 2, 3])) = .ok 14 := by decide +kernel
example : (do (← ScalarProduct.default 3).apply (← vq [1, 2, 3]) (← vq [-1, 2, -1])) = .ok 0 := by decide +kernel
example : (do (← ScalarProduct.ofMat (← mq 2 [1, -0.5, -0.5, 1])).apply (← vq [1, 0]) (← vq [1, 1])) = .ok 0.5 := by
  decide +kernel

-- `test_bad_scalar_product_not_symmetric`, `test_bad_scalar_product_not_positive_definite`
example : (do ScalarProduct.ofMat (← mq 2 [1, -0.5, -0.51, 1])) = .panic := by decide +kernel
example : (do ScalarProduct.ofMat (← mq 2 [1, -0.5, -0.5, 0.2])) = .panic := by decide +kernel

-- `test_affine_map_composition`
example : Same (do
    (← AffineMap.new (← mi 2 [0, -1, 1, 0]) (← vi [1, 0])).mul (← AffineMap.new (← mi 2 [0, 1, -1, 0]) (← vi [0, 1])))
    (AffineMap.identity 2) := by decide +kernel

/-- The map `a` of the tests. -/
def aq : Outcome (AffineMap Rat) := do AffineMap.new (← mq 2 [0, -1, 1, 0]) (← vq [1, 0])
/-- The map `b` of the tests. -/
def bq : Outcome (AffineMap Rat) := do AffineMap.new (← mq 2 [0, 1, -1, 0]) (← vq [0, 1])

-- `test_affine_map_inverse`
example : Same (do (← aq).mul (← bq)) (AffineMap.identity 2) := by decide +kernel
example : Same (do unwrap (← (← aq).inverse)) bq := by decide +kernel

-- `test_affine_map_application`
example : Same (do (← aq).applyPt (← Pt.origin 2)) (pq [1, 0]) := by decide +kernel
example : Same (do (← aq).applyPt (← (← unwrap (← (← aq).inverse)).applyPt (← Pt.origin 2))) (Pt.origin 2) := by
  decide +kernel
example : Same (do (← aq).applyVec (← Vec.unit 2 0)) (Vec.unit 2 1) := by decide +kernel
example : Same (do (← aq).applyVec (← (← unwrap (← (← aq).inverse)).applyVec (← Vec.unit 2 0))) (Vec.unit 2 0) := by
  decide +kernel

-- `test_coordinate_map_from_basis`, `test_coordinate_map_to_basis`
example : Same (do CoordMap.fromBasis [← vq [1, 0], ← vq [1, 1]])
    (do CoordMap.new (← AffineMap.new (← mq 2 [1, 1, 0, 1]) (← vq [0, 0]))) := by decide +kernel
example : Same (do CoordMap.toBasis [← vq [1, 0], ← vq [1, 1]])
    (do CoordMap.new (← AffineMap.new (← mq 2 [1, -1, 0, 1]) (← vq [0, 0]))) := by decide +kernel

-- `test_coordinate_map_composition`, `test_coordinate_map_inverse`
example : Same (do (← CoordMap.new (← bq)).mul (← CoordMap.new (← aq))) (do CoordMap.new (← AffineMap.identity 2)) := by
  decide +kernel
example : Same (do (← CoordMap.new (← aq)).mul (← CoordMap.new (← bq))) (do CoordMap.new (← AffineMap.identity 2)) := by
  decide +kernel
example : Same (do pure (← CoordMap.new (← aq)).inverse) (do CoordMap.new (← bq)) := by decide +kernel

/-- The scalar product of `test_coordinate_map_application`. -/
def dq : Outcome (ScalarProduct Rat) := do ScalarProduct.ofMat (← mq 2 [1, -0.5, -0.5, 1])

-- `test_coordinate_map_application`
example : Same (do (← CoordMap.new (← aq)).applyPt (← Pt.origin 2)) (pq [1, 0]) := by decide +kernel
example : Same (do
    let c ← CoordMap.new (← aq)
    c.inverse.applyPt (← c.applyPt (← Pt.origin 2))) (Pt.origin 2) := by decide +kernel
example : Same (do (← CoordMap.new (← aq)).applyVec (← Vec.unit 2 0)) (Vec.unit 2 1) := by decide +kernel
example : Same (do
    let c ← CoordMap.new (← aq)
    c.inverse.applyVec (← c.applyVec (← Vec.unit 2 0))) (Vec.unit 2 0) := by decide +kernel
example : Same (do (← CoordMap.new (← aq)).applyDot (← dq)) (do ScalarProduct.ofMat (← mq 2 [1, 0.5, 0.5, 1])) := by
  decide +kernel
example : Same (do
    let c ← CoordMap.new (← aq)
    c.inverse.applyDot (← c.applyDot (← dq))) dq := by decide +kernel
example : Same (do (← CoordMap.new (← aq)).applyAff (← AffineMap.new (← mq 2 [1, 0, 0, 1]) (← vq [1, 0])))
    (do AffineMap.new (← mq 2 [1, 0, 0, 1]) (← vq [0, 1])) := by decide +kernel

end Systre.Tests
