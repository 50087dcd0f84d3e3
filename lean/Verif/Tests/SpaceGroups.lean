import Verif.Model.SpaceGroups
import Verif.Model.Finder
import Verif.Model.ParseOperator
import Verif.Model.Normalized
import Verif.Tests.Geometry

/-!
# The repository's own unit tests, run on the model: space groups, lattices, operators

Every `#[test]` of `finder.rs`, `basics.rs`, `lattices.rs` and `parse_operator.rs` in `src/spacegroups`. Loops that the model runs
with fuel get `50` rounds; a run that needs more would be the outcome `diverge` and fail the test.
-/

namespace Systre.Tests

section Finder

open Systre.Finder

/-- `OperatorDetails::from(Matrix::new(n, l))` has the matrix, dimension, axis, order and flags given. -/
def Details (n : Nat) (l : List Rat) (axis : Option (List Rat)) (order : Nat) (preserving clockwise : Bool) : Prop :=
  Same (do OperatorDetails.from (← mq n l)) (do pure ⟨← mq n l, n, axis, order, preserving, clockwise⟩)

instance (n : Nat) (l : List Rat) (axis : Option (List Rat)) (order : Nat) (p c : Bool) :
    Decidable (Details n l axis order p c) := inferInstanceAs (Decidable (Same _ _))

-- `test_spacegroups_operator_details_1d`
example : Details 1 [1] (some [1]) 1 true true := by decide +kernel
example : Details 1 [-1] (some [1]) 2 false true := by decide +kernel

-- `test_spacegroups_operator_details_2d`
example : Details 2 [1, 0, 0, 1] none 1 true true := by decide +kernel
example : Details 2 [1, 0, 0, -1] (some [1, 0]) 2 false false := by decide +kernel
example : Details 2 [0, 1, -1, 0] none 4 true true := by decide +kernel
example : Details 2 [0, -1, 1, 1] none 6 true false := by decide +kernel
example : Details 2 [-1, 0, 1, 1] (some [0, 1]) 2 false false := by decide +kernel

-- `test_spacegroups_operator_details_3d`
example : Details 3 [1, 0, 0, 0, 1, 0, 0, 0, 1] none 1 true true := by decide +kernel
example : Details 3 [-1, 0, 0, 0, -1, 0, 0, 0, -1] none 2 false true := by decide +kernel
example : Details 3 [0, 0, 1, 1, 0, 0, 0, 1, 0] (some [1, 1, 1]) 3 true true := by decide +kernel
example : Details 3 [0, 0, -1, -1, 0, 0, 0, -1, 0] (some [1, 1, 1]) 6 false false := by decide +kernel

-- `test_spacegroups_crystal_system_2d`
example : Same (do crystalSystemAndBasis2d [← mq 2 [1, 0, 0, 1], ← mq 2 [-1, 0, 0, -1]])
    (do pure (.oblique, [← Mat.col [1, 0], ← Mat.col [0, 1]])) := by decide +kernel
example : (do pure (← crystalSystemAndBasis2d [← mq 2 [1, 0, 0, 1], ← mq 2 [1, 0, 0, -1]]).1) = .ok .rectangular := by
  decide +kernel
example : (do pure (← crystalSystemAndBasis2d [← mq 2 [1, 0, 0, 1], ← (← mq 2 [0, 1, -1, -1]).transpose,
    ← (← mq 2 [-1, -1, 1, 0]).transpose]).1) = .ok .hexagonal := by decide +kernel
example : (do pure (← crystalSystemAndBasis2d [← mq 2 [1, 0, 0, 1], ← (← mq 2 [0, 1, -1, 0]).transpose,
    ← (← mq 2 [-1, 0, 0, -1]).transpose, ← (← mq 2 [0, -1, 1, 0]).transpose]).1) = .ok .square := by decide +kernel

end Finder

section Basics

open Systre.SpaceGroups

/-- The generators of the centred group of the three tests. -/
def centredGens : Outcome (List (AffineMap Rat)) := do
  let a ← AffineMap.ofMat (← mq 2 [-1, 0, 0, 1])
  let b ← AffineMap.new (← mq 2 [1, 0, 0, 1]) (← (← vq [1, 1]).divScalar quoRat 2)
  pure [a, b]

/-- A group generated by one linear map. -/
def linearGens (l : List Rat) : Outcome (List (AffineMap Rat)) := do
  pure [← AffineMap.ofMat (← mq 2 l)]

-- `test_spacegroup_basics_primitive_settings` (six operators and not four: `mod_z` keeps negative remainders, see C53)
example : (do
    let ops ← generate 50 (← centredGens)
    let prim ← PrimitiveSetting.new ops
    let idm ← Mat.identity 2
    let idop ← AffineMap.identity 2
    omap (fun op => do
      let x ← prim.toPrimitive.applyAff op
      let y ← x.modZ
      pure (!decide (op.linear = idm) || decide (y = idop))) ops) = .ok [true, true, true, true, true, true] := by decide +kernel
example : (do
    let prim ← PrimitiveSetting.new (← generate 50 (← centredGens))
    prim.toPrimitive.determinant) = .ok 2 := by decide +kernel

-- `test_spacegroup_basics_gram_matrix_configuration_space`
example : Same (do unwrap (← gramSpace (← centredGens))) (mq 2 [1, 0, 0, 0, 0, 1]) := by decide +kernel
example : Same (do unwrap (← gramSpace (← linearGens [0, 1, -1, 0]))) (mq 1 [1, 0, 1]) := by decide +kernel
example : Same (do unwrap (← gramSpace (← linearGens [0, 1, 1, 0])))
    (do (← mq 3 [1, 0, 1, 0, 1, 0]).transpose) := by decide +kernel
example : Same (do unwrap (← gramSpace (← linearGens [-1, 0, 0, -1]))) (mq 3 [1, 0, 0, 0, 1, 0, 0, 0, 1]) := by
  decide +kernel

-- `test_spacegroup_basics_shift_space`
example : Same (do unwrap (← shiftSpace (← centredGens))) (mq 1 [0, 1]) := by decide +kernel
example : (do shiftSpace (← linearGens [0, 1, -1, 0])) = .ok none := by decide +kernel
example : Same (do unwrap (← shiftSpace (← linearGens [0, 1, 1, 0]))) (mq 1 [1, 1]) := by decide +kernel
example : (do shiftSpace (← linearGens [-1, 0, 0, -1])) = .ok none := by decide +kernel

end Basics

section Lattices

open Systre.Lattices
open Systre.Finder (dotFn)

-- `test_lattice_reduced2d`
example : (do
    let (u, v) ← lagrangeReduced 50 [3, 2] [4, 3] dotFn 0
    let w := vNeg (vAdd u v)
    pure [decide (0 < dotFn u v), decide (0 < dotFn u w), decide (0 < dotFn v w)]) = .ok [false, false, false] := by
  decide +kernel
example : (do
    let ws ← unwrap (← reducedLatticeBasis 50 [[3, 2], [4, 3]] dotFn 0)
    let u ← vecGet ws 0
    let v ← vecGet ws 1
    pure (← rankOf [u, v], decide (dotFn u u ≤ dotFn v v), decide (0 < dotFn u v))) = .ok (2, true, false) := by
  decide +kernel

-- `test_lattice_shift2d`
example : (do
    let p : List Rat := [32 / 10, -(14 / 10)]
    let s ← shiftForDirichletDomain 50 p [[1, 0], [0, 1], [1, 1]] dotFn 0
    pure (vAdd p s)) = .ok [2 / 10, -(4 / 10)] := by decide +kernel

-- `test_lattice_reduced3d`
example : (do
    let (u, v, w) ← sellingReduced 50 [3, 2, 5] [4, 3, 2] [7, 5, 8] dotFn 0
    let t := vNeg (vAdd (vAdd u v) w)
    pure [decide (0 < dotFn u v), decide (0 < dotFn u w), decide (0 < dotFn u t),
      decide (0 < dotFn v w), decide (0 < dotFn v t), decide (0 < dotFn w t)]) =
    .ok [false, false, false, false, false, false] := by decide +kernel
example : (do
    let ws ← unwrap (← reducedLatticeBasis 50 [[3, 2, 5], [4, 3, 2], [7, 5, 8]] dotFn 0)
    let u ← vecGet ws 0
    let v ← vecGet ws 1
    let w ← vecGet ws 2
    pure (← rankOf [u, v, w], decide (dotFn u u ≤ dotFn v v), decide (dotFn v v ≤ dotFn w w),
      decide (0 < dotFn u v), decide (0 < dotFn u w))) = .ok (3, true, true, false, false) := by decide +kernel

-- `test_lattice_shift3d`
example : (do
    let p : List Rat := [36 / 10, -(16 / 10), 24 / 10]
    let s ← shiftForDirichletDomain 50 p
      [[1, 0, 0], [0, 1, 0], [0, 0, 1], [1, 1, 0], [1, 0, 1], [0, 1, 1], [1, 1, 1]] dotFn 0
    pure (vAdd p s)) = .ok [-4 / 10, 4 / 10, 4 / 10] := by decide +kernel

end Lattices

section Operators

open Systre.Nom Systre.ParseOperator

/-- The parser succeeds with this rest and this value. -/
def Parses {α : Type} (p : Parser α) (s rest : String) (a : α) : Prop := p s.toList = .ok (.done rest.toList a)

instance {α : Type} [DecidableEq α] (p : Parser α) (s rest : String) (a : α) : Decidable (Parses p s rest a) :=
  inferInstanceAs (Decidable (_ = _))

/-- The parser returns an error. -/
def Fails {α : Type} (p : Parser α) (s : String) : Bool :=
  match p s.toList with
  | .ok (.err _ _) => true
  | .ok (.fail _ _) => true
  | _ => false

-- `test_parse_sign`, `test_parse_axis`, `test_parse_integer`
example : Parses sign "-3x, " "3x, " (-1) := by decide +kernel
example : Parses sign "+zx, " "zx, " 1 := by decide +kernel
example : Fails sign "*, " := by decide +kernel
example : Parses axis "x, " ", " .x := by decide +kernel
example : Parses axis "zx, " "x, " .z := by decide +kernel
example : Fails axis "a, " := by decide +kernel
example : Parses integer "123  " "  " 123 := by decide +kernel
example : Parses integer "123456789  " "  " 123456789 := by decide +kernel
example : Fails integer "x123  " := by decide +kernel
example : Fails integer "1234567890  " := by decide +kernel

-- `test_parse_fraction`
example : Parses unsignedFraction "12/3  " "  " (12 / 3) := by decide +kernel
example : Parses unsignedFraction "23  " "  " 23 := by decide +kernel
example : Fails unsignedFraction "/3  " := by decide +kernel

-- `test_parse_unsigned_term`
example : Parses unsignedTerm "12/3x  " "  " (12 / 3, .x) := by decide +kernel
example : Parses unsignedTerm "12/3  " "  " (12 / 3, .none) := by decide +kernel
example : Parses unsignedTerm "y/  " "/  " (1, .y) := by decide +kernel
example : Fails unsignedTerm "/x  " := by decide +kernel

-- `test_parse_signed_term`
example : Parses signedTerm "+12/3x  " "  " (12 / 3, .x) := by decide +kernel
example : Parses signedTerm "-12/3  " "  " (-12 / 3, .none) := by decide +kernel
example : Parses signedTerm "+y/  " "/  " (1, .y) := by decide +kernel
example : Fails signedTerm "4/5x  " := by decide +kernel
example : Fails signedTerm "/x  " := by decide +kernel

-- `test_parse_term`
example : Parses term "12/3x  " "  " (12 / 3, .x) := by decide +kernel
example : Parses term "12/3  " "  " (12 / 3, .none) := by decide +kernel
example : Parses term "y/  " "/  " (1, .y) := by decide +kernel
example : Parses term "+12/3 x  " "  " (12 / 3, .x) := by decide +kernel
example : Parses term "- 12 / 3  " "  " (-12 / 3, .none) := by decide +kernel
example : Parses term "+y/  " "/  " (1, .y) := by decide +kernel
example : Fails term "/x  " := by decide +kernel

-- `test_parse_coordinate`
example : Parses coordinate "x-z" "" ([1, 0, -1], 0) := by decide +kernel
example : Parses coordinate "-1/3 - 2 x + 1 / 2 y - 1/3y + 1/4" "" ([-2, 1 / 6, 0], -1 / 12) := by decide +kernel

-- `test_parse_operator_3d`, `test_parse_operator_2d`
example : parseOperator "  -x, y - x, -z  ".toList =
    .ok (.parsed [] [[-1, 0, 0], [-1, 1, 0], [0, 0, -1]] [0, 0, 0]) := by decide +kernel
example : parseOperator "  1 - x, 2y - x  ".toList = .ok (.parsed [] [[-1, 0], [-1, 2]] [1, 0]) := by decide +kernel

end Operators

end Systre.Tests
