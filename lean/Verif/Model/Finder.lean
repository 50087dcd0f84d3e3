import Verif.Model.SpaceGroups

/-!
# Model of `src/spacegroups/finder.rs` over `BigRational`

`normalized_basis_2d`, `apply_operator` and `identitify_spacegroup_2d` are in `Model/Normalized.lean`.
-/

namespace Systre.Finder

/-- `positive_direction` (finder.rs:67-76). -/
def positiveDirection (v : List Rat) : List Rat :=
  match v.find? (fun x => decide (x ≠ 0)) with
  | some x => if x < 0 then v.map (fun x => -x) else v
  | none => v

/-- `dot` (finder.rs:79-90). -/
def dot (v w : List Rat) : Outcome Rat := do
  rassert (decide (v.length = w.length))
  .ok ((List.range v.length).foldl (fun s i => s + rent v i * rent w i) 0)

/-- `are_orthogonal` (finder.rs:93-97). -/
def areOrthogonal (v w : List Rat) : Outcome Bool := do
  let d ← dot v w
  .ok (decide (d = 0))

/-- `are_collinear` (finder.rs:100-104). -/
def areCollinear (v w : List Rat) : Outcome Bool := do
  let a ← dot v w
  let b ← dot v w
  let c ← dot v v
  let d ← dot w w
  .ok (decide (a * b = c * d))

/-- The loop of `matrix_order` (finder.rs:116-123): `todo` steps left. -/
def orderLoop (m identity : Mat Rat) : Nat → Nat → Mat Rat → Outcome Nat
  | 0, _, _ => .ok 0
  | todo + 1, i, a => do
    let a ← a.mul m
    if a = identity then .ok i else orderLoop m identity todo (i + 1) a

/-- `matrix_order` (finder.rs:107-124). -/
def matrixOrder (m : Mat Rat) (max : Nat) : Outcome Nat := do
  rassert (decide (m.nrows = m.ncols))
  let identity ← Mat.identity m.nrows
  orderLoop m identity max 1 identity

/-- `is_left_handed` (finder.rs:127-133). -/
def isLeftHanded (m : Mat Rat) : Outcome Bool := do
  let d ← determinant m
  .ok (decide (d < 0))

/-- The matrix `r` in `operator_axis` (finder.rs:144-148): the test `dim % 2 != 0` comes first. -/
def axisMatrix (m : Mat Rat) : Outcome (Mat Rat) := do
  let flip ← if m.nrows % 2 ≠ 0 then isLeftHanded m else .ok false
  let id ← Mat.identity m.nrows
  if flip then m.add id else m.sub id

/-- `operator_axis` (finder.rs:136-157). -/
def operatorAxis (m : Mat Rat) : Outcome (Option (List Rat)) := do
  rassert (decide (m.nrows = m.ncols))
  let r ← axisMatrix m
  let z ← nullSpace r
  match z with
  | some z =>
    if z.ncols = 1 then do
      let c ← z.getCol 0
      .ok (some (positiveDirection c))
    else .ok none
  | none => .ok none

/-- `struct OperatorDetails` (finder.rs:9-16). -/
structure OperatorDetails where
  matrix : Mat Rat
  dimension : Nat
  axis : Option (List Rat)
  order : Nat
  isOrientationPreserving : Bool
  isClockwise : Bool
deriving DecidableEq, Repr

/-- The value of `is_clockwise` (finder.rs:33-53). -/
def clockwise (m : Mat Rat) (dimension order : Nat) (preserving : Bool) (axis : Option (List Rat)) : Outcome Bool :=
  if dimension = 2 then
    if preserving = false then .ok false
    else if order = 0 ∨ order > 2 then do
      let x ← m.get 0 1
      .ok (decide (¬ x < 0))
    else .ok true
  else
    match axis with
    | some axis =>
      if order = 0 ∨ order > 2 then do
        let b ← areCollinear axis [1, 0, 0]
        let v ← Mat.col (if b then [0, 1, 0] else [1, 0, 0])
        let w ← m.mul v
        let ca ← Mat.col axis
        let a ← Mat.hstack [ca, v, w]
        let l ← isLeftHanded a
        .ok (!l)
      else .ok true
    | none => .ok true

/-- `OperatorDetails::from` (finder.rs:23-63). -/
def OperatorDetails.from (m : Mat Rat) : Outcome OperatorDetails := do
  rassert (decide (m.nrows = m.ncols))
  rassert (decide (1 ≤ m.nrows ∧ m.nrows ≤ 3))
  let l ← isLeftHanded m
  let order ← matrixOrder m 6
  let axis ← operatorAxis m
  let c ← clockwise m m.nrows order (!l) axis
  .ok ⟨m, m.nrows, axis, order, !l, c⟩

/-- `enum CrystalSystem` (types.rs:55-69). -/
inductive CrystalSystem
  | oblique | rectangular | square | hexagonal | cubic | orthorhombic | tetragonal | trigonal | monoclinic | triclinic
deriving DecidableEq, Repr

/-- `Iterator::max` (used in finder.rs:197): `None` for an empty list. -/
def maxNat : List Nat → Option Nat
  | [] => none
  | a :: l => some (l.foldl max a)

/-- the choice of the crystal system (finder.rs:200-208) -/
def systemOf (n mirrors : Nat) : CrystalSystem :=
  if n = 3 ∨ n = 6 then .hexagonal
  else if n = 4 then .square
  else if mirrors > 0 then .rectangular
  else .oblique

/-- the first basis vector (finder.rs:210-214) -/
def basisX (mirrors : List OperatorDetails) : Outcome (Mat Rat) :=
  match mirrors with
  | m0 :: _ => do
    let a ← unwrap m0.axis
    Mat.col a
  | [] => Mat.col [1, 0]

/-- the second basis vector (finder.rs:216-234) -/
def basisY (ops mirrors : List OperatorDetails) (m : Nat) (x : Mat Rat) : Outcome (Mat Rat) :=
  if m ≥ 3 then do
    let s ← unwrap (ops.find? (fun s => s.isOrientationPreserving && s.isClockwise && decide (s.order = m)))
    s.matrix.mul x
  else match mirrors with
    | _ :: m1 :: _ => do
      let a ← unwrap m1.axis
      Mat.col a
    | _ => do
      let x0 ← x.get 0 0
      let t ← if x0 = 0 then Mat.col [1, 0] else Mat.col [0, 1]
      match mirrors with
      | m0 :: _ => do
        let mt ← m0.matrix.mul t
        t.sub mt
      | [] => .ok t

/-- `crystal_system_and_basis_2d` (finder.rs:185-240). -/
def crystalSystemAndBasis2d (ops : List (Mat Rat)) : Outcome (CrystalSystem × List (Mat Rat)) := do
  let ds ← omap OperatorDetails.from ops
  let mirrors := ds.filter (fun d => !d.isOrientationPreserving)
  let n ← unwrap (maxNat (ds.map (·.order)))
  let m := if n = 6 then 3 else n
  let x ← basisX mirrors
  let y ← basisY ds mirrors m x
  let b ← Mat.hstack [x, y]
  let l ← isLeftHanded b
  if l then do
    let ny ← y.neg
    .ok (systemOf n mirrors.length, [x, ny])
  else .ok (systemOf n mirrors.length, [x, y])

/-- The loop of `primitive_cell` (finder.rs:253-259). -/
def cellLoop (identity : Mat Rat) : List (AffineMap Rat) → List (List Rat) → Outcome (List (List Rat))
  | [], cell => .ok cell
  | op :: ops, cell =>
    if op.shift.coords.data.any (fun x => decide (x ≠ 0)) && decide (op.linear = identity) then do
      let cell ← extendBasis op.shift.coords.data cell
      cellLoop identity ops cell
    else cellLoop identity ops cell

/-- `primitive_cell` (finder.rs:243-262). -/
def primitiveCell (ops : List (AffineMap Rat)) : Outcome (List (Mat Rat)) := do
  let o0 ← vecGet ops 0
  let identity ← Mat.identity o0.dim
  let cell ← identity.getRows
  let cell ← cellLoop identity ops cell
  omap Mat.col cell

end Systre.Finder
