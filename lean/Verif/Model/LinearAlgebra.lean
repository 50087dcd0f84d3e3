import Verif.Model.Matrices
import Mathlib.Data.Rat.Defs

/-!
# Model of `src/arithmetic/linear_algebra.rs`

`i32`/`i64` are `Int` (overflow is not modelled here), `BigRational` is `Rat`; the `f64` instance is
in `Model/FloatLinear.lean`. Row vectors are lists; `ent l k` reads position `k` (every read in the Rust loops is below
the common length of the rows involved, which `extend_basis` asserts).
-/

namespace Systre

/-- `l[k]` for an index known to be in range. -/
def rent {T : Type} [Zero T] (l : List T) (k : Nat) : T := l.getD k 0

/-- The list `f 0, ..., f (n-1)`: what a loop `for k in 0..n { v[k] = f(k) }` leaves in `v`. -/
def rowFn {T : Type} (n : Nat) (f : Nat → T) : List T := (List.range n).map f

/-- Loop of `gcdx` (linear_algebra.rs:19-24), with fuel. `/` is truncating. -/
def gcdxLoop : Nat → Int → Int → Int → Int → Int → Int → Outcome (Int × Int × Int × Int × Int)
  | 0, _, _, _, _, _, _ => .diverge
  | fuel + 1, a, a', r, r', s, s' =>
    if a' ≠ 0 then
      let q := a.tdiv a'
      gcdxLoop fuel a' (a - q * a') r' (r - q * r') s' (s - q * s')
    else .ok (a, r, s, r', s')

/-- `gcdx` (linear_algebra.rs:10-27) for integers. Fuel `|b| + 1`; theorem C06 shows it suffices. -/
def gcdx (a b : Int) : Outcome (Int × Int × Int × Int × Int) :=
  gcdxLoop (b.natAbs + 1) a b 1 0 0 1

/-- `trait Scalar` (linear_algebra.rs:30-36). `clearColumn col v b` returns the new `(v, b)`. -/
class Scalar (T : Type) where
  clearColumn : Nat → List T → List T → Outcome (List T × List T)
  normalizeColumn : Nat → List T → Outcome (List T)
  reduceColumn : Nat → List T → List T → Outcome (List T)
  solveRow : List T → List (List T) → List T → Outcome (Option (List T))

/-- `clear_column` for `BigRational` (linear_algebra.rs:39-44); division by zero panics. -/
def ratClearColumn (col : Nat) (v b : List Rat) : Outcome (List Rat × List Rat) :=
  if rent b col = 0 then .panic
  else
    let f := rent v col / rent b col
    .ok (rowFn v.length (fun k =>
      if k < col then rent v k else if k = col then 0 else rent v k - rent b k * f), b)

/-- `normalize_column` for `BigRational` (linear_algebra.rs:46-51); for simplicity the model panics for
a zero pivot even if no entry follows. -/
def ratNormalizeColumn (col : Nat) (v : List Rat) : Outcome (List Rat) :=
  if rent v col = 0 then .panic
  else
    let f := rent v col
    .ok (rowFn v.length (fun k => if k < col then rent v k else if k = col then 1 else rent v k / f))

/-- `reduce_column` for `BigRational` (linear_algebra.rs:53-59). -/
def ratReduceColumn (col : Nat) (v b : List Rat) : Outcome (List Rat) :=
  let f := rent v col
  .ok (rowFn v.length (fun k =>
    if k < col then rent v k else if k = col then 0 else rent v k - rent b k * f))

/-- `solve_row` for `BigRational` (linear_algebra.rs:61-65). -/
def ratSolveRow (_a : List Rat) (_x : List (List Rat)) (b : List Rat) : Outcome (Option (List Rat)) :=
  .ok (some b)

/-- `clear_column_primitive_int` (linear_algebra.rs:144-155). -/
def intClearColumn (col : Nat) (v b : List Int) : Outcome (List Int × List Int) := do
  let (_, r, s, t, u) ← gcdx (rent b col) (rent v col)
  let det := r * u - s * t
  .ok (rowFn v.length (fun k => if k < col then rent v k else rent b k * t + rent v k * u),
       rowFn v.length (fun k => if k < col then rent b k else det * (rent b k * r + rent v k * s)))

/-- `normalize_column_primitive_int` (linear_algebra.rs:157-164). -/
def intNormalizeColumn (col : Nat) (v : List Int) : Outcome (List Int) :=
  if rent v col < 0 then .ok (rowFn v.length (fun k => if k < col then rent v k else - rent v k))
  else .ok v

/-- `reduce_column_primitive_int` (linear_algebra.rs:166-178). -/
def intReduceColumn (col : Nat) (v b : List Int) : Outcome (List Int) :=
  if rent b col = 0 then .panic
  else
    let f := (rent v col).tdiv (rent b col) - (if rent v col < 0 then 1 else 0)
    if f ≠ 0 then
      .ok (rowFn v.length (fun k => if k < col then rent v k else rent v k - rent b k * f))
    else .ok v

/-- One entry of `solve_row_primitive_int` (linear_algebra.rs:188-197): `t % a[k]` panics for a zero
divisor. -/
def intSolveEntry (a : List Int) (x : List (List Int)) (b : List Int) (col : Nat) :
    Outcome (Option Int) :=
  let k := x.length
  let t := (List.range k).foldl (fun t i => t - rent a i * rent (x.getD i []) col) (rent b col)
  if rent a k = 0 then .panic
  else if t.tmod (rent a k) = 0 then .ok (some (t.tdiv (rent a k)))
  else .ok none

/-- the column loop of `solve_row_primitive_int` -/
def intSolveCols (a : List Int) (x : List (List Int)) (b : List Int) :
    List Nat → Outcome (Option (List Int))
  | [] => .ok (some [])
  | col :: cols => do
    match ← intSolveEntry a x b col with
    | none => .ok none
    | some y => do
      match ← intSolveCols a x b cols with
      | none => .ok none
      | some ys => .ok (some (y :: ys))

/-- `solve_row_primitive_int` (linear_algebra.rs:180-199). -/
def intSolveRow (a : List Int) (x : List (List Int)) (b : List Int) : Outcome (Option (List Int)) :=
  intSolveCols a x b (List.range b.length)

/-- `impl Scalar for BigRational` (linear_algebra.rs:38-66). -/
instance ratScalar : Scalar Rat where
  clearColumn := ratClearColumn
  normalizeColumn := ratNormalizeColumn
  reduceColumn := ratReduceColumn
  solveRow := ratSolveRow

/-- `impl Scalar for i32`, `for i64` (linear_algebra.rs:103-141). -/
instance intScalar : Scalar Int where
  clearColumn := intClearColumn
  normalizeColumn := intNormalizeColumn
  reduceColumn := intReduceColumn
  solveRow := intSolveRow

section
variable {T : Type} [Zero T] [One T] [Add T] [Neg T] [Sub T] [Mul T] [Scalar T] [DecidableEq T]

/-- `pivot_column` (linear_algebra.rs:206): position of the first non-zero entry. -/
def pivotColumn (v : List T) : Option Nat := v.findIdx? (fun x => decide (x ≠ 0))

/-- `extend_basis` (linear_algebra.rs:202-233). The loop over `bs` is a recursion; the sign test
`(bs.len() - i) % 2 > 0` looks at the number of remaining rows. -/
def extendBasis (v : List T) : List (List T) → Outcome (List (List T))
  | [] => if (pivotColumn v).isSome then .ok [v] else .ok []
  | b :: bs =>
    if b.length ≠ v.length then .panic
    else match pivotColumn v with
      | none => .ok (b :: bs)
      | some col =>
        match pivotColumn b with
        | none => .panic
        | some colB =>
          if col < colB then
            let v' := if (b :: bs).length % 2 > 0 then v.map (fun x => -x) else v
            .ok (v' :: b :: bs)
          else if col = colB then do
            let (v', b') ← Scalar.clearColumn col v b
            let rest ← extendBasis v' bs
            .ok (b' :: rest)
          else do
            let rest ← extendBasis v bs
            .ok (b :: rest)

/-- Repeated `extend_basis`, as in `rank`, `determinant`, `reduced_basis`. -/
def extendAll : List (List T) → List (List T) → Outcome (List (List T))
  | [], bs => .ok bs
  | v :: vs, bs => do
    let bs ← extendBasis v bs
    extendAll vs bs

/-- The basis built from the rows of a matrix (linear_algebra.rs:255-258 and twice more). -/
def rowBasis (m : Mat T) : Outcome (List (List T)) := do
  let rows ← m.getRows
  extendAll rows []

/-- `rank` (linear_algebra.rs:252-260). -/
def rank (m : Mat T) : Outcome Nat := do
  let basis ← rowBasis m
  .ok basis.length

/-- `basis[i][i]` with both bounds checks (linear_algebra.rs:291). -/
def diagEntry (basis : List (List T)) (i : Nat) : Outcome T := do
  let r ← vecGet basis i
  vecGet r i

/-- `determinant` (linear_algebra.rs:262-297). -/
def determinant (m : Mat T) : Outcome T :=
  if m.nrows ≠ m.ncols then .panic
  else match m.nrows with
    | 0 => .ok 1
    | 1 => m.get 0 0
    | 2 => do
      let a ← m.get 0 0
      let d ← m.get 1 1
      let b ← m.get 0 1
      let c ← m.get 1 0
      .ok (a * d - b * c)
    | 3 => do
      let a00 ← m.get 0 0
      let a01 ← m.get 0 1
      let a02 ← m.get 0 2
      let a10 ← m.get 1 0
      let a11 ← m.get 1 1
      let a12 ← m.get 1 2
      let a20 ← m.get 2 0
      let a21 ← m.get 2 1
      let a22 ← m.get 2 2
      .ok (a00 * a11 * a22 + a01 * a12 * a20 + a02 * a10 * a21 - a02 * a11 * a20 - a00 * a12 * a21
        - a01 * a10 * a22)
    | _ => do
      let basis ← rowBasis m
      if basis.length < m.nrows then .ok 0
      else do
        let ds ← omap (diagEntry basis) (List.range m.nrows)
        .ok (ds.foldl (· * ·) 1)

/-- `while basis[row][col].is_zero() { col += 1 }` (linear_algebra.rs:309-311), on the tail of the row
from `col` on; running off the end is an index panic. -/
def skipZeros (v : List T) (col : Nat) : Outcome Nat :=
  match (v.drop col).findIdx? (fun x => decide (x ≠ 0)) with
  | some k => .ok (col + k)
  | none => .panic

/-- The row loop of `reduced_basis` (linear_algebra.rs:308-319): `dn` are the rows already treated. -/
def reduceRows : List (List T) → List (List T) → Nat → Outcome (List (List T))
  | dn, [], _ => .ok dn
  | dn, b :: rest, col => do
    let col ← skipZeros b col
    let b ← Scalar.normalizeColumn col b
    let dn ← omap (fun v => Scalar.reduceColumn col v b) dn
    reduceRows (dn ++ [b]) rest col

/-- `Matrix::vstack(&basis.iter().map(|v| Matrix::row(&v)))` (linear_algebra.rs:321-323, 358-360). -/
def stackRows (rows : List (List T)) : Outcome (Mat T) := do
  let parts ← omap Mat.row rows
  Mat.vstack parts

/-- `reduced_basis` (linear_algebra.rs:299-324). -/
def reducedBasis (m : Mat T) : Outcome (Mat T) := do
  let basis ← rowBasis m
  let rows ← reduceRows [] basis 0
  stackRows rows

/-- The row loop of `solve` (linear_algebra.rs:348-353): collects solution rows in `x`. -/
def solveLoop (b r : Mat T) : List Nat → List (List T) → Outcome (Option (List (List T)))
  | [], x => .ok (some x)
  | i :: is, x => do
    let bi ← b.getRow i
    let ri ← r.getRow i
    match ← Scalar.solveRow bi x ri with
    | some y => solveLoop b r is (x ++ [y])
    | none => .ok none

/-- The end of `solve` (linear_algebra.rs:342-361), once the reduced left side `l` has full row rank. -/
def solveFull (l r : Mat T) : Outcome (Option (Mat T)) := do
  let lt ← l.transpose
  let id ← Mat.identity l.ncols
  let st2 ← Mat.hstack [lt, id]
  let t2 ← reducedBasis st2
  let b' ← t2.submatrix 0 t2.nrows 0 l.nrows
  let b ← b'.transpose
  let u' ← t2.submatrix 0 t2.nrows l.nrows t2.ncols
  let u ← u'.transpose
  match ← solveLoop b r (List.range r.nrows) [] with
  | none => .ok none
  | some x => do
    let x := x ++ List.replicate (u.ncols - r.nrows) (List.replicate r.ncols 0)
    let xm ← stackRows x
    let res ← Mat.mul u xm
    .ok (some res)

/-- `solve` (linear_algebra.rs:326-362). -/
def solve (lft rgt : Mat T) : Outcome (Option (Mat T)) := do
  rassert (decide (lft.nrows = rgt.nrows))
  let st ← Mat.hstack [lft, rgt]
  let t ← reducedBasis st
  if t.nrows = 0 then do
    let z ← Mat.zero lft.ncols rgt.ncols
    .ok (some z)
  else do
    let l ← t.submatrix 0 t.nrows 0 lft.ncols
    let r ← t.submatrix 0 t.nrows lft.ncols t.ncols
    let rk ← rank l
    if rk < l.nrows then .ok none else solveFull l r

/-- `null_space` (linear_algebra.rs:364-377). -/
def nullSpace (a : Mat T) : Outcome (Option (Mat T)) := do
  let m ← a.transpose
  let id ← Mat.identity m.nrows
  let st ← Mat.hstack [m, id]
  let t ← reducedBasis st
  let l ← t.submatrix 0 t.nrows 0 m.ncols
  let r ← t.submatrix 0 t.nrows m.ncols t.ncols
  let k ← rank l
  if k < r.nrows then do
    let s ← r.submatrix k r.nrows 0 r.ncols
    let st ← s.transpose
    .ok (some st)
  else .ok none

/-- `inverse` (linear_algebra.rs:379-383). -/
def inverse (a : Mat T) : Outcome (Option (Mat T)) := do
  rassert (decide (a.nrows = a.ncols))
  let id ← Mat.identity a.nrows
  solve a id

end

end Systre
