import Verif.Model.LinearAlgebra
import Verif.Model.Lattices

/-!
# Machine integers: `src/arithmetic/linear_algebra.rs` with `i32` and `i64`

The functions of `Verif/Model/LinearAlgebra.lean` for integers once more, with the arithmetic of a type of `w` bits:
every single operation may overflow. In a debug build an overflow panics, in a release build the result is taken
modulo `2^w`; a division whose quotient does not fit (the smallest number by -1) panics in both. The kind `ideal` has
no bounds; it is only used to connect this file with the other one.
-/

namespace Systre.Machine

/-- how integers behave -/
inductive IntKind
  | ideal
  | debug (w : Nat)
  | release (w : Nat)

/-- the numbers of a signed type with `w` bits -/
def Fits (w : Nat) (x : Int) : Prop := -(2 ^ (w - 1)) ≤ x ∧ x < 2 ^ (w - 1)

instance (w : Nat) (x : Int) : Decidable (Fits w x) := by unfold Fits; infer_instance

namespace IntKind

/-- the result of `+`, `-`, `*` and unary `-`, where `x` is the exact value -/
def res : IntKind → Int → Outcome Int
  | .ideal, x => .ok x
  | .debug w, x => if Fits w x then .ok x else .panic
  | .release w, x => .ok (x.bmod (2 ^ w))

/-- whether the quotient can be computed -/
def quotFits : IntKind → Int → Int → Bool
  | .ideal, _, _ => true
  | .debug w, a, b => decide (Fits w (a.tdiv b))
  | .release w, a, b => decide (Fits w (a.tdiv b))

/-- `/` -/
def quot (k : IntKind) (a b : Int) : Outcome Int :=
  if b = 0 then .panic else if k.quotFits a b then .ok (a.tdiv b) else .panic

/-- `%`; panics like `/` -/
def rem (k : IntKind) (a b : Int) : Outcome Int :=
  if b = 0 then .panic else if k.quotFits a b then .ok (a.tmod b) else .panic

end IntKind

variable (k : IntKind)

/-- `a - q * b` -/
def subMul (a q b : Int) : Outcome Int := do
  let p ← k.res (q * b)
  k.res (a - p)

/-- `a * b + c * d` -/
def mulAddMul (a b c d : Int) : Outcome Int := do
  let p ← k.res (a * b)
  let q ← k.res (c * d)
  k.res (p + q)

/-- `a * b - c * d` -/
def mulSubMul (a b c d : Int) : Outcome Int := do
  let p ← k.res (a * b)
  let q ← k.res (c * d)
  k.res (p - q)

/-- `a * b * c` -/
def mul3 (a b c : Int) : Outcome Int := do
  let p ← k.res (a * b)
  k.res (p * c)

/-- Loop of `gcdx` (linear_algebra.rs:19-24), with fuel. -/
def gcdxLoop : Nat → Int → Int → Int → Int → Int → Int → Outcome (Int × Int × Int × Int × Int)
  | 0, _, _, _, _, _, _ => .diverge
  | fuel + 1, a, a', r, r', s, s' =>
    if a' ≠ 0 then do
      let q ← k.quot a a'
      let a'' ← subMul k a q a'
      let r'' ← subMul k r q r'
      let s'' ← subMul k s q s'
      gcdxLoop fuel a' a'' r' r'' s' s''
    else .ok (a, r, s, r', s')

/-- `gcdx` (linear_algebra.rs:10-27). -/
def gcdx (a b : Int) : Outcome (Int × Int × Int × Int × Int) :=
  gcdxLoop k (b.natAbs + 1) a b 1 0 0 1

/-- The loop body of `clear_column_primitive_int` (linear_algebra.rs:150-154): new `v[k]` and new `b[k]`. -/
def clearEntry (r s t u det x y : Int) : Outcome (Int × Int) := do
  let z ← mulAddMul k y r x s
  let tmp ← k.res (det * z)
  let w ← mulAddMul k y t x u
  .ok (w, tmp)

/-- `clear_column_primitive_int` (linear_algebra.rs:144-155). -/
def clearColumn (col : Nat) (v b : List Int) : Outcome (List Int × List Int) := do
  let (_, r, s, t, u) ← gcdx k (rent b col) (rent v col)
  let det ← mulSubMul k r u s t
  let new ← omap (fun i => if i < col then .ok (rent v i, rent b i)
    else clearEntry k r s t u det (rent v i) (rent b i)) (List.range v.length)
  .ok (new.map Prod.fst, new.map Prod.snd)

/-- `normalize_column_primitive_int` (linear_algebra.rs:157-164). -/
def normalizeColumn (col : Nat) (v : List Int) : Outcome (List Int) :=
  if rent v col < 0 then
    omap (fun i => if i < col then .ok (rent v i) else k.res (- rent v i)) (List.range v.length)
  else .ok v

/-- `reduce_column_primitive_int` (linear_algebra.rs:166-178). -/
def reduceColumn (col : Nat) (v b : List Int) : Outcome (List Int) := do
  let q ← k.quot (rent v col) (rent b col)
  let f ← k.res (q - (if rent v col < 0 then 1 else 0))
  if f ≠ 0 then
    omap (fun i => if i < col then .ok (rent v i) else subMul k (rent v i) (rent b i) f) (List.range v.length)
  else .ok v

/-- `extend_basis` (linear_algebra.rs:202-233). -/
def extendBasis (v : List Int) : List (List Int) → Outcome (List (List Int))
  | [] => if (pivotColumn v).isSome then .ok [v] else .ok []
  | b :: bs =>
    if b.length ≠ v.length then .panic
    else match pivotColumn v with
      | none => .ok (b :: bs)
      | some col =>
        match pivotColumn b with
        | none => .panic
        | some colB =>
          if col < colB then do
            let v' ← if (b :: bs).length % 2 > 0 then omap (fun x => k.res (-x)) v else .ok v
            .ok (v' :: b :: bs)
          else if col = colB then do
            let (v', b') ← clearColumn k col v b
            let rest ← extendBasis v' bs
            .ok (b' :: rest)
          else do
            let rest ← extendBasis v bs
            .ok (b :: rest)

/-- Repeated `extend_basis`, as in `rank`, `determinant`, `reduced_basis`. -/
def extendAll : List (List Int) → List (List Int) → Outcome (List (List Int))
  | [], bs => .ok bs
  | v :: vs, bs => do
    let bs ← extendBasis k v bs
    extendAll vs bs

/-- The basis built from the rows of a matrix (linear_algebra.rs:255-258 and twice more). -/
def rowBasis (m : Mat Int) : Outcome (List (List Int)) := do
  let rows ← m.getRows
  extendAll k rows []

/-- `rank` (linear_algebra.rs:252-260). -/
def rank (m : Mat Int) : Outcome Nat := do
  let basis ← rowBasis k m
  .ok basis.length

/-- `for .. { det *= &basis[i][i]; }` (linear_algebra.rs:289-292; also pgraphs.rs:726-729). -/
def prodLoop : List Int → Int → Outcome Int
  | [], d => .ok d
  | x :: xs, d => do
    let d ← k.res (d * x)
    prodLoop xs d

/-- `determinant` (linear_algebra.rs:262-297). -/
def determinant (m : Mat Int) : Outcome Int :=
  if m.nrows ≠ m.ncols then .panic
  else match m.nrows with
    | 0 => .ok 1
    | 1 => m.get 0 0
    | 2 => do
      let a ← m.get 0 0
      let d ← m.get 1 1
      let b ← m.get 0 1
      let c ← m.get 1 0
      mulSubMul k a d b c
    | 3 => do
      let a00 ← m.get 0 0
      let a01 ← m.get 0 1
      let a02 ← m.get 0 2
      let a10 ← m.get 1 0
      let a11 ← m.get 1 1
      let a12 ← m.get 1 2
      let a20 ← m.get 2 0
      let a21 ← m.get 2 1
      let a22 ← m.get 2 2
      let p1 ← mul3 k a00 a11 a22
      let p2 ← mul3 k a01 a12 a20
      let s2 ← k.res (p1 + p2)
      let p3 ← mul3 k a02 a10 a21
      let s3 ← k.res (s2 + p3)
      let p4 ← mul3 k a02 a11 a20
      let s4 ← k.res (s3 - p4)
      let p5 ← mul3 k a00 a12 a21
      let s5 ← k.res (s4 - p5)
      let p6 ← mul3 k a01 a10 a22
      k.res (s5 - p6)
    | _ => do
      let basis ← rowBasis k m
      if basis.length < m.nrows then .ok 0
      else do
        let ds ← omap (diagEntry basis) (List.range m.nrows)
        prodLoop k ds 1

/-- The row loop of `reduced_basis` (linear_algebra.rs:308-319). -/
def reduceRows : List (List Int) → List (List Int) → Nat → Outcome (List (List Int))
  | dn, [], _ => .ok dn
  | dn, b :: rest, col => do
    let col ← skipZeros b col
    let b ← normalizeColumn k col b
    let dn ← omap (fun v => reduceColumn k col v b) dn
    reduceRows (dn ++ [b]) rest col

/-- `reduced_basis` (linear_algebra.rs:299-324). -/
def reducedBasis (m : Mat Int) : Outcome (Mat Int) := do
  let basis ← rowBasis k m
  let rows ← reduceRows k [] basis 0
  stackRows rows

/-- `for i in 0..k { t -= a[i] * x[i][col]; }` (linear_algebra.rs:189-191). -/
def solveSum (a : List Int) (x : List (List Int)) (col : Nat) : List Nat → Int → Outcome Int
  | [], t => .ok t
  | i :: is, t => do
    let t ← subMul k t (rent a i) (rent (x.getD i []) col)
    solveSum a x col is t

/-- One entry of `solve_row_primitive_int` (linear_algebra.rs:188-197). -/
def solveEntry (a : List Int) (x : List (List Int)) (b : List Int) (col : Nat) : Outcome (Option Int) := do
  let t ← solveSum k a x col (List.range x.length) (rent b col)
  let r ← k.rem t (rent a x.length)
  if r = 0 then do
    let q ← k.quot t (rent a x.length)
    .ok (some q)
  else .ok none

/-- The column loop of `solve_row_primitive_int` (linear_algebra.rs:187-198). -/
def solveCols (a : List Int) (x : List (List Int)) (b : List Int) : List Nat → Outcome (Option (List Int))
  | [] => .ok (some [])
  | col :: cols => do
    match ← solveEntry k a x b col with
    | none => .ok none
    | some y => do
      match ← solveCols a x b cols with
      | none => .ok none
      | some ys => .ok (some (y :: ys))

/-- The row loop of `solve` (linear_algebra.rs:348-353). -/
def solveLoop (b r : Mat Int) : List Nat → List (List Int) → Outcome (Option (List (List Int)))
  | [], x => .ok (some x)
  | i :: is, x => do
    let bi ← b.getRow i
    let ri ← r.getRow i
    match ← solveCols k bi x ri (List.range ri.length) with
    | some y => solveLoop b r is (x ++ [y])
    | none => .ok none

/-- `for k in .. { s += &t; }` (matrices.rs:540-544). -/
def sumLoop : List Int → Int → Outcome Int
  | [], d => .ok d
  | x :: xs, d => do
    let d ← k.res (d + x)
    sumLoop xs d

/-- Matrix product (matrices.rs:522-591); all products of a row and a column are formed before their sum. -/
def matMul (a b : Mat Int) : Outcome (Mat Int) := do
  rassert (decide (a.ncols = b.nrows))
  let data ← grid a.nrows b.ncols (fun i j => do
    let ts ← omap (fun l => do
      let x ← a.get i l
      let y ← b.get l j
      k.res (x * y)) (List.range a.ncols)
    sumLoop k ts 0)
  Mat.new b.ncols data

/-- The end of `solve` (linear_algebra.rs:342-361), once the reduced left side `l` has full row rank. -/
def solveFull (l r : Mat Int) : Outcome (Option (Mat Int)) := do
  let lt ← l.transpose
  let id ← Mat.identity l.ncols
  let st2 ← Mat.hstack [lt, id]
  let t2 ← reducedBasis k st2
  let b' ← t2.submatrix 0 t2.nrows 0 l.nrows
  let b ← b'.transpose
  let u' ← t2.submatrix 0 t2.nrows l.nrows t2.ncols
  let u ← u'.transpose
  match ← solveLoop k b r (List.range r.nrows) [] with
  | none => .ok none
  | some x => do
    let x := x ++ List.replicate (u.ncols - r.nrows) (List.replicate r.ncols 0)
    let xm ← stackRows x
    let res ← matMul k u xm
    .ok (some res)

/-- `solve` (linear_algebra.rs:326-362). -/
def solve (lft rgt : Mat Int) : Outcome (Option (Mat Int)) := do
  rassert (decide (lft.nrows = rgt.nrows))
  let st ← Mat.hstack [lft, rgt]
  let t ← reducedBasis k st
  if t.nrows = 0 then do
    let z ← Mat.zero lft.ncols rgt.ncols
    .ok (some z)
  else do
    let l ← t.submatrix 0 t.nrows 0 lft.ncols
    let r ← t.submatrix 0 t.nrows lft.ncols t.ncols
    let rk ← rank k l
    if rk < l.nrows then .ok none else solveFull k l r

/-- `null_space` (linear_algebra.rs:364-377). -/
def nullSpace (a : Mat Int) : Outcome (Option (Mat Int)) := do
  let m ← a.transpose
  let id ← Mat.identity m.nrows
  let st ← Mat.hstack [m, id]
  let t ← reducedBasis k st
  let l ← t.submatrix 0 t.nrows 0 m.ncols
  let r ← t.submatrix 0 t.nrows m.ncols t.ncols
  let n ← rank k l
  if n < r.nrows then do
    let s ← r.submatrix n r.nrows 0 r.ncols
    let st ← s.transpose
    .ok (some st)
  else .ok none

/-- `inverse` (linear_algebra.rs:379-383). -/
def inverse (a : Mat Int) : Outcome (Option (Mat Int)) := do
  rassert (decide (a.nrows = a.ncols))
  let id ← Mat.identity a.nrows
  solve k a id

/-- `rational_lattice_basis` (lattices.rs:217-251), where the integers are `i32`. -/
def rationalLatticeBasis (vectors : List (List Rat)) : Outcome (List (List Rat)) := do
  let v0 ← vecGet vectors 0
  let dim := v0.length
  let cd ← unwrap (Lattices.toI32 (Lattices.commonDenom vectors))
  let units := (List.range dim).map (fun k => (List.replicate dim (0 : Int)).set k cd)
  let basis ← extendAll k units []
  let ints ← omap (fun d => omap (fun x => unwrap (Lattices.rToI32 (x * (cd : Rat)))) d) vectors
  let basis ← extendAll k ints basis
  .ok (basis.map (fun b => b.map (fun (x : Int) => (x : Rat) / (cd : Rat))))

end Systre.Machine
