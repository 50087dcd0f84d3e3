import Verif.Model.LinearAlgebra

/-!
# Model of `src/arithmetic/modular_solver.rs`

`type Matrix = Vec<Vec<i64>>` is `List (List Int)`. Every `i64` operation whose result could leave the
range goes through a parameter `ck : Int → Outcome Int`: `ideal` accepts every integer, `i64Check`
panics outside the `i64` range (a debug build; a release build would wrap around). `BigInt` is `Int`,
`BigRational` is `Rat`.

The number of p-adic steps is computed in `f64` in the code. It is a parameter `steps` here, and
`Verif/Spec/Padic.lean` has the exact real-number version of the formula.
-/

namespace Systre.Modular

open Systre

/-- `Vec<Vec<i64>>` (modular_solver.rs:23). -/
abbrev IMat := List (List Int)

/-- unbounded arithmetic -/
def ideal (x : Int) : Outcome Int := .ok x

/-- `i64` arithmetic with overflow checks -/
def i64Check (x : Int) : Outcome Int := if -(2 ^ 63) ≤ x ∧ x < 2 ^ 63 then .ok x else .panic

variable (ck : Int → Outcome Int)

/-- Loop of `modular_inverse` (modular_solver.rs:9-13), with fuel. -/
def invLoop : Nat → Int → Int → Int → Int → Outcome (Int × Int)
  | 0, _, _, _, _ => .diverge
  | fuel + 1, t, t1, r, r1 =>
    if r1 ≠ 0 then do
      let q ← ck (r.tdiv r1)
      let x ← ck (q * t1)
      let t' ← ck (t - x)
      let y ← ck (q * r1)
      let r' ← ck (r - y)
      invLoop fuel t1 t' r1 r'
    else .ok (t, r)

/-- `modular_inverse` (modular_solver.rs:5-20). Fuel `|argument| + 1`, theorem C19 shows it suffices. -/
def modularInverse (argument modulus : Int) : Outcome (Option Int) := do
  let (t, r) ← invLoop ck (argument.natAbs + 1) 0 1 modulus argument
  if r = 1 then
    if t < 0 then do
      let x ← ck (t + modulus)
      .ok (some x)
    else .ok (some t)
  else .ok none

/-- `a[i][j]` with both bounds checks. -/
def mget (a : IMat) (i j : Nat) : Outcome Int := do
  let row ← vecGet a i
  vecGet row j

/-- `n % prime + if n < 0 { prime } else { 0 }` (modular_solver.rs:35). -/
def residue (prime n : Int) : Outcome Int :=
  if prime = 0 then .panic else ck (n.tmod prime + if n < 0 then prime else 0)

/-- the assertion in the first loop of `modular_row_echelon_form` (modular_solver.rs:33) -/
def sameLengths : IMat → Bool
  | [] => true
  | r :: rs => rs.all (fun r' => r'.length = r.length)

/-- `(irow..nrows).find(|&r| a[r][icol] != 0)` (modular_solver.rs:44). Here and below rows are read with
a default: the assertion makes all rows equally long, so every index is in range. -/
def findPivot (a : IMat) (irow icol : Nat) : Option Nat :=
  (List.range' irow (a.length - irow)).find? (fun r => decide (rent (a.getD r []) icol ≠ 0))

/-- `swap_rows` (modular_solver.rs:75-80). -/
def swapRows (a : IMat) (i j : Nat) : IMat := (a.set i (a.getD j [])).set j (a.getD i [])

/-- `for j in icol..ncols { a[irow][j] = (a[irow][j] * f) % prime; }` (modular_solver.rs:50-52). -/
def scaleRow (prime : Int) (icol : Nat) (f : Int) (row : List Int) : Outcome (List Int) :=
  omap (fun j => if j < icol then .ok (rent row j) else do
    let x ← ck (rent row j * f)
    .ok (x.tmod prime)) (List.range row.length)

/-- The body of the elimination loop for one row `i ≠ irow` (modular_solver.rs:55-64): `piv` is row
`irow`. -/
def clearRow (prime : Int) (icol : Nat) (piv row : List Int) : Outcome (List Int) :=
  let f := rent row icol
  if f ≠ 0 then
    omap (fun j =>
      if j < icol then .ok (rent row j)
      else if rent piv j ≠ 0 then do
        let x ← ck (rent piv j * f)
        let y ← ck (prime - x.tmod prime)
        let z ← ck (y + rent row j)
        .ok (z.tmod prime)
      else .ok (rent row j)) (List.range row.length)
  else .ok row

/-- One pass of the column loop (modular_solver.rs:44-66), without `irow += 1`. -/
def refStep (prime : Int) (irow icol : Nat) (a : IMat) : Outcome IMat :=
  match findPivot a irow icol with
  | none => .ok a
  | some r => do
    let a := if r ≠ irow then swapRows a irow r else a
    let inv ← modularInverse ck (rent (a.getD irow []) icol) prime
    let f ← unwrap inv
    let piv ← scaleRow ck prime icol f (a.getD irow [])
    omap (fun i => if i ≠ irow then clearRow ck prime icol piv (a.getD i []) else .ok piv)
      (List.range a.length)

/-- The column loop (modular_solver.rs:43-69); `irow` advances unconditionally (line 68). -/
def refLoop (prime : Int) : List Nat → Nat → IMat → Outcome IMat
  | [], _, a => .ok a
  | icol :: cols, irow, a => do
    let a ← refStep ck prime irow icol a
    refLoop prime cols (irow + 1) a

/-- `modular_row_echelon_form` (modular_solver.rs:25-72). -/
def rowEchelonForm (matrix : IMat) (prime : Int) : Outcome IMat :=
  match matrix with
  | [] => .ok []
  | r0 :: _ =>
    if sameLengths matrix then do
      let a ← omap (fun row => omap (residue ck prime) row) matrix
      refLoop ck prime (List.range r0.length) 0 a
    else .panic

/-- The row with the unit vector appended (modular_solver.rs:93-96). -/
def augmentRow (n i : Nat) (row : List Int) : Outcome (List Int) :=
  if row.length = n then .ok (row ++ (List.replicate n 0).set i 1) else .panic

/-- `modular_matrix_inverse` (modular_solver.rs:83-110). -/
def matrixInverse (matrix : IMat) (prime : Int) : Outcome (Option IMat) :=
  let n := matrix.length
  if n = 0 then .ok none
  else do
    let a ← omap (fun i => augmentRow n i (matrix.getD i [])) (List.range n)
    let a ← rowEchelonForm ck a prime
    if (List.range n).all (fun i => (List.range n).all (fun j =>
        rent (a.getD i []) j = if i = j then 1 else 0)) then
      .ok (some (a.map (fun row => row.drop n)))
    else .ok none

/-- The entries of a product: `Iterator::reduce` with `unwrap` (modular_solver.rs:123-126): panics for
an empty sum. -/
def modSum (prime : Int) : List Int → Outcome Int
  | [] => .panic
  | x :: xs => xs.foldlM (fun p q => do
      let y ← ck (p + q)
      .ok (y.tmod prime)) x

/-- `modular_matrix_product` (modular_solver.rs:113-133). -/
def matrixProduct (a b : IMat) (prime : Int) : Outcome IMat := do
  let a0 ← vecGet a 0
  let b0 ← vecGet b 0
  if a0.length ≠ b.length then .panic
  else omap (fun row => omap (fun j => do
    let ts ← omap (fun i => do
      let x ← vecGet row i
      let y ← mget b i j
      let z ← ck (x * y)
      .ok (z.tmod prime)) (List.range a0.length)
    modSum ck prime ts) (List.range b0.length)) a

/-- `integer_matrix_product` (modular_solver.rs:136-153). `sum` starts from zero. -/
def integerProduct (a b : IMat) : Outcome IMat := do
  let a0 ← vecGet a 0
  let b0 ← vecGet b 0
  if a0.length ≠ b.length then .panic
  else omap (fun row => omap (fun j => do
    let ts ← omap (fun i => do
      let x ← vecGet row i
      let y ← mget b i j
      ck (x * y)) (List.range a0.length)
    ts.foldlM (fun p q => ck (p + q)) 0) (List.range b0.length)) a

/-- Loop of `rational_reconstruction` (modular_solver.rs:185-194), with fuel; result `(sign * u1, v1)`. -/
def reconLoop : Nat → Int → Int → Int → Int → Int → Int → Outcome (Int × Int)
  | 0, _, _, _, _, _, _ => .diverge
  | fuel + 1, h, u, u1, v, v1, sign =>
    if u1 ^ 2 > h then
      if u1 = 0 then .panic
      else
        let q := u.tdiv u1
        let r := u.tmod u1
        reconLoop fuel h u1 r v1 (v + q * v1) (-sign)
    else .ok (sign * u1, v1)

/-- `rational_reconstruction` (modular_solver.rs:180-197). `BigRational::new` panics for a zero
denominator and normalises. Fuel `|s| + 1`. -/
def rationalReconstruction (s h : Int) : Outcome Rat := do
  let (num, den) ← reconLoop (s.natAbs + 1) h h s 0 1 1
  if den = 0 then .panic else .ok ((num : Rat) / (den : Rat))

/-- `for i in 0..nrows { for j in 0..ncols { f(i, j) } }` over a `nrows` by `ncols` table. -/
def otable {β : Type} (nrows ncols : Nat) (f : Nat → Nat → Outcome β) : Outcome (List (List β)) :=
  omap (fun i => omap (fun j => f i j) (List.range ncols)) (List.range nrows)

/-- `s[i][j] += &p * x[i][j]` (modular_solver.rs:217-221), in `BigInt`. -/
def addDigits (nrows ncols : Nat) (p : Int) (s : List (List Int)) (x : IMat) : Outcome (List (List Int)) :=
  otable nrows ncols (fun i j => do
    let y ← mget s i j
    let z ← mget x i j
    .ok (y + p * z))

/-- `b[i][j] = (b[i][j] - ax[i][j]) / prime` (modular_solver.rs:227-231). -/
def residual (nrows ncols : Nat) (prime : Int) (b ax : IMat) : Outcome IMat :=
  otable nrows ncols (fun i j => do
    let y ← mget b i j
    let z ← mget ax i j
    let d ← ck (y - z)
    .ok (d.tdiv prime))

/-- The lifting loop of `solve` (modular_solver.rs:215-233), `todo` steps still to do. -/
def liftLoop (prime : Int) (a c : IMat) (nrows ncols : Nat) :
    Nat → Int → IMat → List (List Int) → Outcome (Int × List (List Int))
  | 0, p, _, s => .ok (p, s)
  | todo + 1, p, b, s => do
    let x ← matrixProduct ck c b prime
    let s ← addDigits nrows ncols p s x
    if 0 < todo then do
      let ax ← integerProduct ck a x
      let b ← residual ck nrows ncols prime b ax
      liftLoop prime a c nrows ncols todo (p * prime) b s
    else liftLoop prime a c nrows ncols todo (p * prime) b s

/-- `solve` (modular_solver.rs:200-241) with the number of lifting steps `steps` and the prime as
parameters; see `padicSolve` for the prime of the code. -/
def solveWith (prime : Int) (steps : Nat) (a b : IMat) : Outcome (Option (List (List Rat))) := do
  match ← matrixInverse ck a prime with
  | none => .ok none
  | some c => do
    let nrows := b.length
    let b0 ← vecGet b 0
    let ncols := b0.length
    let s := List.replicate nrows (List.replicate ncols (0 : Int))
    let (p, s) ← liftLoop ck prime a c nrows ncols steps 1 b s
    let r ← omap (fun row => omap (fun x => rationalReconstruction x p) row) s
    .ok (some r)

/-- `let prime = 9999991` (modular_solver.rs:201). -/
def thePrime : Int := 9999991

end Systre.Modular
