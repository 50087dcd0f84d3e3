import Verif.Model.Base

/-!
# Model of `src/arithmetic/matrices.rs`

`Vec<T>` is `List T`. Loops that push entries in row-major order are `grid`; loops that overwrite every
cell of a fresh matrix exactly once in row-major order (`Mul`, `identity`) are also modelled by `grid`.
By-value and by-reference variants of an operator are one function (they forward to each other).
`Display` is not modelled.
-/

namespace Systre

/-- Evaluate `f` on every element, left to right, stopping at the first panic
(`for x in l { v.push(f(x)) }`). -/
def omap {α : Type u} {β : Type v} (f : α → Outcome β) : List α → Outcome (List β)
  | [] => .ok []
  | a :: l =>
    match f a with
    | .ok b =>
      match omap f l with
      | .ok bs => .ok (b :: bs)
      | .panic => .panic
      | .diverge => .diverge
    | .panic => .panic
    | .diverge => .diverge

/-- Two nested loops `for i in 0..nr { for j in 0..nc { data.push(f(i,j)) } }`. -/
def grid {β : Type v} (nr nc : Nat) (f : Nat → Nat → Outcome β) : Outcome (List β) :=
  match omap (fun i => omap (fun j => f i j) (List.range nc)) (List.range nr) with
  | .ok rows => .ok rows.flatten
  | .panic => .panic
  | .diverge => .diverge

/-- `struct Matrix<T>` (matrices.rs:10-15). -/
structure Mat (T : Type) where
  nrows : Nat
  ncols : Nat
  data : List T
deriving DecidableEq, Repr

namespace Mat

variable {T : Type}

/-- `Matrix::new` (matrices.rs:73-78); `data.len() / ncols` panics for `ncols = 0`. -/
def new (ncols : Nat) (data : List T) : Outcome (Mat T) :=
  if data.length = 0 then .ok { nrows := 0, ncols := ncols, data := data }
  else if ncols = 0 then .panic
  else
    let nrows := data.length / ncols
    if data.length = nrows * ncols then .ok { nrows := nrows, ncols := ncols, data := data }
    else .panic

/-- `Matrix::shape` (matrices.rs:18-20). -/
def shape (m : Mat T) : Nat × Nat := (m.nrows, m.ncols)

/-- `Index<(usize, usize)>` (matrices.rs:31-40). -/
def get (m : Mat T) (i j : Nat) : Outcome T :=
  if i * m.ncols < m.data.length then
    if j < m.ncols then vecGet m.data (i * m.ncols + j) else .panic
  else .panic

/-- `IndexMut<(usize, usize)>` used as `m[(i, j)] = x` (matrices.rs:42-49). -/
def set (m : Mat T) (i j : Nat) (x : T) : Outcome (Mat T) :=
  if i * m.ncols < m.data.length then
    if j < m.ncols then
      match vecSet m.data (i * m.ncols + j) x with
      | .ok d => .ok { m with data := d }
      | .panic => .panic
      | .diverge => .diverge
    else .panic
  else .panic

/-- `Matrix::row` (matrices.rs:80-82). -/
def row (data : List T) : Outcome (Mat T) := new data.length data

/-- `Matrix::col` (matrices.rs:84-86). -/
def col (data : List T) : Outcome (Mat T) := new 1 data

/-- `Matrix::reshape` (matrices.rs:88-90). -/
def reshape (m : Mat T) (ncols : Nat) : Outcome (Mat T) := new ncols m.data

/-- `FromIterator` (matrices.rs:66-70). -/
def fromIter (l : List T) : Outcome (Mat T) := new 1 l

/-- `Matrix::hstack` (matrices.rs:92-110). -/
def hstack (parts : List (Mat T)) : Outcome (Mat T) :=
  match parts with
  | [] => new 0 []
  | p0 :: _ => do
    let nrows := p0.nrows
    rassert (parts.all (fun m => m.nrows = nrows))
    let ncols := (parts.map (fun m => m.ncols)).sum
    let rows ← omap (fun irow => do
      let segs ← omap (fun (p : Mat T) => omap (fun icol => p.get irow icol) (List.range p.ncols)) parts
      .ok segs.flatten) (List.range nrows)
    new ncols rows.flatten

/-- `Matrix::vstack` (matrices.rs:112-130). -/
def vstack (parts : List (Mat T)) : Outcome (Mat T) :=
  match parts with
  | [] => new 0 []
  | p0 :: _ => do
    let ncols := p0.ncols
    rassert (parts.all (fun m => m.ncols = ncols))
    let segs ← omap (fun (p : Mat T) => grid p.nrows p.ncols (fun i j => p.get i j)) parts
    new ncols segs.flatten

/-- `Matrix::submatrix(r0..r1, c0..c1)` (matrices.rs:132-147). `usize` subtraction of a reversed range
panics (debug build; a release build wraps around and then fails to allocate). -/
def submatrix (m : Mat T) (r0 r1 c0 c1 : Nat) : Outcome (Mat T) :=
  if r1 ≤ m.nrows ∧ c1 ≤ m.ncols then
    if r0 ≤ r1 ∧ c0 ≤ c1 then do
      let data ← grid (r1 - r0) (c1 - c0) (fun i j => m.get (i + r0) (j + c0))
      new (c1 - c0) data
    else .panic
  else .panic

/-- `Matrix::get_row` (matrices.rs:149-154); the slice panics if it reaches beyond the data. -/
def getRow (m : Mat T) (i : Nat) : Outcome (List T) :=
  if i * m.ncols < m.data.length then
    if i * m.ncols + m.ncols ≤ m.data.length then
      .ok ((m.data.drop (i * m.ncols)).take m.ncols)
    else .panic
  else .panic

/-- `Matrix::get_rows` (matrices.rs:156-158). -/
def getRows (m : Mat T) : Outcome (List (List T)) := omap m.getRow (List.range m.nrows)

/-- `Matrix::get_col` (matrices.rs:160-165). -/
def getCol (m : Mat T) (j : Nat) : Outcome (List T) :=
  if j < m.ncols then omap (fun i => m.get i j) (List.range m.nrows) else .panic

/-- `Matrix::transpose` (matrices.rs:167-174). -/
def transpose (m : Mat T) : Outcome (Mat T) := do
  let data ← grid m.ncols m.nrows (fun j i => m.get i j)
  new m.nrows data

/-- `Matrix::zero` (matrices.rs:178-180). -/
def zero [Zero T] (nrows ncols : Nat) : Outcome (Mat T) :=
  new ncols (List.replicate (nrows * ncols) 0)

/-- `Matrix::unit_vector` (matrices.rs:184-189). -/
def unitVector [Zero T] [One T] (n k : Nat) : Outcome (Mat T) := do
  rassert (decide (k < n))
  let row ← zero 1 n
  row.set 0 k 1

/-- `Matrix::identity` (matrices.rs:191-197). The zero matrix whose diagonal is overwritten, written
here as one pass over the cells. -/
def identity [Zero T] [One T] (n : Nat) : Outcome (Mat T) := do
  let data ← grid n n (fun i j => .ok (if i = j then (1 : T) else 0))
  new n data

/-- `Matrix::is_identity` (matrices.rs:199-220). -/
def isIdentity [Zero T] [One T] [DecidableEq T] (m : Mat T) : Outcome Bool :=
  if m.nrows ≠ m.ncols then .ok false
  else do
    let oks ← omap (fun i => omap (fun j => do
        let x ← m.get i j
        .ok (if j = i then decide (x = 1) else decide (x = 0))) (List.range m.ncols))
      (List.range m.nrows)
    .ok (oks.flatten.all id)

/-- `Neg` (matrices.rs:288-307). -/
def neg [Neg T] (m : Mat T) : Outcome (Mat T) := new m.ncols (m.data.map (fun x => -x))

/-- `AddAssign` / `Add` of matrices (matrices.rs:322-346, 368-388). -/
def add [Add T] (a b : Mat T) : Outcome (Mat T) := do
  rassert (decide (a.data.length = b.data.length))
  rassert (decide (a.ncols = b.ncols))
  .ok { a with data := List.zipWith (· + ·) a.data b.data }

/-- `SubAssign` / `Sub` of matrices (matrices.rs:401-425, 447-467). -/
def sub [Sub T] (a b : Mat T) : Outcome (Mat T) := do
  rassert (decide (a.data.length = b.data.length))
  rassert (decide (a.ncols = b.ncols))
  .ok { a with data := List.zipWith (· - ·) a.data b.data }

/-- `AddAssign<T>` (matrices.rs:348-366): add a scalar to every entry. -/
def addScalar [Add T] (a : Mat T) (c : T) : Mat T := { a with data := a.data.map (fun x => x + c) }

/-- `SubAssign<T>` (matrices.rs:427-445). -/
def subScalar [Sub T] (a : Mat T) (c : T) : Mat T := { a with data := a.data.map (fun x => x - c) }

/-- `MulAssign<T>` / `Mul<T>` (matrices.rs:480-520). -/
def smul [Mul T] (a : Mat T) (c : T) : Mat T := { a with data := a.data.map (fun x => x * c) }

/-- `DivAssign<T>` / `Div` by a scalar (matrices.rs:610-650), for the scalar type whose `/=` is `quo` (an
operation that may panic: integers and rationals panic on a zero divisor). Entries are divided in order. -/
def divScalar (quo : T → T → Outcome T) (a : Mat T) (c : T) : Outcome (Mat T) := do
  let d ← omap (fun x => quo x c) a.data
  .ok { a with data := d }

/-- Matrix product (matrices.rs:522-591). The `k` loop accumulates from zero. -/
def mul [Zero T] [Add T] [Mul T] (a b : Mat T) : Outcome (Mat T) := do
  rassert (decide (a.ncols = b.nrows))
  let data ← grid a.nrows b.ncols (fun i j => do
    let ts ← omap (fun k => do
      let x ← a.get i k
      let y ← b.get k j
      .ok (x * y)) (List.range a.ncols)
    .ok (ts.foldl (· + ·) 0))
  new b.ncols data

end Mat

/-- `/=` of integers as a matrix entry operation: truncated, panics for the divisor zero. (Integers are
unbounded here.) -/
def quoInt (x c : Int) : Outcome Int := if c = 0 then .panic else .ok (x.tdiv c)

/-- `/=` of `num_rational::Ratio`: panics for the divisor zero (num-rational 0.4). -/
def quoRat (x c : Rat) : Outcome Rat := if c = 0 then .panic else .ok (x / c)

end Systre
