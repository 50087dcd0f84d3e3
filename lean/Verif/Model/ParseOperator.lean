import Verif.Model.Nom
import Verif.Model.Geometry

/-!
# Model of `src/spacegroups/parse_operator.rs` and of the operator texts in `src/spacegroups/parse_table.rs`

`Ratio<i32>` in lowest terms is `Rat`; the range of `i32` is checked where the code checks it. (Numerals have at
most nine digits, so the conversions `as i32` and the products with a sign cannot overflow.)
-/

namespace Systre.ParseOperator
open Nom

/-- `enum Axis` (parse_operator.rs:13-19). -/
inductive Axis
  | x | y | z | none
deriving DecidableEq, Repr

/-- `type Term` (parse_operator.rs:22). -/
abbrev Term := Rat × Axis

/-- `type Coordinate` (parse_operator.rs:23). -/
abbrev Coordinate := List Rat × Rat

/-- `c.to_digit(10).unwrap()` for an ASCII digit (parse_operator.rs:162). -/
def digitVal (c : Char) : Nat := c.toNat - '0'.toNat

/-- `map_integer` (parse_operator.rs:160-166). -/
def mapInteger (ds : List Char) : Option Nat :=
  if ds.length ≤ 9 then some (ds.foldl (fun n c => n * 10 + digitVal c) 0) else none

/-- `integer` (parse_operator.rs:101-103). -/
def integer : Parser Nat := mapOpt digit1 (fun ds => .ok (mapInteger ds))

/-- `Ratio::new` (used in parse_operator.rs:84): panics when the denominator is zero. -/
def ratioNew (n d : Int) : Outcome Rat := if d = 0 then .panic else .ok ((n : Rat) / d)

/-- `axis` and `map_axis` (parse_operator.rs:96-98, 150-157). -/
def axis : Parser Axis := mapOpt (oneOf ['x', 'y', 'z']) (fun c => .ok
  (if c = 'x' then some .x else if c = 'y' then some .y else if c = 'z' then some .z else Option.none))

/-- `sign` and `map_sign` (parse_operator.rs:91-93, 141-147). -/
def sign : Parser Int := mapOpt (oneOf ['+', '-']) (fun c => .ok
  (if c = '+' then some 1 else if c = '-' then some (-1) else Option.none))

/-- `unsigned_fraction` (parse_operator.rs:78-88). -/
def unsignedFraction : Parser Rat :=
  orElse
    (mapOpt (separatedPair integer (andThen space0 (fun _ => andThen (char '/') (fun _ => space0))) integer)
      (fun p => do
        let q ← ratioNew p.1 p.2
        .ok (some q)))
    (mapOpt integer (fun n => .ok (some (n : Rat))))

/-- `unsigned_term` (parse_operator.rs:62-75). -/
def unsignedTerm : Parser Term :=
  orElse (mapOpt (separatedPair unsignedFraction (char '*') axis) (fun p => .ok (some p)))
    (orElse (mapOpt (separatedPair unsignedFraction space0 axis) (fun p => .ok (some p)))
      (orElse (mapOpt unsignedFraction (fun q => .ok (some (q, Axis.none))))
        (mapOpt axis (fun a => .ok (some ((1 : Rat), a))))))

/-- `signed_term` (parse_operator.rs:54-59). -/
def signedTerm : Parser Term :=
  mapOpt (separatedPair sign space0 unsignedTerm) (fun p => .ok (some ((p.1 : Rat) * p.2.1, p.2.2)))

/-- `term` (parse_operator.rs:49-51). -/
def term : Parser Term := orElse signedTerm unsignedTerm

/-- a value that fits into `i32` -/
def i32 (z : Int) : Option Int := if -2147483648 ≤ z ∧ z ≤ 2147483647 then some z else Option.none

/-- `Ratio::<i32>::checked_add` (num-rational 0.4.1, used in parse_operator.rs:130-133). -/
def checkedAdd (a b : Rat) : Option Rat := do
  let gcd := Nat.gcd a.den b.den
  let lcm ← i32 ((a.den / gcd * b.den : Nat) : Int)
  let x ← i32 (lcm / a.den * a.num)
  let y ← i32 (lcm / b.den * b.num)
  let s ← i32 (x + y)
  some ((s : Rat) / (lcm : Rat))

/-- The loop of `collect_terms` (parse_operator.rs:128-135); the row has three entries. -/
def collectLoop : List Term → Rat × Rat × Rat → Rat → Option Coordinate
  | [], (rx, ry, rz), shift => some ([rx, ry, rz], shift)
  | (q, .x) :: rest, (rx, ry, rz), shift => do
    let v ← checkedAdd q rx
    collectLoop rest (v, ry, rz) shift
  | (q, .y) :: rest, (rx, ry, rz), shift => do
    let v ← checkedAdd q ry
    collectLoop rest (rx, v, rz) shift
  | (q, .z) :: rest, (rx, ry, rz), shift => do
    let v ← checkedAdd q rz
    collectLoop rest (rx, ry, v) shift
  | (q, .none) :: rest, row, shift => do
    let v ← checkedAdd q shift
    collectLoop rest row v

/-- `collect_terms` (parse_operator.rs:124-138). -/
def collectTerms (first : Term) (rest : List Term) : Option Coordinate := collectLoop (first :: rest) (0, 0, 0) 0

/-- `coordinate` (parse_operator.rs:41-46). -/
def coordinate : Parser Coordinate :=
  mapOpt (pair term (many0 (preceded space0 signedTerm))) (fun p => .ok (collectTerms p.1 p.2))

/-- the separator in `operator` (parse_operator.rs:37) -/
def comma : Parser Unit := andThen space0 (fun _ => andThen (char ',') (fun _ => space0))

/-- `operator` (parse_operator.rs:36-38). -/
def operator : Parser (List Coordinate) := separatedList1 comma coordinate

/-- `convert_operator` (parse_operator.rs:106-121). -/
def convertOperator (op : List Coordinate) : List (List Rat) × List Rat :=
  (op.map (fun c => c.1.take op.length), op.map (·.2))

/-- The result of `parse_operator`: `Ok((rest, op))`, or `Err` with the kind and position that
`err.to_string()` prints. -/
inductive OpResult
  | parsed (rest : List Char) (linear : List (List Rat)) (shift : List Rat)
  | error (kind : Kind) (at_ : List Char)
deriving DecidableEq, Repr

/-- `parse_operator` (parse_operator.rs:27-33). `finish` merges `Error` and `Failure`. -/
def parseOperator (s : List Char) : Outcome OpResult := do
  let r ← delimited space0 operator space0 s
  match r with
  | .done rest op => .ok (.parsed rest (convertOperator op).1 (convertOperator op).2)
  | .err k t => .ok (.error k t)
  | .fail k t => .ok (.error k t)

/-- `AffineMap::from_string` (parse_table.rs:186-199). The rest of the text is ignored. `promote` is exact. -/
def affFromString (s : List Char) : Outcome (Option (AffineMap Rat)) := do
  let r ← parseOperator s
  match r with
  | .parsed _ linear shift =>
    if linear.length ≠ shift.length then .ok Option.none
    else do
      let rows ← omap Mat.row linear
      let a ← Mat.vstack rows
      let t ← Vec.new shift
      let m ← AffineMap.new a t
      .ok (some m)
  | .error _ _ => .ok Option.none

/-- `CoordinateMap::from_string` (parse_table.rs:209-211). -/
def coordFromString (s : List Char) : Outcome (Option (CoordMap Rat)) := do
  let m ← affFromString s
  match m with
  | some m => do
    let c ← CoordMap.new m
    .ok (some c)
  | Option.none => .ok Option.none

/-! ### The text of an operator -/

/-- `Display` of a non-negative `BigRational` in lowest terms (num-rational 0.4.1, used in parse_table.rs:95). -/
def ratText (q : Rat) : List Char :=
  if q.den = 1 then Nat.toDigits 10 q.num.natAbs
  else Nat.toDigits 10 q.num.natAbs ++ '/' :: Nat.toDigits 10 q.den

/-- `BigRational::abs` -/
def absRat (q : Rat) : Rat := if q < 0 then -q else q

/-- One part (parse_table.rs:89-97); `k` is its number. -/
def partText (k : Nat) (val : Rat) (axis : List Char) : List Char :=
  (if k > 0 ∧ val > 0 then ['+'] else if val < 0 then ['-'] else []) ++
  (if absRat val ≠ 1 then ratText (absRat val) else []) ++ axis

/-- The loop over the parts (parse_table.rs:88-98). -/
def partsText : Nat → List (Rat × List Char) → List Char
  | _, [] => []
  | k, p :: rest => partText k p.1 p.2 ++ partsText (k + 1) rest

/-- `write_op_row` (parse_table.rs:73-102); the row has at most three entries, otherwise `["x", "y", "z"][j]` panics. -/
def writeOpRow (row : List Rat) (scalar : Rat) : List Char :=
  let parts := ((row.zip [['x'], ['y'], ['z']]) ++ [(scalar, [])]).filter (fun p => decide (p.1 ≠ 0))
  if parts = [] then ['0'] else partsText 0 parts

/-- `write_op` for dimension at most 3 (parse_table.rs:51-70), on the rows and the shift. -/
def writeRows : Nat → List (List Rat) → List Rat → List Char
  | i, row :: rows, s :: shift =>
    (if i > 0 then [','] else []) ++ writeOpRow row s ++ writeRows (i + 1) rows shift
  | _, _, _ => []

/-- `write_op` (parse_table.rs:51-70) for dimension at most 3. -/
def writeOp (op : AffineMap Rat) : Outcome (List Char) := do
  let rows ← omap op.linear.getRow (List.range op.dim)
  let ss ← omap (fun i => vecGet op.shift.coords.data i) (List.range op.dim)
  .ok (writeRows 0 rows ss)

end Systre.ParseOperator
