import Verif.Model.PGraphs
import Verif.Model.ParseTable

/-!
# Model of the `Display` implementations

A text is a list of characters; `write!` to a `String` does not fail.
-/

namespace Systre

/-- `std::fmt::Display` -/
class Shown (T : Type) where
  text : T → List Char

/-- `Display` of `i32`, `i64` and `BigInt`. -/
def intText (z : Int) : List Char := (if z < 0 then ['-'] else []) ++ Nat.toDigits 10 z.natAbs

/-- `Display` of `BigRational` (num-rational 0.4.1). -/
def rationalText (q : Rat) : List Char :=
  if q.den = 1 then intText q.num else intText q.num ++ '/' :: Nat.toDigits 10 q.den

instance : Shown Int := ⟨intText⟩
instance : Shown Rat := ⟨rationalText⟩

/-- `Display for LabelVector2d` (pgraphs.rs:106-110). -/
def V2.text (v : V2) : List Char := ['('] ++ intText v.x ++ [',', ' '] ++ intText v.y ++ [')']

/-- `Display for LabelVector3d` (pgraphs.rs:203-207). -/
def V3.text (v : V3) : List Char :=
  ['('] ++ intText v.x ++ [',', ' '] ++ intText v.y ++ [',', ' '] ++ intText v.z ++ [')']

instance : Shown V2 := ⟨V2.text⟩
instance : Shown V3 := ⟨V3.text⟩

section
variable {T : Type} [Shown T]

/-- `Display for Edge` (pgraphs.rs:267-275). -/
def Edge.text (e : Edge T) : List Char :=
  Nat.toDigits 10 e.head ++ [' ', '-', '-'] ++ Shown.text e.shift ++ ['-', '>', ' '] ++ Nat.toDigits 10 e.tail

/-- `Display for Graph` (pgraphs.rs:524-537). -/
def Graph.text (g : Graph T) : List Char := g.edges.flatMap (fun e => e.text ++ ['\n'])

/-- `Display for Matrix` (matrices.rs:51-64). -/
def Mat.text (m : Mat T) : Outcome (List Char) := do
  let rows ← omap (fun i => do
    let cells ← omap (fun j => do
      let x ← m.get i j
      .ok (' ' :: Shown.text x)) (List.range m.ncols)
    .ok (cells.flatten ++ ['\n'])) (List.range m.nrows)
  .ok rows.flatten

/-- `Display for Vector` (geometry.rs:40-44). -/
def Vec.text (v : Vec T) : Outcome (List Char) := v.coords.text

/-- `Display for Point` (geometry.rs:304-308). -/
def Pt.text (p : Pt T) : Outcome (List Char) := p.coords.text

/-- `Display for ScalarProduct` (geometry.rs:488-492). -/
def ScalarProduct.text (p : ScalarProduct T) : Outcome (List Char) := p.coeffs.text

/-- `Display for AffineMap` (geometry.rs:559-574); `t[i]` is `coords[(i, 0)]` (geometry.rs:49-51). -/
def AffineMap.text (a : AffineMap T) : Outcome (List Char) := do
  let rows ← omap (fun i => do
    let cells ← omap (fun j => do
      let x ← a.linear.get i j
      .ok (' ' :: Shown.text x)) (List.range a.dim)
    let t ← a.shift.coords.get i 0
    .ok (cells.flatten ++ [' ', ' ', ' ', ' '] ++ Shown.text t ++ ['\n'])) (List.range a.dim)
  .ok rows.flatten

/-- `Display for CoordinateMap` (geometry.rs:725-729). -/
def CoordMap.text (c : CoordMap T) : Outcome (List Char) := c.forward.text

end

namespace Table
open ParseOperator

/-- `write_op` (parse_table.rs:51-70). -/
def writeOpAny (op : AffineMap Rat) : Outcome (List Char) :=
  if op.dim > 3 then do
    let t ← op.text
    .ok (t ++ ['\n'])
  else writeOp op

/-- `Display for TableEntry` (parse_table.rs:34-48). -/
def TableEntry.text (e : TableEntry) : Outcome (List Char) := do
  let t ← writeOpAny e.transform.forward
  let ops ← omap (fun op => do
    let t ← writeOpAny op
    .ok (t ++ ['\n'])) e.operators
  .ok ("Setting Name: ".toList ++ e.name ++ ['\n'] ++ "Group name: ".toList ++ e.canonicalName ++ ['\n'] ++
    "Transform: ".toList ++ t ++ ['\n'] ++ "Operators:".toList ++ ['\n'] ++ ops.flatten)

/-- `Display for Lookup` (parse_table.rs:113-123). -/
def Lookup.text (l : Lookup) : Outcome (List Char) := do
  let t ← writeOpAny l.fromStd.forward
  .ok ("Lookup name: ".toList ++ l.name ++ ['\n'] ++ "Crystal system: ".toList ++ systemText l.system ++ ['\n'] ++
    "Centering: ".toList ++ l.centering.text ++ ['\n'] ++ "Transform: ".toList ++ t ++ ['\n'])

end Table
end Systre
