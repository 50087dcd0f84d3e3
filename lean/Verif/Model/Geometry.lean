import Verif.Model.LinearAlgebra

/-!
# Model of `src/arithmetic/geometry.rs`

`Vector` and `Point` wrap a column matrix, as in the code. The phantom coordinate system types are
dropped (they only restrict which programs compile), so `adjust` (geometry.rs:625-630) is the identity.
By-value, by-reference and `*Assign` variants of an operator are one function. `Display` and the
iterators are not modelled.
-/

namespace Systre

/-- `struct Vector` (geometry.rs:20-24). -/
structure Vec (T : Type) where
  coords : Mat T
deriving DecidableEq, Repr

/-- `struct Point` (geometry.rs:284-288). -/
structure Pt (T : Type) where
  coords : Mat T
deriving DecidableEq, Repr

namespace Vec
variable {T : Type}

/-- `Vector::dim` (geometry.rs:27-29). -/
def dim (v : Vec T) : Nat := v.coords.nrows

/-- `Vector::new` (geometry.rs:73-78), also `FromIterator` (60-64). -/
def new (coords : List T) : Outcome (Vec T) := do
  let m ← Mat.col coords
  .ok ⟨m⟩

/-- `Vector::zero` (geometry.rs:82-84). -/
def zero [Zero T] (dim : Nat) : Outcome (Vec T) := new (List.replicate dim 0)

/-- `Index<usize>` (geometry.rs:46-52): `&self.coords[(i, 0)]`. -/
def get (v : Vec T) (i : Nat) : Outcome T := v.coords.get i 0

/-- `IndexMut<usize>` (geometry.rs:54-58) used as `v[i] = x`. -/
def set (v : Vec T) (i : Nat) (x : T) : Outcome (Vec T) := do
  let m ← v.coords.set i 0 x
  .ok ⟨m⟩

/-- `Vector::unit` (geometry.rs:88-93). -/
def unit [Zero T] [One T] (n k : Nat) : Outcome (Vec T) := do
  rassert (decide (k < n))
  let v ← zero n
  v.set k 1

/-- `Neg` (geometry.rs:97-115). -/
def neg [Neg T] (v : Vec T) : Outcome (Vec T) := do
  let m ← v.coords.neg
  .ok ⟨m⟩

/-- `Add` (geometry.rs:127-165). -/
def add [Add T] (v w : Vec T) : Outcome (Vec T) := do
  rassert (decide (v.dim = w.dim))
  let m ← v.coords.add w.coords
  .ok ⟨m⟩

/-- `Sub` (geometry.rs:167-205). -/
def sub [Sub T] (v w : Vec T) : Outcome (Vec T) := do
  rassert (decide (v.dim = w.dim))
  let m ← v.coords.sub w.coords
  .ok ⟨m⟩

/-- `Mul` by a scalar (geometry.rs:207-243). -/
def smul [Mul T] (v : Vec T) (c : T) : Vec T := ⟨v.coords.smul c⟩

/-- `Div` by a scalar (geometry.rs:245-282), see `Mat.divScalar`. -/
def divScalar (quo : T → T → Outcome T) (v : Vec T) (c : T) : Outcome (Vec T) := do
  let m ← v.coords.divScalar quo c
  .ok ⟨m⟩

end Vec

namespace Pt
variable {T : Type}

/-- `Point::dim` (geometry.rs:291-293). -/
def dim (p : Pt T) : Nat := p.coords.nrows

/-- `Point::new` (geometry.rs:337-342). -/
def new (coords : List T) : Outcome (Pt T) := do
  let m ← Mat.col coords
  .ok ⟨m⟩

/-- `Point::origin` (geometry.rs:346-348). -/
def origin [Zero T] (dim : Nat) : Outcome (Pt T) := new (List.replicate dim 0)

/-- `Point + Vector` (geometry.rs:351-389). -/
def add [Add T] (p : Pt T) (v : Vec T) : Outcome (Pt T) := do
  rassert (decide (p.dim = v.dim))
  let m ← p.coords.add v.coords
  .ok ⟨m⟩

/-- `Point - Vector` (geometry.rs:391-429). -/
def subVec [Sub T] (p : Pt T) (v : Vec T) : Outcome (Pt T) := do
  rassert (decide (p.dim = v.dim))
  let m ← p.coords.sub v.coords
  .ok ⟨m⟩

/-- `Point - Point` (geometry.rs:431-473): the result is a new column of the data. -/
def sub [Sub T] (p q : Pt T) : Outcome (Vec T) := do
  let m ← p.coords.sub q.coords
  Vec.new m.data

end Pt

/-- `x % 1` for rationals: `num-rational` reduces to the remainder of the numerators, which truncates
towards zero (the sign of the result is that of `x`). -/
def rem1 (q : Rat) : Rat := (Int.tmod q.num q.den : Rat) / (q.den : Rat)

/-- `Vector::mod_z` (geometry.rs:121-123). -/
def Vec.modZ (v : Vec Rat) : Outcome (Vec Rat) := Vec.new (v.coords.data.map rem1)

/-- `struct ScalarProduct` (geometry.rs:476-480). -/
structure ScalarProduct (T : Type) where
  coeffs : Mat T
deriving DecidableEq, Repr

namespace ScalarProduct

section
variable {T : Type} [Zero T] [One T] [Add T] [Neg T] [Sub T] [Mul T] [Scalar T] [DecidableEq T] [LT T] [DecidableLT T]

/-- The loop over the leading principal minors (geometry.rs:509-511). -/
def minorsLoop (coeffs : Mat T) : List Nat → Outcome Unit
  | [] => .ok ()
  | i :: is => do
    let s ← coeffs.submatrix 0 i 0 i
    let d ← determinant s
    rassert (decide (0 < d))
    minorsLoop coeffs is

/-- `From<Matrix<T>>` (geometry.rs:502-515). -/
def ofMat (coeffs : Mat T) : Outcome (ScalarProduct T) := do
  let t ← coeffs.transpose
  rassert (decide (coeffs = t))
  minorsLoop coeffs ((List.range coeffs.nrows).map (· + 1))
  .ok ⟨coeffs⟩

end

/-- `ScalarProduct::default` (geometry.rs:518-523). -/
def default {T : Type} [Zero T] [One T] (dim : Nat) : Outcome (ScalarProduct T) := do
  let m ← Mat.identity dim
  .ok ⟨m⟩

/-- `ScalarProduct::apply` (geometry.rs:532-543): the two nested loops accumulate from zero. -/
def apply {T : Type} [Zero T] [Add T] [Mul T] (d : ScalarProduct T) (u v : Vec T) : Outcome T := do
  rassert (decide (u.dim = d.coeffs.nrows))
  rassert (decide (v.dim = d.coeffs.nrows))
  let ts ← grid u.dim u.dim (fun i j => do
    let ui ← u.get i
    let c ← d.coeffs.get i j
    let vj ← v.get j
    .ok (ui * c * vj))
  .ok (ts.foldl (· + ·) 0)

end ScalarProduct

/-- `struct AffineMap` (geometry.rs:547-551). -/
structure AffineMap (T : Type) where
  linear : Mat T
  shift : Vec T
deriving DecidableEq, Repr

namespace AffineMap
variable {T : Type}

/-- `AffineMap::dim` (geometry.rs:554-556). -/
def dim (a : AffineMap T) : Nat := a.shift.dim

/-- `AffineMap::new` (geometry.rs:577-587). -/
def new (linear : Mat T) (shift : Vec T) : Outcome (AffineMap T) := do
  rassert (decide (linear.nrows = shift.dim))
  rassert (decide (linear.ncols = shift.dim))
  .ok ⟨linear, shift⟩

/-- `AffineMap::identity` (geometry.rs:597-601). -/
def identity [Zero T] [One T] (dim : Nat) : Outcome (AffineMap T) := do
  let m ← Mat.identity dim
  let v ← Vec.zero dim
  new m v

/-- `AffineMap::is_identity` (geometry.rs:603-609). -/
def isIdentity [Zero T] [One T] [DecidableEq T] (a : AffineMap T) : Outcome Bool := do
  let b ← a.linear.isIdentity
  .ok (b && a.shift.coords.data.all (fun x => decide (x = 0)))

/-- `AffineMap::inverse` (geometry.rs:611-623). -/
def inverse [Zero T] [One T] [Add T] [Neg T] [Sub T] [Mul T] [Scalar T] [DecidableEq T] (a : AffineMap T) :
    Outcome (Option (AffineMap T)) := do
  let i ← Systre.inverse a.linear
  match i with
  | some m => do
    let sm ← m.mul a.shift.coords
    let s ← Vec.new sm.data
    let ns ← s.neg
    let r ← new m ns
    .ok (some r)
  | none => .ok none

/-- `From<Matrix>` (geometry.rs:633-637). -/
def ofMat [Zero T] (m : Mat T) : Outcome (AffineMap T) := do
  let v ← Vec.zero m.nrows
  new m v

/-- `AffineMap::mod_z` (geometry.rs:642-644). -/
def modZ (a : AffineMap Rat) : Outcome (AffineMap Rat) := do
  let s ← a.shift.modZ
  new a.linear s

/-- Composition (geometry.rs:647-662). -/
def mul [Zero T] [Add T] [Mul T] (a b : AffineMap T) : Outcome (AffineMap T) := do
  rassert (decide (a.dim = b.dim))
  let l ← a.linear.mul b.linear
  let lt ← a.linear.mul b.shift.coords
  let s ← lt.add a.shift.coords
  new l ⟨s⟩

/-- Application to a point (geometry.rs:664-674). -/
def applyPt [Zero T] [Add T] [Mul T] (a : AffineMap T) (p : Pt T) : Outcome (Pt T) := do
  let m ← a.linear.mul p.coords
  let m ← m.add a.shift.coords
  .ok ⟨m⟩

/-- Application to a vector (geometry.rs:676-684): the shift is ignored. -/
def applyVec [Zero T] [Add T] [Mul T] (a : AffineMap T) (v : Vec T) : Outcome (Vec T) := do
  let m ← a.linear.mul v.coords
  .ok ⟨m⟩

end AffineMap

/-- `struct CoordinateMap` (geometry.rs:707-711). -/
structure CoordMap (T : Type) where
  forward : AffineMap T
  backward : AffineMap T
deriving DecidableEq, Repr

namespace CoordMap

section
variable {T : Type} [Zero T] [One T] [Add T] [Neg T] [Sub T] [Mul T] [Scalar T] [DecidableEq T]

/-- `CoordinateMap::new` (geometry.rs:739-744), also `From<Matrix>` (789-801) after `AffineMap::from`. -/
def new (forward : AffineMap T) : Outcome (CoordMap T) := do
  let i ← forward.inverse
  let b ← unwrap i
  .ok ⟨forward, b⟩

/-- `CoordinateMap::identity` (geometry.rs:746-750). -/
def identity (dim : Nat) : Outcome (CoordMap T) := do
  let a ← AffineMap.identity dim
  new a

/-- `CoordinateMap::inverse` (geometry.rs:758-763). -/
def inverse (c : CoordMap T) : CoordMap T := ⟨c.backward, c.forward⟩

/-- `CoordinateMap::from_basis` (geometry.rs:765-770). -/
def fromBasis (basis : List (Vec T)) : Outcome (CoordMap T) := do
  let m ← Mat.hstack (basis.map Vec.coords)
  let a ← AffineMap.ofMat m
  new a

/-- `CoordinateMap::to_basis` (geometry.rs:772-776). -/
def toBasis (basis : List (Vec T)) : Outcome (CoordMap T) := do
  let c ← fromBasis basis
  .ok c.inverse

/-- `CoordinateMap::is_identity` (geometry.rs:752-756). -/
def isIdentity (c : CoordMap T) : Outcome Bool := c.forward.isIdentity

/-- `CoordinateMap::determinant` (geometry.rs:778-780). -/
def determinant (c : CoordMap T) : Outcome T := Systre.determinant c.forward.linear

/-- Composition (geometry.rs:796-816). -/
def mul (c d : CoordMap T) : Outcome (CoordMap T) := do
  let f ← c.forward.mul d.forward
  let b ← d.backward.mul c.backward
  .ok ⟨f, b⟩

/-- Application to a point (geometry.rs:818-829). -/
def applyPt (c : CoordMap T) (p : Pt T) : Outcome (Pt T) := c.forward.applyPt p

/-- Application to a vector (geometry.rs:831-842). -/
def applyVec (c : CoordMap T) (v : Vec T) : Outcome (Vec T) := c.forward.applyVec v

/-- Application to a scalar product (geometry.rs:844-857). -/
def applyDot [LT T] [DecidableLT T] (c : CoordMap T) (d : ScalarProduct T) : Outcome (ScalarProduct T) := do
  let t ← c.backward.linear.transpose
  let x ← t.mul d.coeffs
  let y ← x.mul c.backward.linear
  ScalarProduct.ofMat y

/-- Application to an affine map: change of coordinates (geometry.rs:859-875). -/
def applyAff (c : CoordMap T) (a : AffineMap T) : Outcome (AffineMap T) := do
  let x ← c.forward.mul a
  x.mul c.backward

end

end CoordMap

end Systre
