import Verif.Model.Geometry
import Verif.Spec.Matrices
import Mathlib.Data.Matrix.Basic
import Mathlib.Data.Matrix.Mul
import Mathlib.Data.Rat.Defs

/-! # Specification of vectors, points, affine maps and scalar products -/

namespace Systre

variable {T : Type} {n : Nat}

/-- `v` is the column vector with the coordinates `x`. -/
def IsVec (v : Vec T) (x : Fin n → T) : Prop := Rep v.coords (Matrix.of (fun i (_ : Fin 1) => x i))

/-- `p` is the point with the coordinates `x`. -/
def IsPt (p : Pt T) (x : Fin n → T) : Prop := Rep p.coords (Matrix.of (fun i (_ : Fin 1) => x i))

/-- `a` is the affine map `x ↦ A x + s`. -/
def IsAff (a : AffineMap T) (A : Matrix (Fin n) (Fin n) T) (s : Fin n → T) : Prop :=
  Rep a.linear A ∧ IsVec a.shift s

/-- `c` is an invertible change of coordinates `x ↦ A x + s` with inverse `y ↦ B y + t`. -/
def IsCoordMap [CommRing T] (c : CoordMap T) (A B : Matrix (Fin n) (Fin n) T) (s t : Fin n → T) : Prop :=
  IsAff c.forward A s ∧ IsAff c.backward B t ∧ A * B = 1 ∧ B * A = 1 ∧
    (∀ y, A.mulVec (B.mulVec y + t) + s = y) ∧ (∀ x, B.mulVec (A.mulVec x + s) + t = x)

/-- positive definite: `xᵀ M x > 0` for `x ≠ 0` -/
def PosDefQ (M : Matrix (Fin n) (Fin n) Rat) : Prop := ∀ x : Fin n → Rat, x ≠ 0 → 0 < x ⬝ᵥ M.mulVec x

/-- the same for integer vectors and matrices -/
def PosDefZ (M : Matrix (Fin n) (Fin n) Int) : Prop := ∀ x : Fin n → Int, x ≠ 0 → 0 < x ⬝ᵥ M.mulVec x

/-- Coordinate maps that a program can build in dimension `n`. -/
inductive BuiltCoordMap [CommRing T] [Scalar T] [DecidableEq T] (n : Nat) : CoordMap T → Prop
  | new {a : AffineMap T} {A : Matrix (Fin n) (Fin n) T} {s : Fin n → T} {c : CoordMap T} :
      IsAff a A s → CoordMap.new a = .ok c → BuiltCoordMap n c
  | identity {c : CoordMap T} : CoordMap.identity n = .ok c → BuiltCoordMap n c
  | fromBasis {bs : List (Vec T)} {c : CoordMap T} :
      bs.length = n → (∀ b ∈ bs, ∃ x : Fin n → T, IsVec b x) →
      CoordMap.fromBasis bs = .ok c → BuiltCoordMap n c
  | toBasis {bs : List (Vec T)} {c : CoordMap T} :
      bs.length = n → (∀ b ∈ bs, ∃ x : Fin n → T, IsVec b x) →
      CoordMap.toBasis bs = .ok c → BuiltCoordMap n c
  | inverse {c : CoordMap T} : BuiltCoordMap n c → BuiltCoordMap n c.inverse
  | mul {c d e : CoordMap T} : BuiltCoordMap n c → BuiltCoordMap n d → CoordMap.mul c d = .ok e →
      BuiltCoordMap n e

end Systre
