import Verif.Model.SpaceGroups
import Verif.Spec.Geometry
import Mathlib.LinearAlgebra.LinearIndependent.Basic
import Mathlib.LinearAlgebra.Matrix.ToLin
import Mathlib.Algebra.BigOperators.Intervals

/-! # Specification of groups of affine maps modulo integer translations -/

namespace Systre

/-- The affine map `x ↦ A x + s` as the pair `(A, s)`. -/
abbrev Op (n : Nat) := Matrix (Fin n) (Fin n) ℚ × (Fin n → ℚ)

/-- the identity -/
def Op.one {n : Nat} : Op n := (1, 0)

/-- composition: `(A, s) ∘ (B, t) = (A B, A t + s)` -/
def Op.comp {n : Nat} (p q : Op n) : Op n := (p.1 * q.1, p.1.mulVec q.2 + p.2)

/-- the composition of a list of maps, the first one is applied last -/
def Op.prod {n : Nat} (w : List (Op n)) : Op n := w.foldl Op.comp Op.one

/-- the same map up to an integer translation -/
def SameModZ {n : Nat} (p q : Op n) : Prop := p.1 = q.1 ∧ ∀ i, ∃ z : ℤ, p.2 i - q.2 i = z

/-- The program's affine maps `l` are the maps `os`, in this order. -/
def AreOps {n : Nat} (l : List (AffineMap Rat)) (os : List (Op n)) : Prop :=
  List.Forall₂ (fun a p => IsAff a p.1 p.2) l os

/-- a matrix with integer entries -/
def IsIntegral {n : Nat} (A : Matrix (Fin n) (Fin n) ℚ) : Prop := ∀ i j, ∃ z : ℤ, A i j = z

end Systre

namespace Systre

/-- The answer `r` describes the set of vectors `P`: either its columns, at least one, are a basis of it, or
it is `None` and `P` consists of zero only. -/
def IsBasisOf {n : Nat} (r : Option (Mat Rat)) (P : (Fin n → ℚ) → Prop) : Prop :=
  match r with
  | some x => ∃ (d : Nat) (X : Matrix (Fin n) (Fin d) ℚ), 0 < d ∧ Rep x X ∧ LinearIndependent ℚ X.col ∧
      ∀ y, P y ↔ ∃ g : Fin d → ℚ, y = X.mulVec g
  | none => ∀ y, P y ↔ y = 0

/-- The number of entries in and above the diagonal in the first `i` rows of a square matrix of size `n`. -/
def upperCount (n i : Nat) : Nat := ∑ k ∈ Finset.range i, (n - k)

/-- `g` lists the entries of the symmetric matrix `G` in and above the diagonal, row by row. -/
def IsUpper {n : Nat} (g : Fin (upperCount n n) → ℚ) (G : Matrix (Fin n) (Fin n) ℚ) : Prop :=
  G.transpose = G ∧ ∀ (i j : Fin n) (k : Fin (upperCount n n)), i ≤ j → k.1 = upperCount n i + (j - i) →
    g k = G i j

end Systre
