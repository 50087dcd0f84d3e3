import Verif.Model.Finder
import Verif.Spec.SpaceGroups
import Verif.Spec.LinearAlgebra
import Mathlib.LinearAlgebra.Matrix.Determinant.Basic
import Mathlib.GroupTheory.OrderOfElement
import Mathlib.LinearAlgebra.Span.Basic
import Mathlib.Algebra.Module.Rat

/-! # Specification of operator axes -/

namespace Systre

/-- the first non-zero coordinate is positive -/
def IsPositive {n : Nat} (v : Fin n → ℚ) : Prop := ∃ k, 0 < v k ∧ ∀ j < k, v j = 0

/-- The eigenvectors of `M` for `σ` are the multiples of the vector `v`, which is not zero. -/
def IsAxis {n : Nat} (M : Matrix (Fin n) (Fin n) ℚ) (σ : ℚ) (v : Fin n → ℚ) : Prop :=
  v ≠ 0 ∧ ∀ x, M.mulVec x = σ • x ↔ ∃ c : ℚ, x = c • v

/-- Which eigenvalue belongs to the axis: a rotoinversion in an odd dimension inverts its axis. -/
def axisSign {n : Nat} (M : Matrix (Fin n) (Fin n) ℚ) : ℚ := if n % 2 ≠ 0 ∧ M.det < 0 then -1 else 1

end Systre

namespace Systre

/-- The matrices in the list `Ms` form a group; they may be repeated. -/
structure IsFiniteGroupSet {n : Nat} (Ms : List (Matrix (Fin n) (Fin n) ℚ)) : Prop where
  nonempty : Ms ≠ []
  mul : ∀ A ∈ Ms, ∀ B ∈ Ms, A * B ∈ Ms
  det : ∀ A ∈ Ms, A.det ≠ 0

/-- The matrices `Ms`, all different, form a group. -/
structure IsFiniteGroup {n : Nat} (Ms : List (Matrix (Fin n) (Fin n) ℚ)) : Prop extends IsFiniteGroupSet Ms where
  nodup : Ms.Nodup

/-- The first two matrices with negative determinant in the list are equal, and the group has no rotation of order
above two. -/
def TwinMirrors (Ms : List (Matrix (Fin 2) (Fin 2) ℚ)) : Prop :=
  (∀ M ∈ Ms, orderOf M ≤ 2) ∧ ∃ M rest, Ms.filter (fun M => decide (M.det < 0)) = M :: M :: rest

end Systre

namespace Systre

/-- The lattice of translations: all integer combinations of the unit vectors and of the shifts of the pure
translations among `os`. -/
def translationLattice {n : Nat} (os : List (Op n)) : Submodule ℤ (Fin n → ℚ) :=
  Submodule.span ℤ ({x | ∃ k, x = Pi.single k 1} ∪ {s | ((1 : Matrix (Fin n) (Fin n) ℚ), s) ∈ os})

end Systre
