import Verif.Spec.Placement
import Mathlib.Data.Matrix.Mul
import Mathlib.Data.Real.Basic

/-!
# Specification of C85: the sum of the squared edge lengths
-/

namespace Systre

open Matrix

variable {T : Type} [LabelVector T]

/-- The vector of an edge when the vertex `v` is at the point `pos v` with real coordinates, in the given lattice. -/
def realEdgeVec (pos : Nat → Fin (LabelVector.dim T) → ℝ) (e : Edge T) : Fin (LabelVector.dim T) → ℝ :=
  fun k => pos e.tail k + ((rent (LabelVector.toVec e.shift) k.1 : ℤ) : ℝ) - pos e.head k

/-- The sum of the squares of the lengths of the edges, when the scalar product of the unit vectors is `Q`. -/
def energy (Q : Matrix (Fin (LabelVector.dim T)) (Fin (LabelVector.dim T)) ℝ) (E : List (Edge T))
    (pos : Nat → Fin (LabelVector.dim T) → ℝ) : ℝ :=
  (E.map (fun e => realEdgeVec pos e ⬝ᵥ (Q *ᵥ realEdgeVec pos e))).sum

/-- A scalar product: symmetric and positive definite. -/
structure IsScalarProduct {d : Nat} (Q : Matrix (Fin d) (Fin d) ℝ) : Prop where
  symm : Q.transpose = Q
  pos : ∀ x, x ≠ 0 → 0 < x ⬝ᵥ (Q *ᵥ x)

end Systre
