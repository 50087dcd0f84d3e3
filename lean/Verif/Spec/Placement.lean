import Verif.Spec.Barycentric
import Mathlib.Data.Rat.Floor

/-!
# Specification: edge vectors and collisions of a placement

`pos v k` is the `k`-th coordinate of vertex `v`.
-/

namespace Systre

variable {T : Type} [LabelVector T]

/-- The vector from the head of `e` to its tail. -/
def edgeVec (pos : Nat → Fin (LabelVector.dim T) → ℚ) (e : Edge T) : Fin (LabelVector.dim T) → ℚ :=
  fun k => pos e.tail k + ((rent (LabelVector.toVec e.shift) k.1 : ℤ) : ℚ) - pos e.head k

/-- Two points differ by an integer vector. -/
def SameModLattice {d : Nat} (x y : Fin d → ℚ) : Prop := ∃ z : Fin d → ℤ, ∀ k, x k - y k = (z k : ℚ)

/-- `position(v)` returns `pos v` for all vertices of the graph. -/
def Places (tb : Outcome PosTable) (g : Graph T) (pos : Nat → Fin (LabelVector.dim T) → ℚ) : Prop :=
  ∀ v ∈ g.vertices, positionIn tb v = .ok (List.ofFn (pos v))

end Systre
