import Verif.Spec.Geometry
import Verif.Spec.LinearAlgebra
import Mathlib.LinearAlgebra.Span.Basic
import Mathlib.LinearAlgebra.LinearIndependent.Defs
import Mathlib.Algebra.Module.Rat
import Mathlib.LinearAlgebra.Matrix.Symmetric

/-! # Specification of lattices and scalar products -/

namespace Systre

/-- `dot` computes a positive definite symmetric bilinear form on vectors of length `d`. -/
def IsDot (d : Nat) (dot : List Rat → List Rat → Rat) : Prop :=
  ∃ G : Matrix (Fin d) (Fin d) Rat, G.IsSymm ∧ PosDefQ G ∧
    ∀ v w, v.length = d → w.length = d → dot v w = rowVec d v ⬝ᵥ G.mulVec (rowVec d w)

/-- all integer combinations of the vectors `vs` -/
def latticeOf (d : Nat) (vs : List (List Rat)) : Submodule ℤ (Fin d → ℚ) :=
  Submodule.span ℤ (rowVec d '' {v | v ∈ vs})

/-- linearly independent over ℚ, as a list -/
def Indep (d : Nat) (vs : List (List Rat)) : Prop :=
  LinearIndependent ℚ (fun i : Fin vs.length => rowVec d vs[i.1])

/-- the vectors with integer coordinates -/
def integerVectors (d : Nat) : Set (Fin d → ℚ) := {x | ∃ z : Fin d → ℤ, ∀ i, x i = z i}

end Systre
