import Verif.Spec.Matrices
import Mathlib.Order.Monotone.Basic
import Mathlib.Algebra.Order.Ring.Rat

/-! # Specification for linear algebra: row vectors, pivots, echelon forms -/

namespace Systre

/-- A list read as a vector of length `n`. -/
def rowVec {T : Type} [Zero T] (n : Nat) (l : List T) : Fin n → T := fun i => l.getD i.1 0

/-- The rows of `N` are non-zero and their first non-zero entries, in columns `p`, move to the right. -/
structure IsEchelon {T : Type} [Zero T] {r c : Nat} (N : Matrix (Fin r) (Fin c) T) (p : Fin r → Fin c) :
    Prop where
  right : StrictMono p
  before : ∀ i j, j < p i → N i j = 0
  pivot : ∀ i, N i (p i) ≠ 0

/-- Reduced row echelon form: pivots are one and alone in their columns. -/
structure IsRREF {T : Type} [Zero T] [One T] {r c : Nat} (N : Matrix (Fin r) (Fin c) T) (p : Fin r → Fin c) : Prop
    extends IsEchelon N p where
  one : ∀ i, N i (p i) = 1
  alone : ∀ i i', i' ≠ i → N i' (p i) = 0

/-- `m` stores the rows of `N`; without rows it is the 0 × 0 matrix (that is what stacking an empty list
of rows gives). -/
def RepRows {T : Type} {r c : Nat} (m : Mat T) (N : Matrix (Fin r) (Fin c) T) : Prop :=
  (0 < r → Rep m N) ∧ (r = 0 → m = ⟨0, 0, []⟩)

end Systre
