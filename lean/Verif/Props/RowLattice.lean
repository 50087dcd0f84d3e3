import Verif.Props.LinearAlgebra
import Mathlib.LinearAlgebra.Matrix.ToLinearEquiv
import Mathlib.LinearAlgebra.Matrix.Block

/-!
# C11, continued: the index of a row lattice (`reduced_basis`, src/arithmetic/linear_algebra.rs)
-/

namespace Systre
open Submodule

/-- C11: for a square matrix whose determinant is not zero, the result is an upper triangular square matrix with
positive numbers in the diagonal, and their product is the absolute value of the determinant (the index of the
row lattice). -/
theorem C11_determinant {m : Mat Int} {n : Nat} {M : Matrix (Fin n) (Fin n) Int} (h : Rep m M) (hd : M.det ≠ 0) :
    ∃ (m' : Mat Int) (N : Matrix (Fin n) (Fin n) Int), reducedBasis m = .ok m' ∧ RepRows m' N ∧
      (∀ i j, j < i → N i j = 0) ∧ (∀ i, 0 < N i i) ∧ ∏ i, N i i = |M.det| := by
  obtain ⟨m', k, N, p, h1, h2, hE, h3, h4, -⟩ := C11_reduced_int_partial h
  have hMi : LinearIndependent Int M.row := by
    rw [Fintype.linearIndependent_iff]
    intro g hg
    have : Matrix.vecMul g M = 0 := by
      rw [← hg]
      ext j
      simp [Matrix.vecMul, dotProduct, Finset.sum_apply, Matrix.row]
    exact congrFun (Matrix.eq_zero_of_vecMul_eq_zero hd this)
  have hkn : k = n := by
    apply le_antisymm
    · simpa using Fintype.card_le_of_injective p hE.right.injective
    · have a := finrank_span_eq_card hMi
      have b := finrank_range_le_card (R := Int) N.row
      rw [Set.finrank, h3, a] at b
      simpa using b
  subst hkn
  have hcomb : ∀ {P Q : Matrix (Fin k) (Fin k) Int}, span Int (Set.range P.row) ≤ span Int (Set.range Q.row) →
      ∃ U : Matrix (Fin k) (Fin k) Int, P = U * Q := by
    intro P Q hPQ
    have : ∀ i, ∃ c : Fin k → Int, ∑ l, c l • Q.row l = P.row i := fun i =>
      (mem_span_range_iff_exists_fun Int).1 (hPQ (subset_span (Set.mem_range_self i)))
    choose c hc using this
    refine ⟨Matrix.of c, ?_⟩
    ext i j
    have := congrFun (hc i) j
    simp only [Finset.sum_apply, Pi.smul_apply, smul_eq_mul, Matrix.row] at this
    rw [← this, Matrix.mul_apply]
    rfl
  obtain ⟨A, hA⟩ := hcomb h3.le
  obtain ⟨B, hB⟩ := hcomb h3.ge
  have hle : ∀ i : Fin k, i ≤ p i := fun i => hE.right.le_apply
  have hup : ∀ i j, j < i → N i j = 0 := fun i j hij => hE.before i j (hij.trans_le (hle i))
  have hdet : N.det = ∏ i, N i i := Matrix.det_of_isUpperTriangular (fun i j hij => hup i j hij)
  have hAB : A.det * B.det = 1 := by
    have a := congrArg Matrix.det hA
    have b := congrArg Matrix.det hB
    rw [Matrix.det_mul] at a b
    rw [a] at b
    have : M.det * (A.det * B.det) = M.det * 1 := by rw [mul_one]; nth_rewrite 2 [b]; ring
    exact mul_left_cancel₀ hd this
  have hA1 : |A.det| = 1 := Int.isUnit_iff_abs_eq.1 (IsUnit.of_mul_eq_one _ hAB)
  have habs : |N.det| = |M.det| := by rw [hA, Matrix.det_mul, abs_mul, hA1, one_mul]
  have hN0 : N.det ≠ 0 := by
    rw [← abs_pos, habs, abs_pos]; exact hd
  have hdiag : ∀ i, 0 < N i i := by
    intro i
    have hne : N i i ≠ 0 := by
      rw [hdet] at hN0
      exact Finset.prod_ne_zero_iff.1 hN0 i (Finset.mem_univ _)
    have : p i = i := le_antisymm (not_lt.1 fun hlt => hne (hE.before i i hlt)) (hle i)
    have := h4 i
    rwa [‹p i = i›] at this
  refine ⟨m', N, h1, h2, hup, hdiag, ?_⟩
  rw [← habs, ← hdet, abs_of_pos]
  rw [hdet]
  exact Finset.prod_pos fun i _ => hdiag i

example : (!![4, 2; 6, 5] : Matrix (Fin 2) (Fin 2) Int).det = 8 ∧
    reducedBasis (⟨2, 2, [4, 2, 6, 5]⟩ : Mat Int) = .ok ⟨2, 2, [2, 3, 0, 4]⟩ := by decide

end Systre
