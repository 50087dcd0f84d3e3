import Mathlib.LinearAlgebra.Matrix.SchurComplement
import Mathlib.LinearAlgebra.Matrix.NonsingularInverse
import Mathlib.Algebra.BigOperators.Fin
import Mathlib.Algebra.Order.Ring.Rat
import Mathlib.Tactic.Ring
import Mathlib.Tactic.Linarith
import Mathlib.Tactic.Positivity
import Verif.Spec.Geometry

/-! Sylvester's criterion over ℚ. -/

namespace Systre
open Matrix

/-- upper left block of size `n` -/
def lead1 {n : Nat} (M : Matrix (Fin (n+1)) (Fin (n+1)) ℚ) : Matrix (Fin n) (Fin n) ℚ :=
  fun i j => M i.castSucc j.castSucc

theorem quad_split {n : Nat} (M : Matrix (Fin (n+1)) (Fin (n+1)) ℚ) (hM : M.IsSymm) (z : Fin (n+1) → ℚ) :
    z ⬝ᵥ M.mulVec z = (fun i : Fin n => z i.castSucc) ⬝ᵥ (lead1 M).mulVec (fun i : Fin n => z i.castSucc)
      + 2 * z (Fin.last n) * ((fun i : Fin n => M i.castSucc (Fin.last n)) ⬝ᵥ (fun i => z i.castSucc))
      + z (Fin.last n) ^ 2 * M (Fin.last n) (Fin.last n) := by
  have hs : ∀ i j, M i j = M j i := fun i j => (hM.apply i j).symm
  simp only [dotProduct, mulVec, Fin.sum_univ_castSucc, lead1, mul_add, Finset.sum_add_distrib]
  have h1 : ∑ x : Fin n, z x.castSucc * (M x.castSucc (Fin.last n) * z (Fin.last n)) =
      z (Fin.last n) * ∑ x : Fin n, M x.castSucc (Fin.last n) * z x.castSucc := by
    rw [Finset.mul_sum]; exact Finset.sum_congr rfl fun x _ => by ring
  have h2 : ∑ x : Fin n, M (Fin.last n) x.castSucc * z x.castSucc =
      ∑ x : Fin n, M x.castSucc (Fin.last n) * z x.castSucc :=
    Finset.sum_congr rfl fun x _ => by rw [hs]
  rw [h1, h2]; ring

theorem posDef_lead {n : Nat} {M : Matrix (Fin (n+1)) (Fin (n+1)) ℚ} (h : PosDefQ M) :
    PosDefQ (lead1 M) := by
  intro x hx
  have hz : (Fin.snoc x 0 : Fin (n+1) → ℚ) ≠ 0 := by
    intro h0; apply hx; ext i
    have := congrFun h0 i.castSucc
    simpa using this
  have := h _ hz
  simpa [dotProduct, mulVec, Fin.sum_univ_castSucc, lead1] using this

theorem isSymm_lead {n : Nat} {M : Matrix (Fin (n+1)) (Fin (n+1)) ℚ} (h : M.IsSymm) :
    (lead1 M).IsSymm := by
  ext i j; simp only [lead1, transpose_apply]; exact h.apply _ _

theorem det_split {n : Nat} (M : Matrix (Fin (n+1)) (Fin (n+1)) ℚ) (hM : M.IsSymm)
    (hA : (lead1 M).det ≠ 0) :
    M.det = (lead1 M).det * (M (Fin.last n) (Fin.last n) -
      (fun i : Fin n => M i.castSucc (Fin.last n)) ⬝ᵥ
        ((lead1 M)⁻¹.mulVec (fun i : Fin n => M i.castSucc (Fin.last n)))) := by
  have hs : ∀ i j, M i j = M j i := fun i j => (hM.apply i j).symm
  have hu : IsUnit (lead1 M).det := isUnit_iff_ne_zero.2 hA
  let e : Fin n ⊕ Fin 1 ≃ Fin (n+1) := finSumFinEquiv
  rw [← Matrix.det_submatrix_equiv_self e M]
  have : Invertible (lead1 M) := Matrix.invertibleOfIsUnitDet _ hu
  have hb : M.submatrix e e = fromBlocks (lead1 M)
      (Matrix.of fun i (_ : Fin 1) => M i.castSucc (Fin.last n))
      (Matrix.of fun (_ : Fin 1) j => M j.castSucc (Fin.last n))
      (Matrix.of fun (_ _ : Fin 1) => M (Fin.last n) (Fin.last n)) := by
    ext i j
    have hl : ∀ k : Fin 1, Fin.natAdd n k = Fin.last n := fun k => by ext; simp
    rcases i with i | i <;> rcases j with j | j <;> simp [e, lead1, hl] <;> first | rfl | exact hs _ _
  rw [hb, Matrix.det_fromBlocks₁₁]
  congr 1
  rw [Matrix.det_fin_one, Matrix.invOf_eq_nonsing_inv, Matrix.mul_assoc]
  rfl

theorem posDef_iff_lead {n : Nat} (M : Matrix (Fin (n+1)) (Fin (n+1)) ℚ) (hM : M.IsSymm)
    (hA : PosDefQ (lead1 M)) (hd : 0 < (lead1 M).det) : PosDefQ M ↔ 0 < M.det := by
  set b : Fin n → ℚ := fun i => M i.castSucc (Fin.last n) with hbdef
  set x := (lead1 M)⁻¹.mulVec b with hx
  set δ := M (Fin.last n) (Fin.last n) - b ⬝ᵥ x with hδ
  have hu : IsUnit (lead1 M).det := isUnit_iff_ne_zero.2 (ne_of_gt hd)
  have hAx : (lead1 M).mulVec x = b := by
    rw [hx, Matrix.mulVec_mulVec, Matrix.mul_nonsing_inv _ hu, Matrix.one_mulVec]
  have hdet : M.det = (lead1 M).det * δ := det_split M hM (ne_of_gt hd)
  have hsymm := isSymm_lead hM
  have hcomm : ∀ u v, u ⬝ᵥ (lead1 M).mulVec v = v ⬝ᵥ (lead1 M).mulVec u := by
    intro u v
    rw [Matrix.dotProduct_mulVec, ← Matrix.mulVec_transpose, hsymm.eq, dotProduct_comm]
  have key : ∀ z : Fin (n+1) → ℚ, z ⬝ᵥ M.mulVec z =
      ((fun i : Fin n => z i.castSucc) + z (Fin.last n) • x) ⬝ᵥ
        (lead1 M).mulVec ((fun i : Fin n => z i.castSucc) + z (Fin.last n) • x) +
      z (Fin.last n) ^ 2 * δ := by
    intro z
    rw [quad_split M hM z]
    set u : Fin n → ℚ := fun i => z i.castSucc
    set t := z (Fin.last n)
    rw [Matrix.mulVec_add, Matrix.mulVec_smul, hAx]
    simp only [add_dotProduct, dotProduct_add, smul_dotProduct, dotProduct_smul, smul_eq_mul]
    rw [hcomm x u, hAx, dotProduct_comm b u, dotProduct_comm x b]
    rw [hδ]; ring
  rw [hdet]
  constructor
  · intro h
    have hz : (Fin.snoc (-x) 1 : Fin (n+1) → ℚ) ≠ 0 := by
      intro h0
      have := congrFun h0 (Fin.last n)
      simp at this
    have := h _ hz
    rw [key] at this
    have h0 : ((fun i : Fin n => (Fin.snoc (-x) 1 : Fin (n+1) → ℚ) i.castSucc) +
        (Fin.snoc (-x) 1 : Fin (n+1) → ℚ) (Fin.last n) • x) = 0 := by
      ext i; simp
    rw [h0] at this
    simp at this
    positivity
  · intro h z hz
    have hδ0 : 0 < δ := by
      by_contra hn
      have := mul_nonpos_of_nonneg_of_nonpos hd.le (not_lt.1 hn)
      linarith
    rw [key]
    by_cases ht : z (Fin.last n) = 0
    · rw [ht]; simp only [zero_smul, add_zero, ne_eq, OfNat.ofNat_ne_zero, not_false_eq_true, zero_pow,
        zero_mul]
      apply hA
      intro h0; apply hz; ext i
      refine Fin.lastCases ht (fun j => ?_) i
      exact congrFun h0 j
    · have : 0 < z (Fin.last n) ^ 2 * δ := by positivity
      have h2 : 0 ≤ ((fun i : Fin n => z i.castSucc) + z (Fin.last n) • x) ⬝ᵥ
        (lead1 M).mulVec ((fun i : Fin n => z i.castSucc) + z (Fin.last n) • x) := by
        by_cases h0 : ((fun i : Fin n => z i.castSucc) + z (Fin.last n) • x) = 0
        · rw [h0]; simp
        · exact (hA _ h0).le
      linarith

/-- leading principal block of size `k` -/
def leadK {T : Type} {n : Nat} (M : Matrix (Fin n) (Fin n) T) (k : Nat) (hk : k ≤ n) : Matrix (Fin k) (Fin k) T :=
  fun i j => M (i.castLE hk) (j.castLE hk)

theorem posDef_det_pos {n : Nat} (M : Matrix (Fin n) (Fin n) ℚ) (hM : M.IsSymm) :
    PosDefQ M → 0 < M.det := by
  induction n with
  | zero => intro _; simp
  | succ n ih =>
    intro h
    have hl := posDef_lead h
    exact (posDef_iff_lead M hM hl (ih _ (isSymm_lead hM) hl)).1 h

theorem sylvester {n : Nat} (M : Matrix (Fin n) (Fin n) ℚ) (hM : M.IsSymm) :
    PosDefQ M ↔ ∀ k (hk : k ≤ n), 0 < k → 0 < (leadK M k hk).det := by
  induction n with
  | zero =>
    constructor
    · intro _ k hk h0; omega
    · intro _ x hx; exact absurd (Subsingleton.elim x 0) hx
  | succ n ih =>
    have hlk : ∀ k (hk : k ≤ n), leadK M k (by omega) = leadK (lead1 M) k hk := by
      intro k hk; rfl
    have hfull : leadK M (n+1) le_rfl = M := rfl
    constructor
    · intro h k hk h0
      rcases Nat.lt_or_eq_of_le hk with h1 | h1
      · rw [hlk k (by omega)]
        exact (ih _ (isSymm_lead hM)).1 (posDef_lead h) k (by omega) h0
      · subst h1
        exact posDef_det_pos M hM h
    · intro h
      have hA : PosDefQ (lead1 M) := by
        rw [ih _ (isSymm_lead hM)]
        intro k hk h0
        rw [← hlk k hk]; exact h k (by omega) h0
      refine (posDef_iff_lead M hM hA (posDef_det_pos _ (isSymm_lead hM) hA)).2 ?_
      exact h (n+1) le_rfl (by omega)

end Systre
