import Verif.Lemmas.Restriction
import Mathlib.LinearAlgebra.Matrix.Determinant.Basic
import Mathlib.LinearAlgebra.Matrix.Notation
import Mathlib.LinearAlgebra.Matrix.NonsingularInverse
import Mathlib.GroupTheory.OrderOfElement
import Mathlib.Tactic.LinearCombination
import Mathlib.Tactic.Linarith

/-! Rational matrices of finite order that turn a plane. -/

namespace Systre
open Matrix

theorem ext2 {N P : Matrix (Fin 2) (Fin 2) ℚ} (h00 : N 0 0 = P 0 0) (h01 : N 0 1 = P 0 1)
    (h10 : N 1 0 = P 1 0) (h11 : N 1 1 = P 1 1) : N = P := by
  ext i j; fin_cases i <;> fin_cases j <;> assumption

theorem sq_two (N : Matrix (Fin 2) (Fin 2) ℚ) (hd : N.det = 1) : N * N = (N 0 0 + N 1 1) • N - 1 := by
  rw [det_fin_two] at hd
  apply ext2 <;> simp [mul_apply, Fin.sum_univ_two]
  · linear_combination -hd
  · ring
  · ring
  · linear_combination -hd

theorem rot2 (N : Matrix (Fin 2) (Fin 2) ℚ) (hd : N.det = 1) {k : Nat} (hk : 0 < k) (hN : N ^ k = 1)
    (h1 : N ≠ 1) (h2 : N ≠ -1) : (N 0 0 - N 1 1) ^ 2 + 4 * (N 0 1 * N 1 0) < 0 := by
  have hsq := sq_two N hd
  have hdet := hd
  rw [det_fin_two] at hdet
  set t := N 0 0 + N 1 1 with ht
  suffices h : t ^ 2 < 4 by
    have : (N 0 0 - N 1 1) ^ 2 + 4 * (N 0 1 * N 1 0) = t ^ 2 - 4 * (N 0 0 * N 1 1 - N 0 1 * N 1 0) := by rw [ht]; ring
    rw [this, hdet]; linarith
  have key : ∀ u w : ℚ, u • N + w • (1 : Matrix (Fin 2) (Fin 2) ℚ) = 1 → u = 0 ∧ w = 1 := by
    intro u w h
    have e01 := congrFun (congrFun h 0) 1
    have e10 := congrFun (congrFun h 1) 0
    have e00 := congrFun (congrFun h 0) 0
    have e11 := congrFun (congrFun h 1) 1
    simp at e01 e10 e00 e11
    by_cases hu : u = 0
    · subst hu; exact ⟨rfl, by simpa using e00⟩
    · have b0 := e01.resolve_left hu
      have c0 := e10.resolve_left hu
      have had : N 0 0 = N 1 1 := mul_left_cancel₀ hu (by linarith)
      rw [b0, c0, had] at hdet
      have : N 1 1 = 1 ∨ N 1 1 = -1 := by
        have : (N 1 1 - 1) * (N 1 1 + 1) = 0 := by linear_combination hdet
        rcases mul_eq_zero.1 this with h | h
        · left; linarith
        · right; linarith
      exfalso
      rcases this with h | h
      · exact h1 (ext2 (by simp [had, h]) (by simp [b0]) (by simp [c0]) (by simp [h]))
      · exact h2 (ext2 (by simp [had, h]) (by simp [b0]) (by simp [c0]) (by simp [h]))
  have mulN : ∀ u w : ℚ, (u • N + w • (1 : Matrix (Fin 2) (Fin 2) ℚ)) * N = (u * t + w) • N + (-u) • (1 : Matrix (Fin 2) (Fin 2) ℚ) := by
    intro u w
    rw [add_mul, smul_mul_assoc, hsq, smul_mul_assoc, one_mul]
    module
  have p1 : N ^ 1 = (1 : ℚ) • N + (0 : ℚ) • (1 : Matrix (Fin 2) (Fin 2) ℚ) := by simp
  have p2 := (pow_succ N 1).trans ((congrArg (· * N) p1).trans (mulN _ _))
  have p3 := (pow_succ N 2).trans ((congrArg (· * N) p2).trans (mulN _ _))
  have p4 := (pow_succ N 3).trans ((congrArg (· * N) p3).trans (mulN _ _))
  have p5 := (pow_succ N 4).trans ((congrArg (· * N) p4).trans (mulN _ _))
  have p6 := (pow_succ N 5).trans ((congrArg (· * N) p5).trans (mulN _ _))
  rcases restriction (by omega) N hk hN with h | h
  · obtain ⟨a, b⟩ := key _ _ (p4.symm.trans h)
    have : t ^ 2 = 0 := by linear_combination -b
    rw [this]; norm_num
  · obtain ⟨a, b⟩ := key _ _ (p6.symm.trans h)
    have e : (t ^ 2 - 1) * (t ^ 2 - 2) = 0 := by linear_combination -b
    rcases mul_eq_zero.1 e with h | h
    · nlinarith
    · nlinarith

/-- the quadratic form `det [v, N v]` is definite, and its sign is that of the lower left entry -/
theorem turn2 (N : Matrix (Fin 2) (Fin 2) ℚ) (h : (N 0 0 - N 1 1) ^ 2 + 4 * (N 0 1 * N 1 0) < 0)
    (x y : ℚ) (hv : x ≠ 0 ∨ y ≠ 0) :
    0 < N 1 0 * (x * (N 1 0 * x + N 1 1 * y) - y * (N 0 0 * x + N 0 1 * y)) := by
  have hc : N 1 0 ≠ 0 := by
    intro hc; rw [hc] at h; nlinarith [sq_nonneg (N 0 0 - N 1 1)]
  have e : N 1 0 * (x * (N 1 0 * x + N 1 1 * y) - y * (N 0 0 * x + N 0 1 * y)) =
      (N 1 0 * x + (N 1 1 - N 0 0) / 2 * y) ^ 2 + (-((N 0 0 - N 1 1) ^ 2 + 4 * (N 0 1 * N 1 0)) / 4) * y ^ 2 := by ring
  rw [e]
  by_cases hy : y = 0
  · subst hy
    have hx := hv.resolve_right (by simp)
    have : 0 < (N 1 0 * x) ^ 2 := by positivity
    simpa using this
  · have : 0 < (-((N 0 0 - N 1 1) ^ 2 + 4 * (N 0 1 * N 1 0)) / 4) * y ^ 2 := by
      apply mul_pos
      · linarith
      · positivity
    have := sq_nonneg (N 1 0 * x + (N 1 1 - N 0 0) / 2 * y)
    linarith

theorem det_sq_one {n : Nat} {M : Matrix (Fin n) (Fin n) ℚ} {k : Nat} (hk : 0 < k) (h : M ^ k = 1) :
    M.det = 1 ∨ M.det = -1 := by
  have : M.det ^ k = 1 := by rw [← det_pow, h, det_one]
  have h2 : |M.det| = 1 := by
    rw [← pow_eq_one_iff_of_nonneg (abs_nonneg _) hk.ne', ← abs_pow, this, abs_one]
  rcases abs_choice M.det with h | h
  · left; rw [← h, h2]
  · right; linarith

theorem unipotent {m : Type} [Fintype m] [DecidableEq m] (X : Matrix m m ℚ) (h : X * X = 0) (k : Nat) :
    (1 + X) ^ k = 1 + (k : ℚ) • X := by
  induction k with
  | zero => simp
  | succ k ih =>
    rw [pow_succ, ih, add_mul, one_mul, mul_add, mul_one, smul_mul_assoc, h]
    push_cast
    module

/-- the lower right block -/
def red (C : Matrix (Fin 3) (Fin 3) ℚ) : Matrix (Fin 2) (Fin 2) ℚ := !![C 1 1, C 1 2; C 2 1, C 2 2]

theorem red_mul (C D : Matrix (Fin 3) (Fin 3) ℚ) (h1 : D 0 1 = 0) (h2 : D 0 2 = 0) :
    red (C * D) = red C * red D := by
  apply ext2 <;> simp [red, mul_apply, Fin.sum_univ_three, h1, h2]

theorem red_pow (C : Matrix (Fin 3) (Fin 3) ℚ) (h1 : C 0 1 = 0) (h2 : C 0 2 = 0) (k : Nat) :
    red (C ^ k) = red C ^ k := by
  induction k with
  | zero => apply ext2 <;> simp [red]
  | succ k ih => rw [pow_succ, red_mul _ _ h1 h2, ih, pow_succ]

theorem ext3 {C D : Matrix (Fin 3) (Fin 3) ℚ} (h : ∀ j, C 0 j = D 0 j) (h1 : C 1 0 = D 1 0) (h2 : C 2 0 = D 2 0)
    (hr : red C = red D) : C = D := by
  have e00 := congrFun (congrFun hr 0) 0
  have e01 := congrFun (congrFun hr 0) 1
  have e10 := congrFun (congrFun hr 1) 0
  have e11 := congrFun (congrFun hr 1) 1
  simp [red] at e00 e01 e10 e11
  ext i j
  fin_cases i <;> fin_cases j <;> first | exact h _ | assumption

theorem block3 (C : Matrix (Fin 3) (Fin 3) ℚ) (h1 : C 0 1 = 0) (h2 : C 0 2 = 0) (h0 : C 0 0 = C.det)
    {k : Nat} (hk : 0 < k) (hC : C ^ k = 1) (hC2 : C ^ 2 ≠ 1) :
    (C 1 1 - C 2 2) ^ 2 + 4 * (C 1 2 * C 2 1) < 0 := by
  have hdet := det_sq_one hk hC
  have hd : C.det = C 0 0 * (red C).det := by
    rw [det_fin_three, det_fin_two, h1, h2]; simp [red]; ring
  have hd0 : C.det ≠ 0 := by rcases hdet with h | h <;> rw [h] <;> norm_num
  have hrd : (red C).det = 1 := by
    rw [h0] at hd
    have : C.det * ((red C).det - 1) = 0 := by linear_combination -hd
    have := (mul_eq_zero.1 this).resolve_left hd0
    linarith
  have hrk : red C ^ k = 1 := by
    rw [← red_pow C h1 h2, hC]; apply ext2 <;> simp [red]
  have scal : ∀ e : ℚ, e ^ 2 = 1 → red C ≠ e • 1 := by
    intro e he hr
    apply hC2
    have r00 := congrFun (congrFun hr 0) 0
    have r01 := congrFun (congrFun hr 0) 1
    have r10 := congrFun (congrFun hr 1) 0
    have r11 := congrFun (congrFun hr 1) 1
    simp [red] at r00 r01 r10 r11
    have h00 : C 0 0 = e ∨ C 0 0 = -e := by
      have e2 : (C 0 0) ^ 2 = 1 := by rw [h0]; rcases hdet with h | h <;> rw [h] <;> norm_num
      rw [← he] at e2
      exact sq_eq_sq_iff_eq_or_eq_neg.1 e2
    rcases h00 with h00 | h00
    · have hX : (e • C - 1) * (e • C - 1) = 0 := by
        have hee : e * e = 1 := by rw [← he]; ring
        ext i j
        fin_cases i <;> fin_cases j <;>
          simp [mul_apply, Fin.sum_univ_three, h00, h1, h2, r00, r01, r10, r11, hee]
      have := unipotent _ hX (2 * k)
      rw [add_sub_cancel, smul_pow, pow_mul, he, one_pow, one_smul, mul_comm 2 k, pow_mul, hC, one_pow] at this
      have hX0 : e • C - 1 = 0 := by
        have h3 : ((k * 2 : ℕ) : ℚ) • (e • C - 1) = 0 := by
          have := (sub_eq_zero.2 this.symm)
          simpa using this
        refine (smul_eq_zero.1 h3).resolve_left ?_
        exact_mod_cast (by omega : k * 2 ≠ 0)
      have h4 : e • C = 1 := sub_eq_zero.1 hX0
      calc C ^ 2 = (e • C) ^ 2 := by rw [smul_pow, he, one_smul]
        _ = 1 := by rw [h4, one_pow]
    · have hee : e * e = 1 := by rw [← he]; ring
      ext i j
      rw [pow_two]
      fin_cases i <;> fin_cases j <;>
        simp [mul_apply, Fin.sum_univ_three, h00, h1, h2, r00, r01, r10, r11, hee] <;> ring
  have := rot2 (red C) hrd hk hrk (by have := scal 1 (by norm_num); rwa [one_smul] at this)
    (by have := scal (-1) (by norm_num); rwa [neg_one_smul] at this)
  simpa [red] using this

/-- For a matrix of finite order above two with an axis, the orientation of `a`, `v`, `M v` is the same for
all `v` off the axis. -/
theorem turn3_indep {M : Matrix (Fin 3) (Fin 3) ℚ} {a v w : Fin 3 → ℚ} {k : Nat} (hk : 0 < k) (hM : M ^ k = 1)
    (hM2 : M ^ 2 ≠ 1) (ha : M.mulVec a = M.det • a) (hR : (Matrix.of ![a, v, w]).det ≠ 0) :
    0 < (Matrix.of ![a, v, M.mulVec v]).det * (Matrix.of ![a, w, M.mulVec w]).det := by
  set R := Matrix.of ![a, v, w] with hRdef
  have hu : IsUnit R.det := isUnit_iff_ne_zero.2 hR
  have hRR : R⁻¹ * R = 1 := nonsing_inv_mul R hu
  have hRR' : R * R⁻¹ = 1 := mul_nonsing_inv R hu
  set C := R * Mᵀ * R⁻¹ with hC
  have hCR : C * R = R * Mᵀ := by rw [hC, mul_assoc, hRR, mul_one]
  have hpow : ∀ j, C ^ j = R * (M ^ j)ᵀ * R⁻¹ := by
    intro j
    induction j with
    | zero => simp [hRR']
    | succ j ih =>
      rw [pow_succ, ih, hC, pow_succ', transpose_mul]
      calc R * (M ^ j)ᵀ * R⁻¹ * (R * Mᵀ * R⁻¹) = R * (M ^ j)ᵀ * (R⁻¹ * R) * Mᵀ * R⁻¹ := by simp only [mul_assoc]
        _ = _ := by rw [hRR, mul_one]; simp only [mul_assoc]
  have hrow : ∀ i, (fun j => (R * Mᵀ) i j) = M.mulVec (R i) := by
    intro i; funext j; simp [mul_apply, mulVec, dotProduct, mul_comm]
  have hrowC : ∀ i, M.mulVec (R i) = fun j => C i 0 * a j + C i 1 * v j + C i 2 * w j := by
    intro i
    rw [← hrow i, ← hCR]
    funext j
    simp [mul_apply, Fin.sum_univ_three, hRdef]
  have hC0 : C 0 = M.det • (Pi.single 0 1 : Fin 3 → ℚ) := by
    have h1 : (C * R) 0 = M.det • R 0 := by
      rw [hCR]
      have := hrow 0
      have h2 : R 0 = a := rfl
      rw [h2, ha] at this
      rw [h2]; exact this
    have h2 : C 0 = (C * R * R⁻¹) 0 := by rw [mul_assoc, hRR', mul_one]
    rw [h2]
    funext j
    rw [mul_apply]
    simp only [h1, Pi.smul_apply, smul_eq_mul, mul_assoc]
    rw [← Finset.mul_sum]
    have := congrFun (congrFun hRR' 0) j
    rw [mul_apply] at this
    rw [this, one_apply, Pi.single_apply]
    simp [eq_comm]
  have h01 : C 0 1 = 0 := by rw [hC0]; simp
  have h02 : C 0 2 = 0 := by rw [hC0]; simp
  have hdetC : C.det = M.det := by
    rw [hC, det_mul, det_mul, det_transpose, mul_comm, ← mul_assoc, ← det_mul, hRR, det_one, one_mul]
  have h00 : C 0 0 = C.det := by rw [hC0, hdetC]; simp
  have hb := block3 C h01 h02 h00 hk (by rw [hpow, hM, transpose_one, mul_one, hRR']) (by
    intro h
    apply hM2
    rw [hpow] at h
    have h3 : (M ^ 2)ᵀ = 1 := by
      calc (M ^ 2)ᵀ = R⁻¹ * (R * (M ^ 2)ᵀ * R⁻¹) * R := by
            simp only [mul_assoc, hRR, mul_one]; rw [← mul_assoc, hRR, one_mul]
        _ = 1 := by rw [h, mul_one, hRR]
    rw [← transpose_transpose (M ^ 2), h3, transpose_one])
  have d1 : (Matrix.of ![a, v, M.mulVec v]).det = C 1 2 * R.det := by
    have hv : M.mulVec v = fun j => C 1 0 * a j + C 1 1 * v j + C 1 2 * w j := by
      have := hrowC 1
      rwa [show R 1 = v from rfl] at this
    rw [hv, hRdef]
    simp [det_fin_three]
    ring
  have d2 : (Matrix.of ![a, w, M.mulVec w]).det = - C 2 1 * R.det := by
    have hw : M.mulVec w = fun j => C 2 0 * a j + C 2 1 * v j + C 2 2 * w j := by
      have := hrowC 2
      rwa [show R 2 = w from rfl] at this
    rw [hw, hRdef]
    simp [det_fin_three]
    ring
  rw [d1, d2]
  have hneg : C 1 2 * C 2 1 < 0 := by nlinarith [sq_nonneg (C 1 1 - C 2 2)]
  have hpos : 0 < R.det * R.det := mul_self_pos.2 hR
  nlinarith [mul_pos (neg_pos.2 hneg) hpos]

/-- cross product -/
def cross (a v : Fin 3 → ℚ) : Fin 3 → ℚ := ![a 1 * v 2 - a 2 * v 1, a 2 * v 0 - a 0 * v 2, a 0 * v 1 - a 1 * v 0]

def sumsq (v : Fin 3 → ℚ) : ℚ := v 0 ^ 2 + v 1 ^ 2 + v 2 ^ 2

theorem sumsq_eq_zero {v : Fin 3 → ℚ} (h : sumsq v = 0) : v 0 = 0 ∧ v 1 = 0 ∧ v 2 = 0 := by
  unfold sumsq at h
  have h0 := sq_nonneg (v 0); have h1 := sq_nonneg (v 1); have h2 := sq_nonneg (v 2)
  refine ⟨?_, ?_, ?_⟩ <;> apply pow_eq_zero_iff (two_ne_zero) |>.1 <;> linarith

theorem sumsq_cross {a v : Fin 3 → ℚ} (ha : a ≠ 0) (hv : ∀ c : ℚ, v ≠ c • a) : sumsq (cross a v) ≠ 0 := by
  intro h
  obtain ⟨h0, h1, h2⟩ := sumsq_eq_zero h
  simp [cross] at h0 h1 h2
  have : ∃ i, a i ≠ 0 := by
    by_contra hc; push Not at hc; exact ha (funext hc)
  obtain ⟨i, hi⟩ := this
  apply hv (v i / a i)
  funext j
  simp only [Pi.smul_apply, smul_eq_mul]
  rw [div_mul_eq_mul_div, eq_div_iff hi]
  fin_cases i <;> fin_cases j <;> simp <;> linarith

theorem turn3 {M : Matrix (Fin 3) (Fin 3) ℚ} {a v w : Fin 3 → ℚ} {k : Nat} (hk : 0 < k) (hM : M ^ k = 1)
    (hM2 : M ^ 2 ≠ 1) (ha : M.mulVec a = M.det • a) (ha0 : a ≠ 0) (hv : ∀ c : ℚ, v ≠ c • a) (hw : ∀ c : ℚ, w ≠ c • a) :
    0 < (Matrix.of ![a, v, M.mulVec v]).det * (Matrix.of ![a, w, M.mulVec w]).det := by
  by_cases hR : (Matrix.of ![a, v, w]).det = 0
  · set u := cross a v with hu
    have hcv := sumsq_cross ha0 hv
    have hcw := sumsq_cross ha0 hw
    have e1 : (Matrix.of ![a, v, u]).det = sumsq u := by
      rw [hu]; simp [det_fin_three, cross, sumsq]; ring
    have e2 : sumsq u * sumsq (cross a w) =
        sumsq a * (Matrix.of ![a, v, w]).det ^ 2 + (Matrix.of ![a, w, u]).det ^ 2 := by
      rw [hu]; simp [det_fin_three, cross, sumsq]; ring
    have h1 := turn3_indep hk hM hM2 ha (v := v) (w := u) (by rw [e1]; exact hcv)
    have h2 := turn3_indep hk hM hM2 ha (v := w) (w := u) (by
      intro h
      rw [h, hR] at e2
      have : sumsq u * sumsq (cross a w) = 0 := by rw [e2]; ring
      rcases mul_eq_zero.1 this with h | h
      · exact hcv h
      · exact hcw h)
    set x := (Matrix.of ![a, u, M.mulVec u]).det
    have hx : 0 < x * x := by
      apply mul_self_pos.2; rintro h; rw [h, mul_zero] at h1; exact lt_irrefl _ h1
    have h3 := mul_pos h1 h2
    set p := (Matrix.of ![a, v, M.mulVec v]).det
    set q := (Matrix.of ![a, w, M.mulVec w]).det
    have h4 : 0 < (p * q) * (x * x) := by nlinarith
    exact pos_of_mul_pos_left h4 hx.le
  · exact turn3_indep hk hM hM2 ha hR

end Systre
