import Verif.Spec.Padic
import Mathlib.Analysis.InnerProductSpace.Orientation
import Mathlib.Analysis.InnerProductSpace.PiL2
import Mathlib.LinearAlgebra.Matrix.Adjugate
import Mathlib.LinearAlgebra.Matrix.SchurComplement

namespace Systre.Modular

theorem hadamard_real {n : Nat} (A : Matrix (Fin n) (Fin n) ℝ) :
    |A.det| ≤ ∏ j, Real.sqrt (∑ i, (A i j) ^ 2) := by
  let v : Fin n → EuclideanSpace ℝ (Fin n) := fun j => WithLp.toLp 2 (fun i => A i j)
  let b := EuclideanSpace.basisFun (Fin n) ℝ
  haveI : Fact (Module.finrank ℝ (EuclideanSpace ℝ (Fin n)) = n) := ⟨by simp⟩
  have h1 := Orientation.abs_volumeForm_apply_le b.toBasis.orientation v
  rw [Orientation.volumeForm_robust' _ b] at h1
  have h2 : b.toBasis.det v = A.det := by
    rw [Module.Basis.det_apply]
    congr 1
  rw [h2] at h1
  refine h1.trans (le_of_eq ?_)
  apply Finset.prod_congr rfl
  intro j _
  rw [EuclideanSpace.norm_eq]
  simp [v]

theorem hadamard {n : Nat} (A : Matrix (Fin n) (Fin n) Int) : |(A.det : ℝ)| ≤ ∏ j, columnNorm A j := by
  have := hadamard_real (A.map (fun x => (x : ℝ)))
  have h : (A.map (fun x => (x : ℝ))).det = (A.det : ℝ) := by
    have := (Int.castRingHom ℝ).map_det A
    simpa using this.symm
  rw [h] at this
  exact this

variable {n m : Nat}

theorem columnNorm_nonneg {r c : Nat} (A : Matrix (Fin r) (Fin c) Int) (j : Fin c) : 0 ≤ columnNorm A j :=
  Real.sqrt_nonneg _

theorem columnNorm_zero_or {r c : Nat} (A : Matrix (Fin r) (Fin c) Int) (j : Fin c) :
    (∀ i, A i j = 0) ∨ 1 ≤ columnNorm A j := by
  by_cases h : ∀ i, A i j = 0
  · exact Or.inl h
  · right
    push Not at h
    obtain ⟨i, hi⟩ := h
    unfold columnNorm
    rw [Real.one_le_sqrt]
    have h1 : (1 : ℝ) ≤ (A i j : ℝ) ^ 2 := by
      have : (1 : Int) ≤ (A i j) ^ 2 := by
        have := sq_nonneg (A i j)
        have h0 : (A i j) ^ 2 ≠ 0 := pow_ne_zero 2 hi
        omega
      exact_mod_cast this
    exact h1.trans (Finset.single_le_sum (f := fun i => (A i j : ℝ) ^ 2) (fun _ _ => sq_nonneg _)
      (Finset.mem_univ i))

theorem sorted_tail_sum (l : List ℝ) (x : ℝ) (hx : x ∈ l) :
    l.sum - x ≤ (l.insertionSort (· ≤ ·)).tail.sum := by
  have hp := List.perm_insertionSort (· ≤ ·) l
  have hs := List.pairwise_insertionSort (· ≤ ·) l
  have hsum := hp.sum_eq
  have hx' := hp.mem_iff.2 hx
  generalize l.insertionSort (· ≤ ·) = s at *
  cases s with
  | nil => simp at hx'
  | cons a s =>
    simp only [List.sum_cons, List.tail_cons] at *
    have : a ≤ x := by
      rcases List.mem_cons.1 hx' with h | h
      · rw [h]
      · exact (List.pairwise_cons.1 hs).1 x h
    linarith

theorem log_prod_eq (A : Matrix (Fin n) (Fin n) Int) (h : A.det ≠ 0) :
    Real.log (∏ j, columnNorm A j) = ∑ j, Real.log (columnNorm A j) ∧ ∀ j, 1 ≤ columnNorm A j := by
  have h1 : ∀ j, 1 ≤ columnNorm A j := by
    intro j
    rcases columnNorm_zero_or A j with h0 | h0
    · exact absurd (Matrix.det_eq_zero_of_column_eq_zero j h0) h
    · exact h0
  exact ⟨Real.log_prod (fun j _ => by have := h1 j; linarith), h1⟩

theorem logNorms_sum (A : Matrix (Fin n) (Fin n) Int) (B : Matrix (Fin n) (Fin m) Int) :
    (logNorms A B).sum = ∑ j, Real.log (columnNorm A j) + ⨆ j, Real.log (columnNorm B j) := by
  unfold logNorms
  simp [List.sum_ofFn]

/-- the determinant and all Cramer numerators are bounded -/
theorem delta_bounds (A : Matrix (Fin n) (Fin n) Int) (B : Matrix (Fin n) (Fin m) Int) (h : A.det ≠ 0) :
    |(A.det : ℝ)| ≤ Real.exp (logDelta A B) ∧
    ∀ i j, |(((A.adjugate * B) i j : Int) : ℝ)| ≤ Real.exp (logDelta A B) := by
  obtain ⟨hl, h1⟩ := log_prod_eq A h
  have hpos : ∀ j, 0 < columnNorm A j := fun j => by have := h1 j; linarith
  constructor
  · refine (hadamard A).trans ?_
    rw [← Real.exp_log (Finset.prod_pos (fun j _ => hpos j)), Real.exp_le_exp, hl]
    have := sorted_tail_sum (logNorms A B) (⨆ j, Real.log (columnNorm B j)) (by simp [logNorms])
    rw [logNorms_sum] at this
    unfold logDelta
    linarith
  · intro i j
    have hcr : (A.adjugate * B) i j = (A.updateCol i (fun k => B k j)).det := by
      rw [← Matrix.cramer_apply, Matrix.cramer_eq_adjugate_mulVec]
      rfl
    rw [hcr]
    refine (hadamard _).trans ?_
    have hprod : ∏ k, columnNorm (A.updateCol i (fun k => B k j)) k =
        columnNorm B j * ∏ k ∈ Finset.univ.erase i, columnNorm A k := by
      rw [← Finset.mul_prod_erase _ _ (Finset.mem_univ i)]
      congr 1
      · unfold columnNorm; simp
      · apply Finset.prod_congr rfl
        intro k hk
        unfold columnNorm
        simp [Matrix.updateCol_ne (Finset.ne_of_mem_erase hk)]
    rw [hprod]
    have hPpos : 0 < ∏ k ∈ Finset.univ.erase i, columnNorm A k := Finset.prod_pos (fun k _ => hpos k)
    rcases columnNorm_zero_or B j with h0 | h0
    · have : columnNorm B j = 0 := by unfold columnNorm; simp [h0]
      rw [this, zero_mul]; exact (Real.exp_pos _).le
    · have hBpos : 0 < columnNorm B j := by linarith
      rw [← Real.exp_log (mul_pos hBpos hPpos), Real.exp_le_exp, Real.log_mul hBpos.ne' hPpos.ne',
        Real.log_prod (fun k _ => (hpos k).ne')]
      have hsup : Real.log (columnNorm B j) ≤ ⨆ j, Real.log (columnNorm B j) :=
        le_ciSup (f := fun j => Real.log (columnNorm B j)) (Set.finite_range _).bddAbove j
      have := sorted_tail_sum (logNorms A B) (Real.log (columnNorm A i)) (by simp [logNorms])
      rw [logNorms_sum, ← Finset.add_sum_erase _ _ (Finset.mem_univ i)] at this
      unfold logDelta
      linarith

theorem steps_suffice (A : Matrix (Fin n) (Fin n) Int) (B : Matrix (Fin n) (Fin m) Int) {p s : Nat} (hp : 2 ≤ p)
    (hs : stepsNeeded A B p ≤ s) :
    (Real.goldenRatio * Real.exp (logDelta A B)) ^ 2 ≤ (p : ℝ) ^ s := by
  have hp' : (1 : ℝ) < p := by exact_mod_cast hp
  have hlp : 0 < Real.log p := Real.log_pos hp'
  have h1 : 2 * (logDelta A B + Real.log Real.goldenRatio) / Real.log p ≤ s :=
    (Nat.le_ceil _).trans (by exact_mod_cast hs)
  rw [div_le_iff₀ hlp] at h1
  have hφ := Real.goldenRatio_pos
  have hx : 0 < Real.goldenRatio * Real.exp (logDelta A B) := by positivity
  rw [← Real.log_le_log_iff (by positivity) (by positivity), Real.log_pow, Real.log_pow,
    Real.log_mul hφ.ne' (Real.exp_pos _).ne', Real.log_exp]
  push_cast
  linarith

end Systre.Modular
