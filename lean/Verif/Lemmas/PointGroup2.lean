import Verif.Lemmas.Finder
import Mathlib.LinearAlgebra.Matrix.ToLinearEquiv

/-! Finite groups of rational matrices of size two. -/

namespace Systre
open Matrix

abbrev M2 := Matrix (Fin 2) (Fin 2) ℚ

namespace IsFiniteGroupSet

variable {n : Nat} {Ms : List (Matrix (Fin n) (Fin n) ℚ)}

theorem pow_mem (h : IsFiniteGroupSet Ms) {A : Matrix (Fin n) (Fin n) ℚ} (hA : A ∈ Ms) (k : Nat) : A ^ (k + 1) ∈ Ms := by
  induction k with
  | zero => simpa using hA
  | succ k ih => rw [pow_succ]; exact h.mul _ ih _ hA

theorem fin_order (h : IsFiniteGroupSet Ms) {A : Matrix (Fin n) (Fin n) ℚ} (hA : A ∈ Ms) : ∃ k, 0 < k ∧ A ^ k = 1 := by
  have hfin : Finite {x // x ∈ Ms} := List.finite_toSet Ms
  obtain ⟨i, j, hij, he⟩ := Finite.exists_ne_map_eq_of_infinite (fun k : ℕ => (⟨A ^ (k + 1), h.pow_mem hA k⟩ : {x // x ∈ Ms}))
  have he : A ^ (i + 1) = A ^ (j + 1) := congrArg Subtype.val he
  have hu : IsUnit A := (isUnit_iff_isUnit_det A).2 (isUnit_iff_ne_zero.2 (h.det _ hA))
  have key : ∀ i j : Nat, i < j → A ^ (i + 1) = A ^ (j + 1) → ∃ k, 0 < k ∧ A ^ k = 1 := by
    intro i j hlt he
    refine ⟨j - i, by omega, ?_⟩
    have h1 : A ^ (i + 1) * A ^ (j - i) = A ^ (i + 1) * 1 := by
      rw [← pow_add, mul_one, he]; congr 1; omega
    exact (hu.pow (i + 1)).mul_left_cancel h1
  rcases Nat.lt_or_gt_of_ne hij with h' | h'
  · exact key i j h' he
  · exact key j i h' he.symm

theorem order_pos (h : IsFiniteGroupSet Ms) {A : Matrix (Fin n) (Fin n) ℚ} (hA : A ∈ Ms) : 0 < orderOf A := by
  obtain ⟨k, hk, h1⟩ := h.fin_order hA
  exact orderOf_pos_iff.2 (isOfFinOrder_iff_pow_eq_one.2 ⟨k, hk, h1⟩)

theorem pow_mem' (h : IsFiniteGroupSet Ms) {A : Matrix (Fin n) (Fin n) ℚ} (hA : A ∈ Ms) {k : Nat} (hk : 0 < k) : A ^ k ∈ Ms := by
  obtain ⟨k, rfl⟩ := Nat.exists_eq_succ_of_ne_zero hk.ne'
  exact h.pow_mem hA k

theorem one_mem (h : IsFiniteGroupSet Ms) : 1 ∈ Ms := by
  obtain ⟨A, hA⟩ := List.exists_mem_of_ne_nil _ h.nonempty
  obtain ⟨k, hk, h1⟩ := h.fin_order hA
  rw [← h1]; exact h.pow_mem' hA hk

theorem order_cases (h : IsFiniteGroupSet Ms) (hn : n ≤ 3) {A : Matrix (Fin n) (Fin n) ℚ} (hA : A ∈ Ms) :
    orderOf A = 1 ∨ orderOf A = 2 ∨ orderOf A = 3 ∨ orderOf A = 4 ∨ orderOf A = 6 := by
  obtain ⟨k, hk, h1⟩ := h.fin_order hA
  have hp := h.order_pos hA
  rcases restriction hn A hk h1 with h2 | h2
  · have h3 := orderOf_dvd_of_pow_eq_one h2
    have h4 := Nat.le_of_dvd (by norm_num) h3
    interval_cases hh : orderOf A <;> simp_all
  · have h3 := orderOf_dvd_of_pow_eq_one h2
    have h4 := Nat.le_of_dvd (by norm_num) h3
    interval_cases hh : orderOf A <;> simp_all

theorem det_cases (h : IsFiniteGroupSet Ms) {A : Matrix (Fin n) (Fin n) ℚ} (hA : A ∈ Ms) : A.det = 1 ∨ A.det = -1 := by
  obtain ⟨k, hk, h1⟩ := h.fin_order hA
  exact det_sq_one hk h1

end IsFiniteGroupSet

theorem sq_two_neg (N : M2) (hd : N.det = -1) : N * N = (N 0 0 + N 1 1) • N + 1 := by
  rw [det_fin_two] at hd
  apply ext2 <;> simp [mul_apply, Fin.sum_univ_two]
  · linear_combination -hd
  · ring
  · ring
  · linear_combination -hd

theorem mirror_trace (N : M2) (hd : N.det = -1) {k : Nat} (hk : 0 < k) (hN : N ^ k = 1) : N 0 0 + N 1 1 = 0 := by
  have hsq := sq_two_neg N hd
  have hdet := hd
  rw [det_fin_two] at hdet
  set t := N 0 0 + N 1 1 with ht
  have key : ∀ u w : ℚ, u • N + w • (1 : M2) = 1 → u = 0 := by
    intro u w h
    have e01 := congrFun (congrFun h 0) 1
    have e10 := congrFun (congrFun h 1) 0
    have e00 := congrFun (congrFun h 0) 0
    have e11 := congrFun (congrFun h 1) 1
    simp at e01 e10 e00 e11
    by_contra hu
    have b0 := e01.resolve_left hu
    have had : N 0 0 = N 1 1 := mul_left_cancel₀ hu (by linarith)
    rw [b0, had] at hdet
    nlinarith [mul_self_nonneg (N 1 1)]
  have mulN : ∀ u w : ℚ, (u • N + w • (1 : M2)) * N = (u * t + w) • N + u • (1 : M2) := by
    intro u w
    rw [add_mul, smul_mul_assoc, hsq, smul_mul_assoc, one_mul]
    module
  have p1 : N ^ 1 = (1 : ℚ) • N + (0 : ℚ) • (1 : M2) := by simp
  have p2 := (pow_succ N 1).trans ((congrArg (· * N) p1).trans (mulN _ _))
  have p3 := (pow_succ N 2).trans ((congrArg (· * N) p2).trans (mulN _ _))
  have p4 := (pow_succ N 3).trans ((congrArg (· * N) p3).trans (mulN _ _))
  have p5 := (pow_succ N 4).trans ((congrArg (· * N) p4).trans (mulN _ _))
  have p6 := (pow_succ N 5).trans ((congrArg (· * N) p5).trans (mulN _ _))
  rcases restriction (by omega) N hk hN with h | h
  · have a := key _ _ (p4.symm.trans h)
    have e : t * (t ^ 2 + 2) = 0 := by linear_combination a
    exact (mul_eq_zero.1 e).resolve_right (by positivity)
  · have a := key _ _ (p6.symm.trans h)
    have e : t * (t ^ 4 + 4 * t ^ 2 + 3) = 0 := by linear_combination a
    exact (mul_eq_zero.1 e).resolve_right (by positivity)

theorem mirror_sq (N : M2) (hd : N.det = -1) {k : Nat} (hk : 0 < k) (hN : N ^ k = 1) : N * N = 1 := by
  rw [sq_two_neg N hd, mirror_trace N hd hk hN, zero_smul, zero_add]

theorem invol_rot (N : M2) (hd : N.det = 1) (h : N * N = 1) : N = 1 ∨ N = -1 := by
  have hs := sq_two N hd
  rw [h] at hs
  set t := N 0 0 + N 1 1 with ht
  have h2 : t • N = (2 : ℚ) • (1 : M2) := by
    have : t • N = 1 + 1 := by rw [eq_sub_iff_add_eq] at hs; exact hs.symm
    rw [this]; module
  have ht0 : t ≠ 0 := by
    intro h0; rw [h0, zero_smul] at h2
    have := congrFun (congrFun h2 0) 0
    simp at this
  have hN : N = (2 / t) • (1 : M2) := by
    calc N = t⁻¹ • (t • N) := by rw [smul_smul, inv_mul_cancel₀ ht0, one_smul]
      _ = _ := by rw [h2, smul_smul]; congr 1; field_simp
  rw [hN] at hd
  have h3 : (2 / t) ^ 2 = 1 := by
    rw [det_smul, det_one] at hd; simpa using hd
  rcases sq_eq_sq_iff_eq_or_eq_neg.1 (h3.trans (one_pow 2).symm) with h4 | h4 <;> rw [hN, h4]
  · left; rw [one_smul]
  · right; rw [neg_one_smul]

/-- parallel vectors of the plane -/
theorem par2 {v x : Fin 2 → ℚ} (hv : v ≠ 0) (h : v 0 * x 1 = v 1 * x 0) : ∃ c : ℚ, x = c • v := by
  have : v 0 ≠ 0 ∨ v 1 ≠ 0 := by
    by_contra hc; push Not at hc
    exact hv (funext fun i => by fin_cases i; exacts [hc.1, hc.2])
  rcases this with h0 | h0
  · refine ⟨x 0 / v 0, funext fun i => ?_⟩
    fin_cases i
    · simp [h0]
    · simp; field_simp; linarith
  · refine ⟨x 1 / v 1, funext fun i => ?_⟩
    fin_cases i
    · simp; field_simp; linarith
    · simp [h0]

theorem fixes_two {A : M2} {v x : Fin 2 → ℚ} (hv : A.mulVec v = v) (hx : A.mulVec x = x) (h : v 0 * x 1 ≠ v 1 * x 0) : A = 1 := by
  have a0 := congrFun hv 0; have a1 := congrFun hv 1
  have b0 := congrFun hx 0; have b1 := congrFun hx 1
  simp [mulVec, dotProduct, Fin.sum_univ_two] at a0 a1 b0 b1
  have hD : v 0 * x 1 - v 1 * x 0 ≠ 0 := sub_ne_zero.2 h
  apply ext2 <;> simp
  · have : (A 0 0 - 1) * (v 0 * x 1 - v 1 * x 0) = 0 := by linear_combination x 1 * a0 - v 1 * b0
    have := (mul_eq_zero.1 this).resolve_right hD; linarith
  · have : (A 0 1) * (v 0 * x 1 - v 1 * x 0) = 0 := by linear_combination v 0 * b0 - x 0 * a0
    exact (mul_eq_zero.1 this).resolve_right hD
  · have : (A 1 0) * (v 0 * x 1 - v 1 * x 0) = 0 := by linear_combination x 1 * a1 - v 1 * b1
    exact (mul_eq_zero.1 this).resolve_right hD
  · have : (A 1 1 - 1) * (v 0 * x 1 - v 1 * x 0) = 0 := by linear_combination v 0 * b1 - x 0 * a1
    have := (mul_eq_zero.1 this).resolve_right hD; linarith

/-- a mirror has an axis -/
theorem mirror_axis (N : M2) (hd : N.det = -1) {k : Nat} (hk : 0 < k) (hN : N ^ k = 1) : ∃ v, IsAxis N 1 v := by
  have ht := mirror_trace N hd hk hN
  have h0 : (N - 1).det = 0 := by
    rw [det_fin_two] at hd ⊢
    simp
    linear_combination hd - ht
  obtain ⟨v, hv0, hv⟩ := exists_mulVec_eq_zero_iff.2 h0
  have hv : N.mulVec v = v := by
    rw [sub_mulVec, one_mulVec, sub_eq_zero] at hv; exact hv
  refine ⟨v, hv0, fun x => ?_⟩
  rw [one_smul]
  constructor
  · intro hx
    by_contra hc
    have := fixes_two hv hx (fun h => hc (par2 hv0 h))
    rw [this, det_one] at hd
    norm_num at hd
  · rintro ⟨c, rfl⟩
    rw [mulVec_smul, hv]

/-- the elements of determinant one commute -/
theorem rot_comm {Ms : List M2} (h : IsFiniteGroupSet Ms) {A B : M2} (hA : A ∈ Ms) (hB : B ∈ Ms) (hdA : A.det = 1) (hdB : B.det = 1) :
    A * B = B * A := by
  classical
  set G : M2 := ∑ M ∈ Ms.toFinset, Mᵀ * M with hG
  have hinv : ∀ A ∈ Ms, Aᵀ * G * A = G := by
    intro A hA
    rw [hG, Finset.mul_sum, Finset.sum_mul]
    have hu : IsUnit A := (isUnit_iff_isUnit_det A).2 (isUnit_iff_ne_zero.2 (h.det _ hA))
    refine Finset.sum_nbij (fun M => M * A) ?_ ?_ ?_ ?_
    · intro M hM; simp only [List.mem_toFinset] at hM ⊢; exact h.mul _ hM _ hA
    · intro M _ M' _ he; exact hu.mul_right_cancel he
    · have hinj : Set.InjOn (fun M => M * A) (Ms.toFinset : Set M2) := fun M _ M' _ he => hu.mul_right_cancel he
      refine Finset.surjOn_of_injOn_of_card_le _ ?_ hinj le_rfl
      intro M hM; simp only [Finset.mem_coe, List.mem_toFinset] at hM ⊢; exact h.mul _ hM _ hA
    · intro M _; rw [transpose_mul]; simp only [mul_assoc]
  have hsym : G 1 0 = G 0 1 := by
    rw [hG, Matrix.sum_apply, Matrix.sum_apply]
    refine Finset.sum_congr rfl fun M _ => ?_
    simp [mul_apply, Fin.sum_univ_two]; ring
  have hp : G 0 0 ≠ 0 := by
    have hterm : ∀ M : M2, 0 ≤ (Mᵀ * M) 0 0 := by
      intro M; simp [mul_apply, Fin.sum_univ_two]; nlinarith [mul_self_nonneg (M 0 0), mul_self_nonneg (M 1 0)]
    have h1 : (((1 : M2)ᵀ * (1 : M2)) : M2) 0 0 ≤ G 0 0 := by
      rw [hG, Matrix.sum_apply]
      exact Finset.single_le_sum (f := fun M : M2 => (Mᵀ * M) 0 0) (fun M _ => hterm M) (List.mem_toFinset.2 h.one_mem)
    simp at h1
    linarith
  have key : ∀ A ∈ Ms, A.det = 1 → G 0 0 * A 0 1 = - (A 1 0 * G 1 1) ∧ G 0 0 * (A 0 0 - A 1 1) = - (2 * G 0 1 * A 1 0) := by
    intro A hA hd
    rw [det_fin_two] at hd
    have e := hinv A hA
    have e00 := congrFun (congrFun e 0) 0
    have e01 := congrFun (congrFun e 0) 1
    have e10 := congrFun (congrFun e 1) 0
    have e11 := congrFun (congrFun e 1) 1
    simp [mul_apply, Fin.sum_univ_two, hsym] at e00 e01 e10 e11
    constructor
    · linear_combination A 0 0 * e01 - A 0 1 * e00 - (A 0 0 * G 0 1 + A 1 0 * G 1 1) * hd
    · linear_combination A 1 1 * e00 - A 1 0 * e01 - (A 0 0 * G 0 0 + A 1 0 * G 0 1) * hd
  obtain ⟨a1, a2⟩ := key A hA hdA
  obtain ⟨b1, b2⟩ := key B hB hdB
  have c1 : A 0 1 * B 1 0 = B 0 1 * A 1 0 := by
    apply mul_left_cancel₀ hp; linear_combination B 1 0 * a1 - A 1 0 * b1
  have c2 : A 1 0 * (B 0 0 - B 1 1) = B 1 0 * (A 0 0 - A 1 1) := by
    apply mul_left_cancel₀ hp; linear_combination A 1 0 * b2 - B 1 0 * a2
  have c3 : A 0 1 * (B 0 0 - B 1 1) = B 0 1 * (A 0 0 - A 1 1) := by
    apply mul_left_cancel₀ hp; apply mul_left_cancel₀ hp
    linear_combination (G 0 0 * (B 0 0 - B 1 1)) * a1 - (G 0 0 * (A 0 0 - A 1 1)) * b1 - (A 1 0 * G 1 1) * b2 + (B 1 0 * G 1 1) * a2
  apply ext2 <;> simp [mul_apply, Fin.sum_univ_two]
  · linear_combination c1
  · linear_combination -c3
  · linear_combination c2
  · linear_combination -c1

theorem not_three_four {Ms : List M2} (h : IsFiniteGroupSet Ms) {A B : M2} (hA : A ∈ Ms) (hB : B ∈ Ms) (hdA : A.det = 1) (hdB : B.det = 1) 
    (h3 : orderOf A = 3) (h4 : orderOf B = 4) : False := by
  have hc : Commute A B := rot_comm h hA hB hdA hdB
  have := hc.orderOf_mul_eq_mul_orderOf_of_coprime (by rw [h3, h4]; decide)
  rw [h3, h4] at this
  rcases h.order_cases (by omega) (h.mul _ hA _ hB) with h | h | h | h | h <;> omega

end Systre
