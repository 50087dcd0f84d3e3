import Mathlib.RingTheory.Polynomial.Cyclotomic.Roots
import Mathlib.RingTheory.Polynomial.Cyclotomic.Basic
import Mathlib.LinearAlgebra.Matrix.Charpoly.Coeff
import Mathlib.LinearAlgebra.Matrix.Charpoly.Minpoly
import Mathlib.FieldTheory.Minpoly.Field

/-! The crystallographic restriction: orders of rational matrices of size at most three. -/

namespace Systre
open Polynomial

theorem small_totient {d : ℕ} (hd : 0 < d) (h : d.totient ≤ 3) : d = 1 ∨ d = 2 ∨ d = 3 ∨ d = 4 ∨ d = 6 := by
  have hpos : ∀ m, m ∣ d → m.totient ≤ 3 := fun m hm =>
    (Nat.le_of_dvd (Nat.totient_pos.2 hd) (Nat.totient_dvd_of_dvd hm)).trans h
  have h8 : ¬ 8 ∣ d := fun hm => absurd (hpos 8 hm) (by decide)
  have h9 : ¬ 9 ∣ d := fun hm => absurd (hpos 9 hm) (by decide)
  have h12 : ¬ 12 ∣ d := fun hm => absurd (hpos 12 hm) (by decide)
  have hp : ∀ p, p.Prime → p ∣ d → p = 2 ∨ p = 3 := by
    intro p hp hm
    have := hpos p hm
    rw [Nat.totient_prime hp] at this
    have h2 := hp.two_le
    have h4 : p ≠ 4 := by rintro rfl; revert hp; decide
    omega
  have h12' : d ∣ 12 := by
    rw [← Nat.factorization_le_iff_dvd hd.ne' (by decide)]
    intro p
    by_cases hpp : p.Prime
    · by_cases hpd : p ∣ d
      · rcases hp p hpp hpd with rfl | rfl
        · have : d.factorization 2 < 3 := by
            by_contra hc
            exact h8 ((Nat.Prime.pow_dvd_iff_le_factorization Nat.prime_two hd.ne').2 (by omega : 3 ≤ _))
          have e : (12 : ℕ).factorization 2 = 2 := by
            rw [show 12 = 2 ^ 2 * 3 by rfl, Nat.factorization_mul (by decide) (by decide), Nat.factorization_pow]
            simp [Nat.prime_two.factorization, Nat.prime_three.factorization]
          rw [e]; omega
        · have : d.factorization 3 < 2 := by
            by_contra hc
            exact h9 ((Nat.Prime.pow_dvd_iff_le_factorization Nat.prime_three hd.ne').2 (by omega : 2 ≤ _))
          have e : (12 : ℕ).factorization 3 = 1 := by
            rw [show 12 = 2 ^ 2 * 3 by rfl, Nat.factorization_mul (by decide) (by decide), Nat.factorization_pow]
            simp [Nat.prime_two.factorization, Nat.prime_three.factorization]
          rw [e]; omega
      · rw [Nat.factorization_eq_zero_of_not_dvd hpd]; exact Nat.zero_le _
    · rw [Nat.factorization_eq_zero_of_not_prime _ hpp]; exact Nat.zero_le _
  have hle := Nat.le_of_dvd (by decide) h12'
  interval_cases d <;> simp_all <;> omega

/-- A rational matrix of size at most three with a finite order has order 1, 2, 3, 4 or 6. -/
theorem restriction {n : ℕ} (hn : n ≤ 3) (M : Matrix (Fin n) (Fin n) ℚ) {k : ℕ} (hk : 0 < k) (h : M ^ k = 1) :
    M ^ 4 = 1 ∨ M ^ 6 = 1 := by
  classical
  set p := minpoly ℚ M with hp
  have hint : IsIntegral ℚ M := Matrix.isIntegral M
  have hp0 : p ≠ 0 := minpoly.ne_zero hint
  have hdvd : p ∣ X ^ k - 1 := minpoly.dvd ℚ M (by simp [h])
  have hdeg : p.natDegree ≤ 3 := by
    have h1 : p ∣ M.charpoly := Matrix.minpoly_dvd_charpoly M
    have h2 := natDegree_le_of_dvd h1 M.charpoly_monic.ne_zero
    rw [Matrix.charpoly_natDegree_eq_dim, Fintype.card_fin] at h2
    omega
  let S := k.divisors.filter (fun d => cyclotomic d ℚ ∣ p)
  have hirr : ∀ d ∈ k.divisors, Irreducible (cyclotomic d ℚ) := fun d hd =>
    cyclotomic.irreducible_rat (Nat.pos_of_mem_divisors hd)
  have h1 : p ∣ ∏ d ∈ S, cyclotomic d ℚ := by
    rw [← prod_cyclotomic_eq_X_pow_sub_one hk ℚ, ← Finset.prod_filter_mul_prod_filter_not k.divisors
      (fun d => cyclotomic d ℚ ∣ p)] at hdvd
    refine IsCoprime.dvd_of_dvd_mul_right ?_ hdvd
    refine IsCoprime.prod_right fun d hd => ?_
    rw [Finset.mem_filter] at hd
    exact ((hirr d hd.1).coprime_iff_not_dvd.2 hd.2).symm
  have h2 : ∏ d ∈ S, cyclotomic d ℚ ∣ p := by
    refine Finset.prod_dvd_of_coprime ?_ (fun d hd => (Finset.mem_filter.1 hd).2)
    intro a _ b _ hab
    exact cyclotomic.isCoprime_rat hab
  have h3 : ∑ d ∈ S, d.totient ≤ 3 := by
    have := natDegree_le_of_dvd h2 hp0
    rw [natDegree_prod _ _ (fun d _ => cyclotomic_ne_zero d ℚ)] at this
    simp only [natDegree_cyclotomic] at this
    omega
  have h4 : ∀ d ∈ S, d = 1 ∨ d = 2 ∨ d = 3 ∨ d = 4 ∨ d = 6 := by
    intro d hd
    refine small_totient (Nat.pos_of_mem_divisors (Finset.mem_filter.1 hd).1) (le_trans ?_ h3)
    exact Finset.single_le_sum (f := fun d : ℕ => d.totient) (fun _ _ => Nat.zero_le _) hd
  have fin : ∀ m : ℕ, 0 < m → S ⊆ m.divisors → M ^ m = 1 := by
    intro m hm hs
    have : p ∣ X ^ m - 1 := by
      rw [← prod_cyclotomic_eq_X_pow_sub_one hm ℚ]
      exact h1.trans (Finset.prod_dvd_prod_of_subset _ _ _ hs)
    obtain ⟨q, hq⟩ := this
    have e : aeval M (X ^ m - 1 : ℚ[X]) = 0 := by rw [hq, map_mul, hp, minpoly.aeval, zero_mul]
    simpa [sub_eq_zero] using e
  by_cases h34 : (3 ∈ S ∨ 6 ∈ S)
  · right
    have h4' : 4 ∉ S := by
      intro hm
      rcases h34 with h | h
      · have := Finset.sum_le_sum_of_subset (f := fun d : ℕ => d.totient) (show {3, 4} ⊆ S by
          intro x hx; simp at hx; rcases hx with rfl | rfl <;> assumption)
        have e : ∑ d ∈ ({3, 4} : Finset ℕ), d.totient = 4 := by decide
        omega
      · have := Finset.sum_le_sum_of_subset (f := fun d : ℕ => d.totient) (show {6, 4} ⊆ S by
          intro x hx; simp at hx; rcases hx with rfl | rfl <;> assumption)
        have e : ∑ d ∈ ({6, 4} : Finset ℕ), d.totient = 4 := by decide
        omega
    refine fin 6 (by decide) (fun d hd => ?_)
    rcases h4 d hd with rfl | rfl | rfl | rfl | rfl
    · decide
    · decide
    · decide
    · exact absurd hd h4'
    · decide
  · left
    push Not at h34
    refine fin 4 (by decide) (fun d hd => ?_)
    rcases h4 d hd with rfl | rfl | rfl | rfl | rfl
    · decide
    · decide
    · exact absurd hd h34.1
    · decide
    · exact absurd hd h34.2

end Systre
