import Mathlib.LinearAlgebra.Matrix.NonsingularInverse
import Mathlib.Data.Set.Card

/-! # A finite group of matrices that is the union of a subgroup and its image under a transposition -/

namespace Systre

variable {n : Nat}

/-- `P` is closed under products and finite, `Q ⊆ P` is a group. If for every `A` in `P` either `A` or
`B Aᵀ B⁻¹` is in `Q`, then `P = Q`. -/
theorem group_of_transposed {P Q : Set (Matrix (Fin n) (Fin n) ℚ)} {B : Matrix (Fin n) (Fin n) ℚ} (hB : IsUnit B)
    (hPm : ∀ a ∈ P, ∀ b ∈ P, a * b ∈ P) (hPf : P.Finite) (hQm : ∀ a ∈ Q, ∀ b ∈ Q, a * b ∈ Q)
    (hQi : ∀ a ∈ Q, ∃ b ∈ Q, a * b = 1) (hQP : Q ⊆ P)
    (h : ∀ a ∈ P, a ∈ Q ∨ ∃ b ∈ Q, B * a.transpose = b * B) : P ⊆ Q := by
  by_contra hn
  obtain ⟨a, ha, haQ⟩ := Set.not_subset.1 hn
  have hdet : IsUnit B.det := (Matrix.isUnit_iff_isUnit_det _).1 hB
  have hBi : B * B⁻¹ = 1 := Matrix.mul_nonsing_inv _ hdet
  have hiB : B⁻¹ * B = 1 := Matrix.nonsing_inv_mul _ hdet
  let τ : Matrix (Fin n) (Fin n) ℚ → Matrix (Fin n) (Fin n) ℚ := fun x => B * x.transpose * B⁻¹
  have hτ : ∀ x ∈ P, x ∉ Q → τ x ∈ Q := by
    intro x hx hxQ
    rcases h x hx with h1 | ⟨b, hb, h1⟩
    · exact absurd h1 hxQ
    · show B * x.transpose * B⁻¹ ∈ Q
      rw [h1, mul_assoc, hBi, mul_one]; exact hb
  have hmul : ∀ x y, τ (x * y) = τ y * τ x := by
    intro x y
    show B * (x * y).transpose * B⁻¹ = B * y.transpose * B⁻¹ * (B * x.transpose * B⁻¹)
    rw [Matrix.transpose_mul]
    calc B * (y.transpose * x.transpose) * B⁻¹ = B * y.transpose * (1 : Matrix (Fin n) (Fin n) ℚ) * x.transpose * B⁻¹ := by
          simp only [mul_one, mul_assoc]
      _ = _ := by rw [← hiB]; simp only [mul_assoc]
  have hall : ∀ b ∈ P, τ b ∈ Q := by
    intro b hb
    by_cases hbQ : b ∈ Q
    · have hab : a * b ∉ Q := by
        intro hab
        obtain ⟨c, hc, h1⟩ := hQi b hbQ
        have := hQm _ hab c hc
        rw [mul_assoc, h1, mul_one] at this
        exact haQ this
      have h1 := hτ _ (hPm a ha b hb) hab
      rw [hmul] at h1
      obtain ⟨c, hc, h2⟩ := hQi _ (hτ a ha haQ)
      have := hQm _ h1 c hc
      rw [mul_assoc, h2, mul_one] at this
      exact this
    · exact hτ b hb hbQ
  have hinj : Function.Injective τ := by
    intro x y hxy
    have h1 : B⁻¹ * (B * x.transpose * B⁻¹) * B = B⁻¹ * (B * y.transpose * B⁻¹) * B := by
      show B⁻¹ * τ x * B = B⁻¹ * τ y * B
      rw [hxy]
    have h2 : ∀ z : Matrix (Fin n) (Fin n) ℚ, B⁻¹ * (B * z.transpose * B⁻¹) * B = z.transpose := by
      intro z
      calc B⁻¹ * (B * z.transpose * B⁻¹) * B = (B⁻¹ * B) * z.transpose * (B⁻¹ * B) := by simp only [mul_assoc]
        _ = _ := by rw [hiB, mul_one, one_mul]
    rw [h2, h2] at h1
    exact Matrix.transpose_injective h1
  have hcard : P.ncard ≤ Q.ncard := by
    have := Set.ncard_image_of_injective P hinj
    rw [← this]
    apply Set.ncard_le_ncard _ (hPf.subset hQP)
    rintro _ ⟨b, hb, rfl⟩
    exact hall b hb
  exact hn (Set.eq_of_subset_of_ncard_le hQP hcard hPf).ge

end Systre
