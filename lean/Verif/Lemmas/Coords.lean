import Mathlib.LinearAlgebra.Matrix.Rank
import Mathlib.LinearAlgebra.FreeModule.PID
import Mathlib.RingTheory.Localization.Module
import Mathlib.Algebra.Module.Submodule.Lattice

/-!
# Coordinates that determine the elements of a sublattice of `ℤ ^ d`
-/

namespace Systre

open Matrix

/-- integer vectors, as rows -/
theorem li_rat {r d : Nat} {B : Fin r → Fin d → ℤ} (h : LinearIndependent ℤ B) :
    LinearIndependent ℚ (fun j i => (B j i : ℚ)) := by
  rw [← LinearIndependent.iff_fractionRing ℤ ℚ]
  let φ : (Fin d → ℤ) →ₗ[ℤ] (Fin d → ℚ) :=
    { toFun := fun x i => (x i : ℚ)
      map_add' := fun x y => by funext i; simp
      map_smul' := fun c x => by funext i; simp }
  refine h.map' φ (LinearMap.ker_eq_bot.2 fun x y hxy => ?_)
  funext i
  have : (x i : ℚ) = (y i : ℚ) := congrFun hxy i
  exact_mod_cast this

/-- The elements of a sublattice of rank `r` are determined by `r` of their coordinates. -/
theorem exists_coords {d : Nat} (N : Submodule ℤ (Fin d → ℤ)) :
    ∃ κ : Finset (Fin d), κ.card = Module.finrank ℤ N ∧ ∀ x ∈ N, (∀ i ∈ κ, x i = 0) → x = 0 := by
  classical
  let b := Module.finBasis ℤ N
  let r := Module.finrank ℤ N
  have hli : LinearIndependent ℤ (fun j => ((b j : N) : Fin d → ℤ)) :=
    b.linearIndependent.map' N.subtype (Submodule.ker_subtype N)
  have hq := li_rat hli
  let M : Matrix (Fin r) (Fin d) ℚ := fun j i => (((b j : N) : Fin d → ℤ) i : ℚ)
  have hrank : M.rank = r := by
    have := LinearIndependent.rank_matrix (M := M) hq
    rwa [Fintype.card_fin] at this
  have hspan : Submodule.span ℚ (Set.range M.col) = ⊤ := by
    apply Submodule.eq_top_of_finrank_eq
    rw [← Matrix.rank_eq_finrank_span_cols, hrank, Module.finrank_fin_fun]
  obtain ⟨κ, f, hf, hs, hl⟩ := exists_linearIndependent' ℚ M.col
  haveI : Fintype κ := Fintype.ofInjective f hf
  refine ⟨Finset.univ.image f, ?_, fun x hx h0 => ?_⟩
  · rw [Finset.card_image_of_injective _ hf, Finset.card_univ]
    have h1 := linearIndependent_iff_card_eq_finrank_span.1 hl
    rw [h1, Set.finrank, hs, hspan, finrank_top, Module.finrank_fin_fun]
  · let c := b.repr ⟨x, hx⟩
    have hx1 : ∀ i, (x i : ℚ) = ∑ j, (c j : ℚ) * M j i := by
      intro i
      have h1 := congrArg (fun y : N => ((y : N) : Fin d → ℤ) i) (b.sum_repr ⟨x, hx⟩)
      simp only [Submodule.coe_sum, Submodule.coe_smul, Finset.sum_apply, Pi.smul_apply, smul_eq_mul] at h1
      rw [← h1]
      push_cast
      rfl
    let φ : (Fin r → ℚ) →ₗ[ℚ] ℚ := ∑ j, (c j : ℚ) • LinearMap.proj j
    have hφ : ∀ y, φ y = ∑ j, (c j : ℚ) * y j := by
      intro y
      simp [φ, LinearMap.sum_apply]
    have hker : (⊤ : Submodule ℚ (Fin r → ℚ)) ≤ LinearMap.ker φ := by
      rw [← hspan, ← hs, Submodule.span_le]
      rintro _ ⟨k, rfl⟩
      rw [SetLike.mem_coe, LinearMap.mem_ker, hφ]
      have h2 := hx1 (f k)
      rw [h0 (f k) (Finset.mem_image_of_mem _ (Finset.mem_univ _)), Int.cast_zero] at h2
      exact h2.symm
    have hall : ∀ y, φ y = 0 := fun y => LinearMap.mem_ker.1 (hker trivial)
    funext i
    have h3 := hx1 i
    rw [← hφ (fun j => M j i), hall] at h3
    exact_mod_cast h3

end Systre
