import Verif.Model.Lattices
import Verif.Spec.Lattices
import Verif.Lemmas.GeomExtra
import Mathlib.LinearAlgebra.Matrix.BilinearForm
import Mathlib.LinearAlgebra.LinearIndependent.Lemmas
import Mathlib.Tactic.Linarith
import Mathlib.Tactic.FieldSimp

/-! Helper lemmas: lattice reduction, the algebra. -/

namespace Systre.Lattices
open Systre Submodule

/-! ### a positive definite symmetric bilinear form -/

/-- a positive definite symmetric bilinear form -/
structure PosForm {V : Type} [AddCommGroup V] [Module ℚ V] (B : V →ₗ[ℚ] V →ₗ[ℚ] ℚ) : Prop where
  symm : ∀ x y, B x y = B y x
  pos : ∀ x, x ≠ 0 → 0 < B x x

theorem isDot_form {d : Nat} {dot : List Rat → List Rat → Rat} (h : IsDot d dot) :
    ∃ B : (Fin d → ℚ) →ₗ[ℚ] (Fin d → ℚ) →ₗ[ℚ] ℚ, PosForm B ∧
      ∀ v w, v.length = d → w.length = d → dot v w = B (rowVec d v) (rowVec d w) := by
  obtain ⟨G, h1, h2, h3⟩ := h
  refine ⟨Matrix.toBilin' G, ⟨?_, ?_⟩, ?_⟩
  · intro x y
    rw [Matrix.toBilin'_apply', Matrix.toBilin'_apply', Matrix.dotProduct_mulVec, dotProduct_comm,
      ← Matrix.mulVec_transpose, h1.eq]
  · intro x hx
    rw [Matrix.toBilin'_apply']; exact h2 x hx
  · intro v w hv hw
    rw [Matrix.toBilin'_apply']; exact h3 v w hv hw

section form
variable {V : Type} [AddCommGroup V] [Module ℚ V] {B : V →ₗ[ℚ] V →ₗ[ℚ] ℚ}

theorem PosForm.nonneg (h : PosForm B) (x : V) : 0 ≤ B x x := by
  by_cases hx : x = 0
  · subst hx; simp
  · exact (h.pos x hx).le

theorem PosForm.eq_zero (h : PosForm B) {x : V} (hx : B x x = 0) : x = 0 := by
  by_contra hn
  exact (h.pos x hn).ne' hx

/-- values of the form on a finitely generated group have a common denominator -/
theorem form_denom (B : V →ₗ[ℚ] V →ₗ[ℚ] ℚ) (S : Finset V) :
    ∃ D : ℕ, 0 < D ∧ ∀ x ∈ span ℤ (S : Set V), ∀ y ∈ span ℤ (S : Set V), ∃ z : ℤ, (D : ℚ) * B x y = z := by
  classical
  refine ⟨∏ x ∈ S, ∏ y ∈ S, (B x y).den, ?_, ?_⟩
  · exact Finset.prod_pos (fun x _ => Finset.prod_pos (fun y _ => (B x y).den_pos))
  set D := ∏ x ∈ S, ∏ y ∈ S, (B x y).den with hD
  have base : ∀ x ∈ S, ∀ y ∈ S, ∃ z : ℤ, (D : ℚ) * B x y = z := by
    intro x hx y hy
    have h1 : (B x y).den ∣ D :=
      (Finset.dvd_prod_of_mem (fun y => (B x y).den) hy).trans
        (Finset.dvd_prod_of_mem (fun x => ∏ y ∈ S, (B x y).den) hx)
    obtain ⟨k, hk⟩ := h1
    refine ⟨k * (B x y).num, ?_⟩
    have hne : ((B x y).den : ℚ) ≠ 0 := by exact_mod_cast (B x y).den_nz
    rw [hk]
    push_cast
    have := Rat.num_div_den (B x y)
    rw [div_eq_iff hne] at this
    rw [this]; ring
  intro x hx y hy
  induction hx using span_induction with
  | mem x hx =>
    induction hy using span_induction with
    | mem y hy => exact base x hx y hy
    | zero => exact ⟨0, by simp⟩
    | add y y' _ _ h h' =>
      obtain ⟨z, hz⟩ := h; obtain ⟨z', hz'⟩ := h'
      exact ⟨z + z', by rw [map_add, mul_add, hz, hz']; push_cast; ring⟩
    | smul a y _ h =>
      obtain ⟨z, hz⟩ := h
      refine ⟨a * z, ?_⟩
      rw [map_zsmul, zsmul_eq_mul, mul_left_comm, hz]; push_cast; ring
  | zero => exact ⟨0, by simp⟩
  | add x x' _ _ h h' =>
    obtain ⟨z, hz⟩ := h; obtain ⟨z', hz'⟩ := h'
    exact ⟨z + z', by rw [map_add, LinearMap.add_apply, mul_add, hz, hz']; push_cast; ring⟩
  | smul a x _ h =>
    obtain ⟨z, hz⟩ := h
    refine ⟨a * z, ?_⟩
    rw [map_zsmul, LinearMap.smul_apply, zsmul_eq_mul, mul_left_comm, hz]; push_cast; ring

/-- norms as natural numbers -/
theorem norm_nat (h : PosForm B) {D : ℕ} {x : V} (hz : ∃ z : ℤ, (D : ℚ) * B x x = z) :
    ∃ n : ℕ, (D : ℚ) * B x x = n := by
  obtain ⟨z, hz⟩ := hz
  have : 0 ≤ (z : ℚ) := by rw [← hz]; exact mul_nonneg (by positivity) (h.nonneg x)
  have hz0 : 0 ≤ z := by exact_mod_cast this
  obtain ⟨n, rfl⟩ := Int.eq_ofNat_of_zero_le hz0
  exact ⟨n, by rw [hz]; push_cast; rfl⟩

end form

/-! ### rounding -/

theorem rround_spec (q : ℚ) : ∃ z : ℤ, rround q = z ∧ |q - z| ≤ 1 / 2 := by
  have h1 := rem1_abs q
  have h2 := rem1_eq q
  unfold rround
  simp only
  rw [← h2]
  split
  · rename_i h
    split
    · rename_i hq
      have h3 := rem1_nonneg hq
      rw [abs_of_nonneg h3] at h h1
      refine ⟨q.num.tdiv q.den + 1, by push_cast; rfl, ?_⟩
      push_cast
      rw [abs_le]; constructor <;> linarith
    · rename_i hq
      have h3 := rem1_nonpos (not_le.1 hq).le
      rw [abs_of_nonpos h3] at h h1
      refine ⟨q.num.tdiv q.den - 1, by push_cast; rfl, ?_⟩
      push_cast
      rw [abs_le]; constructor <;> linarith
  · rename_i h
    refine ⟨q.num.tdiv q.den, rfl, ?_⟩
    rw [← h2]
    exact (not_le.1 h).le

/-- rounding moves towards zero by less than twice the value -/
theorem rround_step {t : ℚ} (h : t + t < -1 ∨ t + t > 1) : 0 < rround t * (2 * t - rround t) := by
  obtain ⟨z, hz, h1⟩ := rround_spec t
  rw [hz]
  rw [abs_le] at h1
  rcases h with h | h
  · have h2 : (z : ℚ) < 0 := by linarith
    have : 2 * t - z < 0 := by
      have : z ≤ -1 := by
        have : z < 0 := by exact_mod_cast h2
        omega
      have : (z : ℚ) ≤ -1 := by exact_mod_cast this
      linarith
    exact mul_pos_of_neg_of_neg h2 this
  · have h2 : (0 : ℚ) < z := by linarith
    have : 0 < 2 * t - z := by linarith
    exact mul_pos h2 this

/-! ### vectors as lists -/

theorem vNeg_length (v : List Rat) : (vNeg v).length = v.length := by simp [vNeg]
theorem vAdd_length (v w : List Rat) : (vAdd v w).length = v.length := by simp [vAdd]
theorem vSub_length (v w : List Rat) : (vSub v w).length = v.length := by simp [vSub]
theorem vMul_length (v : List Rat) (t : Rat) : (vMul v t).length = v.length := by simp [vMul]

theorem rowVec_apply {T : Type} [Zero T] (n : Nat) (l : List T) (i : Fin n) : rowVec n l i = rent l i.1 := rfl

theorem rv_neg {d : Nat} (v : List Rat) : rowVec d (vNeg v) = - rowVec d v := by
  ext i
  simp only [rowVec, vNeg, Pi.neg_apply, List.getD_eq_getElem?_getD, List.getElem?_map]
  cases v[i.1]? <;> simp

theorem rv_add {d : Nat} {v w : List Rat} (hv : v.length = d) :
    rowVec d (vAdd v w) = rowVec d v + rowVec d w := by
  ext i
  rw [Pi.add_apply, rowVec_apply, rowVec_apply, rowVec_apply, vAdd, rent_rowFn, if_pos (by omega)]

theorem rv_sub {d : Nat} {v w : List Rat} (hv : v.length = d) :
    rowVec d (vSub v w) = rowVec d v - rowVec d w := by
  ext i
  rw [Pi.sub_apply, rowVec_apply, rowVec_apply, rowVec_apply, vSub, rent_rowFn, if_pos (by omega)]

theorem rv_mul {d : Nat} {v : List Rat} (t : Rat) (hv : v.length = d) :
    rowVec d (vMul v t) = t • rowVec d v := by
  ext i
  rw [Pi.smul_apply, rowVec_apply, rowVec_apply, vMul, rent_rowFn, if_pos (by omega), smul_eq_mul, mul_comm]

theorem rv_zero {d n : Nat} : rowVec d (List.replicate n (0 : ℚ)) = 0 := by
  ext i
  simp only [rowVec, List.getD_eq_getElem?_getD, List.getElem?_replicate, Pi.zero_apply]
  split <;> simp

theorem rv_inj {d : Nat} {v w : List Rat} (hv : v.length = d) (hw : w.length = d)
    (h : rowVec d v = rowVec d w) : v = w := by
  apply ext_rent (by rw [hv, hw])
  intro k
  by_cases hk : k < d
  · have := congrFun h ⟨k, hk⟩
    simpa [rowVec_apply] using this
  · rw [rent_ge (by omega), rent_ge (by omega)]

theorem latticeOf_mem {d : Nat} {vs : List (List Rat)} {v : List Rat} (h : v ∈ vs) :
    rowVec d v ∈ latticeOf d vs := subset_span ⟨v, h, rfl⟩

theorem latticeOf_finset (d : Nat) (vs : List (List Rat)) :
    ∃ S : Finset (Fin d → ℚ), latticeOf d vs = span ℤ (S : Set (Fin d → ℚ)) := by
  classical
  refine ⟨(vs.map (rowVec d)).toFinset, ?_⟩
  unfold latticeOf
  congr 1
  ext x
  simp

end Systre.Lattices
