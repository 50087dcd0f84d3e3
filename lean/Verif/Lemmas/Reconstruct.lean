import Verif.Lemmas.Modular
import Mathlib.NumberTheory.Real.GoldenRatio
import Mathlib.Data.Rat.Cast.Order
import Mathlib.Tactic.FieldSimp
import Mathlib.Tactic.LinearCombination

namespace Systre.Modular
open Systre

theorem dvd_eq {h x y : Int} (hd : h ∣ x) (e : y = x) : h ∣ y := e ▸ hd

/-- The bound the argument needs, from the golden ratio. -/
theorem golden_bound {h B u : Int} (hB : 1 ≤ B)
    (hh : (Real.goldenRatio * B) ^ 2 ≤ (h : ℝ)) (hu : 0 ≤ u) (hu2 : u ^ 2 ≤ h) : B * (u + B) < h := by
  have hBr : (1 : ℝ) ≤ B := by exact_mod_cast hB
  have hφ := Real.goldenRatio_pos
  have hφ1 := Real.one_lt_goldenRatio
  have hφ2 : Real.goldenRatio ^ 2 = Real.goldenRatio + 1 := Real.goldenRatio_sq
  have hne : (Real.goldenRatio * B) ^ 2 ≠ (h : ℝ) := by
    intro he
    rw [mul_pow, hφ2] at he
    have hirr := Real.goldenRatio_irrational
    apply hirr
    refine ⟨(h : ℚ) / (B : ℚ) ^ 2 - 1, ?_⟩
    push_cast
    rw [← he]
    field_simp
    ring
  have hlt := lt_of_le_of_ne hh hne
  set w := Real.sqrt (h : ℝ) with hw
  have hh0 : (0 : ℝ) ≤ h := le_trans (sq_nonneg _) hh
  have hww : w ^ 2 = h := Real.sq_sqrt hh0
  have hw0 : 0 ≤ w := Real.sqrt_nonneg _
  have h1 : Real.goldenRatio * B < w := Real.lt_sqrt_of_sq_lt hlt
  have h2 : (u : ℝ) ≤ w := Real.le_sqrt_of_sq_le (by exact_mod_cast hu2)
  have h3 : ((B * (u + B) : Int) : ℝ) < (h : ℝ) := by
    push_cast
    rw [← hww]
    have hfac : (w - Real.goldenRatio * B) * (w + (Real.goldenRatio - 1) * B) = w ^ 2 - B * w - B ^ 2 := by
      have : (w - Real.goldenRatio * B) * (w + (Real.goldenRatio - 1) * B) =
          w ^ 2 - B * w - B ^ 2 * (Real.goldenRatio ^ 2 - Real.goldenRatio) := by ring
      rw [this, hφ2]; ring
    have hpos : 0 < (w - Real.goldenRatio * B) * (w + (Real.goldenRatio - 1) * B) := by
      apply mul_pos
      · linarith
      · have : 0 ≤ (Real.goldenRatio - 1) * B := mul_nonneg (by linarith) (by linarith)
        have : 0 < Real.goldenRatio * B := by positivity
        linarith
    rw [hfac] at hpos
    nlinarith
  exact_mod_cast h3

/-- Loop invariant of the reconstruction. -/
structure RInv (s h u u1 v v1 σ : Int) : Prop where
  sgn : σ = 1 ∨ σ = -1
  u1n : 0 ≤ u1
  un : 0 < u
  vn : 0 ≤ v
  v1n : 0 ≤ v1
  det : u1 * v + u * v1 = h
  c1 : h ∣ σ * u1 - s * v1
  c0 : h ∣ σ * u + s * v
  big : h < u ^ 2
  nz : v1 = 0 → h < u1 ^ 2

theorem reconLoop_inv {s h : Int} (hh : 0 < h) : ∀ (fuel : Nat) (u u1 v v1 σ : Int), RInv s h u u1 v v1 σ →
    u1.toNat < fuel →
    ∃ u' u1' v' v1' σ', RInv s h u' u1' v' v1' σ' ∧ u1' ^ 2 ≤ h ∧
      reconLoop fuel h u u1 v v1 σ = .ok (σ' * u1', v1') := by
  intro fuel
  induction fuel with
  | zero => intros; omega
  | succ fuel ih =>
    intro u u1 v v1 σ hI hf
    unfold reconLoop
    by_cases hc : u1 ^ 2 > h
    · have hu1 : 0 < u1 := by
        rcases eq_or_lt_of_le hI.u1n with h1 | h1
        · rw [← h1] at hc; simp at hc; omega
        · exact h1
      rw [if_pos hc, if_neg (by omega)]
      have hmod : u - u.tdiv u1 * u1 = u.tmod u1 := by
        have := Int.mul_tdiv_add_tmod u u1; rw [mul_comm] at this; omega
      have hmod0 : 0 ≤ u.tmod u1 := Int.tmod_nonneg _ hI.un.le
      have hmod1 : u.tmod u1 < u1 := Int.tmod_lt_of_pos _ hu1
      have hq0 : 0 ≤ u.tdiv u1 := Int.tdiv_nonneg hI.un.le hu1.le
      have hI' : RInv s h u1 (u.tmod u1) v1 (v + u.tdiv u1 * v1) (-σ) := by
        rw [← hmod]
        set q := u.tdiv u1
        have hqv : 0 ≤ q * v1 := mul_nonneg hq0 hI.v1n
        refine ⟨by have := hI.sgn; omega, by omega, hu1, hI.v1n, by have := hI.vn; omega, ?_, ?_, ?_, hc, ?_⟩
        · rw [← hI.det]; ring
        · have := dvd_add hI.c0 (Dvd.dvd.mul_left hI.c1 (-q))
          rw [← dvd_neg]
          exact dvd_eq this (by ring)
        · rw [← dvd_neg]; exact dvd_eq hI.c1 (by ring)
        · intro h0
          have hv : v = 0 := by have := hI.vn; omega
          have hqv0 : q * v1 = 0 := by omega
          have hd := hI.det
          rw [hv] at hd
          have hv1 : v1 ≠ 0 := by rintro rfl; simp at hd; omega
          have : q = 0 := by
            rcases mul_eq_zero.1 hqv0 with h | h
            · exact h
            · exact absurd h hv1
          rw [this]; simp only [zero_mul, sub_zero]; exact hI.big
      exact ih _ _ _ _ _ hI' (by omega)
    · rw [if_neg hc]
      exact ⟨u, u1, v, v1, σ, hI, by omega, rfl⟩

theorem recon_signs {u u1 v v1 h B α β N D : Int} (hB : 1 ≤ B) (hh0 : 0 < h) (hgb : B * (u1 + B) < h)
    (huB : B < u) (hv1 : 0 < v1) (hv0 : 0 ≤ v) (hu0 : 0 ≤ u1) (hun : 0 < u) (hb : 0 < β)
    (eN : N = α * u1 - β * u) (eD : D = α * v1 + β * v) (hN : |N| ≤ B) (hD : |D| ≤ B)
    (hβ : u1 * D - v1 * N = h * β) : False := by
  have hNN := abs_le.1 hN
  have hDD := abs_le.1 hD
  have ha : 0 < α := by
    by_contra hcon
    have h1 : 0 ≤ -α * u1 := mul_nonneg (by omega) hu0
    have h2 : u * 1 ≤ u * β := mul_le_mul_of_nonneg_left (by omega) hun.le
    have h3 := hNN.1
    have h4 : N = -(-α * u1) - u * β := by rw [eN]; ring
    omega
  have h1 : v1 ≤ B := by
    have h3 : v1 * 1 ≤ v1 * α := mul_le_mul_of_nonneg_left (by omega) hv1.le
    have h4 : 0 ≤ β * v := mul_nonneg (by omega) hv0
    have h5 : D = v1 * α + β * v := by rw [eD]; ring
    omega
  have h2 : h * 1 ≤ h * β := mul_le_mul_of_nonneg_left (by omega) hh0.le
  have h3 : u1 * D ≤ u1 * B := mul_le_mul_of_nonneg_left hDD.2 hu0
  have h4 : v1 * -N ≤ v1 * B := mul_le_mul_of_nonneg_left (by omega) hv1.le
  have h5 : v1 * B ≤ B * B := mul_le_mul_of_nonneg_right h1 (by omega)
  have h6 : B * (u1 + B) = u1 * B + B * B := by ring
  have h7 : v1 * -N = -(v1 * N) := by ring
  omega

/-- The lattice argument: at the end of the loop every small solution is a multiple of the current one. -/
theorem recon_unique {s h u u1 v v1 σ N D B : Int} (hI : RInv s h u u1 v v1 σ) (hs : u1 ^ 2 ≤ h)
    (hB : 1 ≤ B) (hh : (Real.goldenRatio * B) ^ 2 ≤ (h : ℝ)) (hN : |N| ≤ B) (hD : |D| ≤ B)
    (hc : h ∣ D * s - N) (hh0 : 0 < h) : u1 * D = v1 * (σ * N) := by
  have hgb := golden_bound hB hh hI.u1n hs
  have hσσ : σ * σ = 1 := by rcases hI.sgn with h | h <;> subst h <;> rfl
  have hσ1 : |σ| = 1 := by rcases hI.sgn with h | h <;> subst h <;> rfl
  -- coordinates
  obtain ⟨β, hβ⟩ : h ∣ u1 * D - v1 * (σ * N) := by
    have h1 := Dvd.dvd.mul_left hI.c1 (σ * D)
    have h2 := Dvd.dvd.mul_left hc (σ * v1)
    have := dvd_add h1 h2
    refine dvd_eq this ?_
    linear_combination (-(u1 * D)) * hσσ
  obtain ⟨α, hα⟩ : h ∣ u * D + v * (σ * N) := by
    have h1 := Dvd.dvd.mul_left hI.c0 (σ * D)
    have h2 := Dvd.dvd.mul_left hc (-σ * v)
    have := dvd_add h1 h2
    refine dvd_eq this ?_
    linear_combination (-(u * D)) * hσσ
  have hdet := hI.det
  have eN : σ * N = α * u1 - β * u := by
    have : h * (σ * N) = h * (α * u1 - β * u) := by
      have e1 : h * (α * u1 - β * u) = u1 * (h * α) - u * (h * β) := by ring
      rw [e1, ← hα, ← hβ, ← hdet]; ring
    exact mul_left_cancel₀ hh0.ne' this
  have eD : D = α * v1 + β * v := by
    have : h * D = h * (α * v1 + β * v) := by
      have e1 : h * (α * v1 + β * v) = v1 * (h * α) + v * (h * β) := by ring
      rw [e1, ← hα, ← hβ, ← hdet]; ring
    exact mul_left_cancel₀ hh0.ne' this
  have hN' : |σ * N| ≤ B := by rw [abs_mul, hσ1, one_mul]; exact hN
  have hb2 : B * B < h := by nlinarith [mul_nonneg (show (0:Int) ≤ B by omega) hI.u1n]
  have huB : B < u := by
    by_contra hcon
    have h1 := hI.big
    nlinarith [hI.un]
  have hv1 : 0 < v1 := by
    rcases eq_or_lt_of_le hI.v1n with h | h
    · have := hI.nz h.symm; omega
    · exact h
  have hNN := abs_le.1 hN'
  have hDD := abs_le.1 hD
  rw [← sub_eq_zero, hβ]
  by_contra hne
  have hβ0 : β ≠ 0 := by rintro rfl; simp at hne
  have hv0 := hI.vn
  have hu0 := hI.u1n
  have hun := hI.un
  rcases lt_or_gt_of_ne hβ0 with hb | hb
  · exact recon_signs (N := -(σ * N)) (D := -D) (α := -α) (β := -β) hB hh0 hgb huB hv1 hv0 hu0 hun (by omega)
      (by rw [eN]; ring) (by rw [eD]; ring) (by rwa [abs_neg]) (by rwa [abs_neg])
      (by linear_combination -hβ)
  · exact recon_signs hB hh0 hgb huB hv1 hv0 hu0 hun hb eN eD hN' hD hβ

/-- Changing the sign of `s` changes the sign of the result. -/
theorem reconLoop_neg {h : Int} : ∀ (fuel : Nat) (u u1 v v1 σ n d : Int),
    reconLoop fuel h u u1 v v1 σ = .ok (n, d) →
    (reconLoop fuel h u (-u1) (-v) v1 σ = .ok (-n, d) ∨ reconLoop fuel h u (-u1) (-v) v1 σ = .ok (n, -d)) ∧
    (reconLoop fuel h (-u) u1 v (-v1) σ = .ok (-n, d) ∨ reconLoop fuel h (-u) u1 v (-v1) σ = .ok (n, -d)) := by
  intro fuel
  induction fuel with
  | zero => intro u u1 v v1 σ n d h; simp [reconLoop] at h
  | succ fuel ih =>
    intro u u1 v v1 σ n d he
    unfold reconLoop at he ⊢
    rw [neg_sq]
    by_cases hc : u1 ^ 2 > h
    · rw [if_pos hc] at he ⊢
      rw [if_pos hc]
      by_cases h0 : u1 = 0
      · rw [if_pos h0] at he; cases he
      · rw [if_neg h0] at he ⊢
        rw [if_neg (by omega)]
        obtain ⟨h1, h2⟩ := ih _ _ _ _ _ _ _ he
        simp only [Int.tdiv_neg, Int.neg_tdiv, Int.tmod_neg, Int.neg_tmod]
        constructor
        · rw [show -v + -(u.tdiv u1) * v1 = -(v + u.tdiv u1 * v1) by ring]; exact h2
        · rw [show v + -(u.tdiv u1) * -v1 = v + u.tdiv u1 * v1 by ring]; exact h1
    · rw [if_neg hc] at he ⊢
      rw [if_neg hc]
      cases he
      exact ⟨Or.inl (by rw [mul_neg]), Or.inr rfl⟩

theorem recon_pos {s h N D B : Int} (hs : 0 ≤ s) (hB : 1 ≤ B) (hh : (Real.goldenRatio * B) ^ 2 ≤ (h : ℝ))
    (hN : |N| ≤ B) (hD : |D| ≤ B) (hD0 : D ≠ 0) (hc : h ∣ D * s - N) :
    ∃ n d, reconLoop (s.natAbs + 1) h h s 0 1 1 = .ok (n, d) ∧ d ≠ 0 ∧ (n : Rat) / d = (N : Rat) / D := by
  have h1h : 1 < h := by
    have := golden_bound (u := 0) hB hh le_rfl (by
      have : (0:ℝ) ≤ h := le_trans (sq_nonneg _) hh
      have : 0 ≤ h := by exact_mod_cast this
      simpa using this)
    nlinarith
  have hI : RInv s h h s 0 1 1 :=
    ⟨Or.inl rfl, hs, by omega, le_rfl, by omega, by ring, by simp, by simp, by nlinarith, by intro h; omega⟩
  obtain ⟨u, u1, v, v1, σ, hJ, hst, he⟩ := reconLoop_inv (by omega) (s.natAbs + 1) _ _ _ _ _ hI (by omega)
  have hv1 : v1 ≠ 0 := by intro h0; have := hJ.nz h0; omega
  refine ⟨_, _, he, hv1, ?_⟩
  have := recon_unique hJ hst hB hh hN hD hc (by omega)
  rw [div_eq_div_iff (by exact_mod_cast hv1) (by exact_mod_cast hD0)]
  have h2 : σ * u1 * D = N * v1 := by
    rcases hJ.sgn with h | h <;> subst h <;> linarith
  exact_mod_cast h2

theorem recon_ok {s h N D B : Int} (hB : 1 ≤ B) (hh : (Real.goldenRatio * B) ^ 2 ≤ (h : ℝ))
    (hN : |N| ≤ B) (hD : |D| ≤ B) (hD0 : D ≠ 0) (hc : h ∣ D * s - N) :
    rationalReconstruction s h = .ok ((N : Rat) / D) := by
  unfold rationalReconstruction
  rcases le_or_gt 0 s with hs | hs
  · obtain ⟨n, d, h1, h2, h3⟩ := recon_pos hs hB hh hN hD hD0 hc
    rw [h1]; simp only [Outcome.ok_bind]; rw [if_neg h2, h3]
  · obtain ⟨n, d, h1, h2, h3⟩ := recon_pos (s := -s) (N := -N) (by omega) hB hh (by rwa [abs_neg]) hD hD0
      (by rw [← dvd_neg]; exact dvd_eq hc (by ring))
    have := (reconLoop_neg _ _ _ _ _ _ _ _ h1).1
    rw [Int.natAbs_neg] at this
    simp only [neg_neg, neg_zero] at this
    rcases this with h4 | h4 <;> rw [h4] <;> simp only [Outcome.ok_bind]
    · rw [if_neg h2]
      push_cast at h3 ⊢
      rw [neg_div, h3, neg_div, neg_neg]
    · rw [if_neg (by omega)]
      push_cast at h3 ⊢
      rw [div_neg, h3, neg_div, neg_neg]

end Systre.Modular
