import Verif.Model.ModularSolver
import Mathlib.Data.Int.GCD
import Mathlib.Data.Int.ModEq
import Mathlib.Tactic.Ring
import Mathlib.Tactic.Linarith
import Mathlib.Algebra.Order.Group.Unbundled.Int
import Mathlib.Algebra.Ring.Divisibility.Basic
import Mathlib.Algebra.Order.Ring.Abs

namespace Systre.Modular
open Systre

/-- the checker accepts everything up to `K` in absolute value -/
def Accepts (ck : Int → Outcome Int) (K : Int) : Prop := ∀ x : Int, |x| ≤ K → ck x = .ok x

theorem accepts_ideal (K : Int) : Accepts ideal K := fun _ _ => rfl

theorem accepts_i64 {K : Int} (h : K < 2 ^ 63) : Accepts i64Check K := by
  intro x hx
  have := abs_le.1 hx
  unfold i64Check
  rw [if_pos]
  omega

theorem Accepts.mono {ck : Int → Outcome Int} {K K' : Int} (h : Accepts ck K) (hK : K' ≤ K) :
    Accepts ck K' := fun x hx => h x (le_trans hx hK)

theorem invLoop_ok {ck : Int → Outcome Int} {m a : Int} (hck : Accepts ck m) (hm : 0 < m) :
    ∀ (fuel : Nat) (σ τ τ1 r r1 : Int), (σ = 1 ∨ σ = -1) → 0 ≤ τ → 0 < τ1 → 0 ≤ r1 → r1 < r → τ < m →
      r * τ1 + r1 * τ = m → m ∣ a * (-σ * τ) - r → m ∣ a * (σ * τ1) - r1 →
      Int.gcd r r1 = Int.gcd a m → r1.toNat < fuel →
      ∃ t g : Int, invLoop ck fuel (-σ * τ) (σ * τ1) r r1 = .ok (t, g) ∧ |t| < m ∧ m ∣ a * t - g ∧
        g = (Int.gcd a m : Int) := by
  intro fuel
  induction fuel with
  | zero => intros; omega
  | succ fuel ih =>
    intro σ τ τ1 r r1 hσ hτ hτ1 hr1 hr hτm hdet hd hd1 hg hf
    have hσ1 : |σ| = 1 := by rcases hσ with h | h <;> subst h <;> rfl
    unfold invLoop
    by_cases h0 : r1 = 0
    · subst h0
      simp only [ne_eq, not_true_eq_false, if_false]
      refine ⟨_, _, rfl, ?_, hd, ?_⟩
      · rw [abs_mul, abs_neg, hσ1, one_mul, abs_of_nonneg hτ]; exact hτm
      · rw [← hg]; simp [abs_of_pos hr]
    · have hr1p : 0 < r1 := lt_of_le_of_ne hr1 (Ne.symm h0)
      have hmod : r - r.tdiv r1 * r1 = r.tmod r1 := by
        have := Int.mul_tdiv_add_tmod r r1; rw [mul_comm] at this; omega
      have hmod0 : 0 ≤ r.tmod r1 := Int.tmod_nonneg _ (by omega)
      have hmod1 : r.tmod r1 < r1 := Int.tmod_lt_of_pos _ hr1p
      have hq1 : 0 < r.tdiv r1 := by
        rcases lt_or_ge 0 (r.tdiv r1) with h | h
        · exact h
        · nlinarith
      have hqm : r.tmod r1 = r % r1 := Int.tmod_eq_emod_of_nonneg (by omega)
      set q := r.tdiv r1 with hq
      have hrm : r ≤ m := by nlinarith [mul_nonneg hr1 hτ]
      have hdet' : r1 * (τ + q * τ1) + (r - q * r1) * τ1 = m := by rw [← hdet]; ring
      have hqt : 0 < q * τ1 := mul_pos hq1 hτ1
      have hle : τ + q * τ1 ≤ m := by
        have : 0 ≤ (r - q * r1) * τ1 := mul_nonneg (by omega) hτ1.le
        nlinarith
      have hqle : q ≤ r := by nlinarith
      have hqr : 0 < q * r1 := mul_pos hq1 hr1p
      have e1 : ck q = .ok q := hck _ (by rw [abs_of_pos hq1]; omega)
      have e2 : ck (q * (σ * τ1)) = .ok (q * (σ * τ1)) := hck _ (by
        rw [show q * (σ * τ1) = σ * (q * τ1) by ring, abs_mul, hσ1, one_mul, abs_of_pos hqt]; omega)
      have e3 : ck (-σ * τ - q * (σ * τ1)) = .ok (-(σ) * (τ + q * τ1)) := by
        rw [show -σ * τ - q * (σ * τ1) = -σ * (τ + q * τ1) by ring]
        exact hck _ (by rw [abs_mul, abs_neg, hσ1, one_mul, abs_of_nonneg (by positivity)]; exact hle)
      have e4 : ck (q * r1) = .ok (q * r1) := hck _ (by rw [abs_of_pos hqr]; omega)
      have e5 : ck (r - q * r1) = .ok (r - q * r1) := hck _ (by rw [abs_of_nonneg (by omega)]; omega)
      rw [if_pos h0]
      simp only [e1, e2, e3, e4, e5, Outcome.ok_bind]
      have hrec := ih (-σ) τ1 (τ + q * τ1) r1 (r - q * r1) (by omega) hτ1.le (by omega) (by omega)
        (by omega) (by nlinarith) hdet' (by simpa using hd1) ?_ ?_ (by omega)
      · simpa using hrec
      · have := dvd_sub hd (Dvd.dvd.mul_left hd1 q)
        refine (Int.dvd_iff_dvd_of_dvd_sub ?_).1 this
        rw [show (a * (-σ * τ) - r - q * (a * (σ * τ1) - r1)) - (a * (-σ * (τ + q * τ1)) - (r - q * r1)) = 0
          by ring]
        exact dvd_zero _
      · rw [hmod, hqm, ← hg, Int.gcd_comm]; exact Int.gcd_emod _ _

theorem modularInverse_ok {ck : Int → Outcome Int} {m a : Int} (hck : Accepts ck m) (hm : 2 ≤ m) (ha : 0 ≤ a)
    (ham : a < m) :
    (Int.gcd a m = 1 → ∃ x, modularInverse ck a m = .ok (some x) ∧ 0 ≤ x ∧ x < m ∧ m ∣ a * x - 1) ∧
    (Int.gcd a m ≠ 1 → modularInverse ck a m = .ok none) := by
  obtain ⟨t, g, h1, h2, h3, h4⟩ := invLoop_ok (ck := ck) (m := m) (a := a) hck (by omega) (a.natAbs + 1) 1 0 1 m a
    (Or.inl rfl) le_rfl (by omega) ha ham (by omega) (by ring) (by simp) (by simp) (Int.gcd_comm _ _) (by omega)
  have h1' : invLoop ck (a.natAbs + 1) 0 1 m a = .ok (t, g) := by simpa using h1
  have := abs_lt.1 h2
  unfold modularInverse
  rw [h1']
  simp only [Outcome.ok_bind]
  constructor
  · intro hg
    rw [hg] at h4
    have h4 : g = 1 := by simpa using h4
    subst h4
    rw [if_pos rfl]
    split
    · rename_i ht
      rw [hck (t + m) (by rw [abs_of_nonneg (by omega)]; omega)]
      refine ⟨t + m, rfl, by omega, by omega, ?_⟩
      rw [show a * (t + m) - 1 = (a * t - 1) + m * a by ring]
      exact dvd_add h3 (Dvd.intro _ rfl)
    · exact ⟨t, rfl, by omega, by omega, h3⟩
  · intro hg
    rw [if_neg]
    intro h; apply hg; omega

end Systre.Modular
