import Verif.Model.FloatLinear
import Verif.Spec.Float
import Mathlib.Tactic.FieldSimp
import Mathlib.Tactic.GCongr
import Mathlib.Tactic.Positivity
import Mathlib.Algebra.Ring.Parity
import Mathlib.Tactic.Ring
import Mathlib.Algebra.Order.Field.Power
import Mathlib.Tactic.NormNum.Pow

/-! # Rounding to 53 significant bits -/

namespace Systre.Round

/-- the power of two below a positive number -/
theorem exponent {n d : Nat} (hn : 0 < n) (hd : 0 < d) : ∃ e : Int,
    (if (if (n.log2 : Int) - (d.log2 : Int) ≤ 0 then n * 2 ^ (-((n.log2 : Int) - (d.log2 : Int))).toNat < d
      else n < d * 2 ^ ((n.log2 : Int) - (d.log2 : Int)).toNat) then (n.log2 : Int) - (d.log2 : Int) - 1
      else (n.log2 : Int) - (d.log2 : Int)) = e ∧ (2 : ℚ) ^ e * d ≤ n ∧ (n : ℚ) < 2 ^ (e + 1) * d := by
  have h1 := Nat.log2_self_le hn.ne'
  have h2 := Nat.lt_log2_self (n := n)
  have h3 := Nat.log2_self_le hd.ne'
  have h4 := Nat.lt_log2_self (n := d)
  generalize n.log2 = a at *
  generalize d.log2 = b at *
  have h1' : (2 : ℚ) ^ (a : Int) ≤ n := by rw [zpow_natCast]; exact_mod_cast h1
  have h2' : (n : ℚ) < 2 ^ ((a : Int) + 1) := by
    rw [show ((a : Int) + 1) = ((a + 1 : Nat) : Int) by push_cast; rfl, zpow_natCast]; exact_mod_cast h2
  have h3' : (2 : ℚ) ^ (b : Int) ≤ d := by rw [zpow_natCast]; exact_mod_cast h3
  have h4' : (d : ℚ) < 2 ^ ((b : Int) + 1) := by
    rw [show ((b : Int) + 1) = ((b + 1 : Nat) : Int) by push_cast; rfl, zpow_natCast]; exact_mod_cast h4
  have hup : (n : ℚ) < 2 ^ ((a : Int) - b + 1) * d := by
    calc (n : ℚ) < 2 ^ ((a : Int) + 1) := h2'
      _ = 2 ^ ((a : Int) - b + 1) * 2 ^ (b : Int) := by rw [← zpow_add₀ (by norm_num)]; congr 1; ring
      _ ≤ _ := by gcongr
  have hlow : (2 : ℚ) ^ ((a : Int) - b - 1) * d ≤ n := by
    calc (2 : ℚ) ^ ((a : Int) - b - 1) * d ≤ 2 ^ ((a : Int) - b - 1) * 2 ^ ((b : Int) + 1) := by gcongr
      _ = 2 ^ (a : Int) := by rw [← zpow_add₀ (by norm_num)]; congr 1; ring
      _ ≤ n := h1'
  have hcond : (if (a : Int) - (b : Int) ≤ 0 then n * 2 ^ (-((a : Int) - (b : Int))).toNat < d
      else n < d * 2 ^ ((a : Int) - (b : Int)).toNat) ↔ (n : ℚ) < 2 ^ ((a : Int) - b) * d := by
    split
    · rename_i h
      obtain ⟨k, hk⟩ : ∃ k : Nat, (a : Int) - b = -(k : Int) := ⟨(-((a : Int) - b)).toNat, by omega⟩
      rw [hk, neg_neg, Int.toNat_natCast, zpow_neg, zpow_natCast]
      have : (n : ℚ) < (2 ^ k)⁻¹ * d ↔ (n : ℚ) * 2 ^ k < d := by
        rw [inv_mul_eq_div, lt_div_iff₀ (by positivity)]
      rw [this]
      exact_mod_cast Iff.rfl
    · rename_i h
      obtain ⟨k, hk⟩ : ∃ k : Nat, (a : Int) - b = (k : Int) := ⟨((a : Int) - b).toNat, by omega⟩
      rw [hk, Int.toNat_natCast, zpow_natCast, mul_comm d]
      exact_mod_cast Iff.rfl
  by_cases h : (n : ℚ) < 2 ^ ((a : Int) - b) * d
  · refine ⟨_, rfl, ?_⟩
    rw [if_pos (hcond.2 h)]
    exact ⟨hlow, by rw [sub_add_cancel]; exact h⟩
  · refine ⟨_, rfl, ?_⟩
    rw [if_neg (fun h' => h (hcond.1 h'))]
    exact ⟨not_lt.1 h, hup⟩

/-- the nearest integer to a fraction, ties to even -/
theorem nearest {a b : Nat} (hb : 0 < b) :
    |(a : ℚ) / b - ((if 2 * (a % b) < b ∨ (2 * (a % b) = b ∧ a / b % 2 = 0) then a / b else a / b + 1 : Nat) : ℚ)| ≤ 1 / 2 ∧
    (|(a : ℚ) / b - ((if 2 * (a % b) < b ∨ (2 * (a % b) = b ∧ a / b % 2 = 0) then a / b else a / b + 1 : Nat) : ℚ)| = 1 / 2 →
      Even (if 2 * (a % b) < b ∨ (2 * (a % b) = b ∧ a / b % 2 = 0) then a / b else a / b + 1)) := by
  have hr : a % b < b := Nat.mod_lt _ hb
  have hdm : (a : ℚ) = b * ((a / b : Nat) : ℚ) + ((a % b : Nat) : ℚ) := by exact_mod_cast (Nat.div_add_mod a b).symm
  generalize a / b = m at *
  generalize a % b = r at *
  have hbq : (0 : ℚ) < b := by exact_mod_cast hb
  have hq : (a : ℚ) / b = m + r / b := by rw [hdm]; field_simp
  rw [hq]
  have hr0 : (0 : ℚ) ≤ (r : ℚ) / b := by positivity
  split
  · rename_i h
    have h2 : 2 * (r : ℚ) ≤ b := by
      rcases h with h | h
      · exact_mod_cast h.le
      · exact_mod_cast h.1.le
    have h3 : (r : ℚ) / b ≤ 1 / 2 := by rw [div_le_iff₀ hbq]; linarith
    rw [show (m : ℚ) + r / b - m = r / b by ring, abs_of_nonneg hr0]
    refine ⟨h3, fun he => ?_⟩
    rw [div_eq_iff hbq.ne'] at he
    have : 2 * r = b := by
      have : 2 * (r : ℚ) = b := by linarith
      exact_mod_cast this
    rcases h with h | h
    · omega
    · exact Nat.even_iff.2 h.2
  · rename_i h
    push Not at h
    have h2 : (b : ℚ) ≤ 2 * r := by exact_mod_cast h.1
    have h3 : 1 / 2 ≤ (r : ℚ) / b := by rw [le_div_iff₀ hbq]; linarith
    have h4 : (r : ℚ) / b < 1 := by rw [div_lt_one hbq]; exact_mod_cast hr
    rw [show (m : ℚ) + r / b - ((m + 1 : Nat) : ℚ) = -(1 - r / b) by push_cast; ring, abs_neg, abs_of_pos (by linarith)]
    refine ⟨by linarith, fun he => ?_⟩
    have h5 : (r : ℚ) / b = 1 / 2 := by linarith
    rw [div_eq_iff hbq.ne'] at h5
    have : 2 * r = b := by
      have : 2 * (r : ℚ) = b := by linarith
      exact_mod_cast this
    have := h.2 this
    rw [Nat.even_iff]
    omega

/-- what is computed for a number that is not zero -/
theorem round_eq {q : ℚ} (hq : q ≠ 0) : ∃ (e : Int) (m : Nat), (2 : ℚ) ^ 52 ≤ |q| * 2 ^ (52 - e) ∧ |q| * 2 ^ (52 - e) < 2 ^ 53 ∧
    |(|q| * 2 ^ (52 - e) - m)| ≤ 1 / 2 ∧ (|(|q| * 2 ^ (52 - e) - m)| = 1 / 2 → Even m) ∧
    round53 q = if q < 0 then -((m : ℚ) * 2 ^ (e - 52)) else (m : ℚ) * 2 ^ (e - 52) := by
  have hn : 0 < q.num.natAbs := Int.natAbs_pos.2 (Rat.num_ne_zero.2 hq)
  have hd : 0 < q.den := q.pos
  obtain ⟨e, he, h1, h2⟩ := exponent hn hd
  have habs : |q| = (q.num.natAbs : ℚ) / q.den := by
    conv_lhs => rw [← Rat.num_div_den q]
    rw [abs_div, Nat.abs_cast, ← Int.cast_abs, Int.abs_eq_natAbs, Int.cast_natCast]
  unfold round53
  rw [if_neg hq]
  simp only [he]
  generalize q.num.natAbs = n at *
  generalize q.den = d at *
  have hdq : (0 : ℚ) < d := by exact_mod_cast hd
  set a := if e ≤ 52 then n * 2 ^ (52 - e).toNat else n with ha
  set b := if e ≤ 52 then d else d * 2 ^ (e - 52).toNat with hb
  have hbp : 0 < b := by rw [hb]; split <;> positivity
  have hab : (a : ℚ) / b = |q| * 2 ^ (52 - e) := by
    rw [habs, ha, hb]
    split
    · rename_i h
      obtain ⟨k, hk⟩ : ∃ k : Nat, 52 - e = (k : Int) := ⟨(52 - e).toNat, by omega⟩
      rw [hk, Int.toNat_natCast, zpow_natCast]
      push_cast
      ring
    · rename_i h
      obtain ⟨k, hk⟩ : ∃ k : Nat, e - 52 = (k : Int) := ⟨(e - 52).toNat, by omega⟩
      rw [show 52 - e = -(k : Int) by omega, hk, Int.toNat_natCast, zpow_neg, zpow_natCast]
      push_cast
      field_simp
  obtain ⟨k1, k2⟩ := nearest (a := a) hbp
  rw [hab] at k1 k2
  refine ⟨e, _, ?_, ?_, k1, k2, ?_⟩
  · rw [habs, div_mul_eq_mul_div, le_div_iff₀ hdq]
    calc (2 : ℚ) ^ 52 * d = 2 ^ e * d * 2 ^ (52 - e) := by
          rw [mul_right_comm, ← zpow_add₀ (by norm_num)]
          congr 1
          rw [show e + (52 - e) = ((52 : Nat) : Int) by push_cast; ring, zpow_natCast]
      _ ≤ n * 2 ^ (52 - e) := by gcongr
  · rw [habs, div_mul_eq_mul_div, div_lt_iff₀ hdq]
    calc (n : ℚ) * 2 ^ (52 - e) < 2 ^ (e + 1) * d * 2 ^ (52 - e) := by gcongr
      _ = 2 ^ 53 * d := by
          rw [mul_right_comm, ← zpow_add₀ (by norm_num)]
          congr 1
          rw [show e + 1 + (52 - e) = ((53 : Nat) : Int) by push_cast; ring, zpow_natCast]
  · have : ∀ m : Nat, (if e ≤ 52 then mkRat m (2 ^ (52 - e).toNat) else ((m * 2 ^ (e - 52).toNat : Nat) : Rat)) =
        (m : ℚ) * 2 ^ (e - 52) := by
      intro m
      split
      · obtain ⟨k, hk⟩ : ∃ k : Nat, 52 - e = (k : Int) := ⟨(52 - e).toNat, by omega⟩
        rw [hk, Int.toNat_natCast, show e - 52 = -(k : Int) by omega, zpow_neg, zpow_natCast, Rat.mkRat_eq_div]
        push_cast
        rfl
      · obtain ⟨k, hk⟩ : ∃ k : Nat, e - 52 = (k : Int) := ⟨(e - 52).toNat, by omega⟩
        rw [hk, Int.toNat_natCast, zpow_natCast]
        push_cast
        rfl
    rw [this]

/-- no integer is nearer than `m`, and another one is as near only if both are at the distance one half -/
theorem int_nearest {t : ℚ} {m : Nat} (h : |t - m| ≤ 1 / 2) (y : Int) : |t - m| ≤ |t - y| ∧ (|t - y| = |t - m| → y ≠ m → |t - m| = 1 / 2) := by
  by_cases hy : y = m
  · subst hy
    exact ⟨by simp, fun _ hne => absurd rfl hne⟩
  · have h1 : (1 : ℚ) ≤ |(y : ℚ) - m| := by
      have : (1 : Int) ≤ |y - m| := Int.one_le_abs (sub_ne_zero.2 hy)
      exact_mod_cast this
    have h2 : |(y : ℚ) - m| ≤ |t - y| + |t - m| := by
      calc |(y : ℚ) - m| = |(t - m) - (t - y)| := by congr 1; ring
        _ ≤ |t - m| + |t - y| := abs_sub _ _
        _ = _ := add_comm _ _
    exact ⟨by linarith, fun he _ => by linarith⟩

theorem _root_.Systre.Fits.neg {x : ℚ} (h : Fits x) : Fits (-x) := by
  obtain ⟨m, e, h1, h2⟩ := h
  exact ⟨-m, e, by rwa [abs_neg], by rw [h2]; push_cast; ring⟩

theorem _root_.Systre.EvenFits.neg {x : ℚ} (h : EvenFits x) : EvenFits (-x) := by
  obtain ⟨m, e, h0, h1, h2, h3⟩ := h
  exact ⟨-m, e, by rwa [abs_neg], by rwa [abs_neg], h2.neg, by rw [h3]; push_cast; ring⟩

theorem pos_case {t : ℚ} {e : Int} {m : Nat} (h1 : (2 : ℚ) ^ 52 ≤ t) (h2 : t < 2 ^ 53) (h3 : |t - m| ≤ 1 / 2)
    (h4 : |t - m| = 1 / 2 → Even m) : Fits (m * 2 ^ (e - 52)) ∧
    ∀ y, Fits y → |t * 2 ^ (e - 52) - m * 2 ^ (e - 52)| ≤ |t * 2 ^ (e - 52) - y| ∧
      (|t * 2 ^ (e - 52) - y| = |t * 2 ^ (e - 52) - m * 2 ^ (e - 52)| → y ≠ m * 2 ^ (e - 52) → EvenFits (m * 2 ^ (e - 52))) := by
  have hu : (0 : ℚ) < 2 ^ (e - 52) := by positivity
  obtain ⟨g1, g2⟩ := abs_le.1 h3
  have hm1 : 2 ^ 52 ≤ m := by
    by_contra hc
    have : m + 1 ≤ 2 ^ 52 := by omega
    have : (m : ℚ) + 1 ≤ 2 ^ 52 := by exact_mod_cast this
    linarith
  have hm2 : m ≤ 2 ^ 53 := by
    by_contra hc
    have : 2 ^ 53 + 1 ≤ m := by omega
    have : (2 : ℚ) ^ 53 + 1 ≤ m := by exact_mod_cast this
    linarith
  have hm0 : |(m : Int)| = m := abs_of_nonneg (by omega)
  have top : (((2 : Nat) ^ 53 : Nat) : ℚ) * 2 ^ (e - 52) = ((2 ^ 52 : Int) : ℚ) * 2 ^ (e - 51) := by
    rw [show e - 51 = (e - 52) + 1 by ring, zpow_add₀ (by norm_num)]
    push_cast
    ring
  have even : Even m → EvenFits (m * 2 ^ (e - 52)) := by
    intro hev
    rcases Nat.lt_or_ge m (2 ^ 53) with hlt | hge
    · refine ⟨m, e - 52, ?_, ?_, by exact_mod_cast hev, by push_cast; rfl⟩
      · rw [hm0]; exact_mod_cast hm1
      · rw [hm0]; exact_mod_cast hlt
    · have : m = 2 ^ 53 := le_antisymm hm2 hge
      subst this
      exact ⟨2 ^ 52, e - 51, by norm_num, by norm_num, by decide, top⟩
  refine ⟨?_, fun y hy => ?_⟩
  · rcases Nat.lt_or_ge m (2 ^ 53) with hlt | hge
    · refine ⟨m, e - 52, ?_, by push_cast; rfl⟩
      rw [hm0]; exact_mod_cast hlt
    · have : m = 2 ^ 53 := le_antisymm hm2 hge
      subst this
      exact ⟨2 ^ 52, e - 51, by norm_num, top⟩
  · obtain ⟨n, f, k1, rfl⟩ := hy
    have scale : ∀ z : ℚ, |t * 2 ^ (e - 52) - z * 2 ^ (e - 52)| = |t - z| * 2 ^ (e - 52) := by
      intro z
      rw [← sub_mul, abs_mul, abs_of_pos hu]
    by_cases hf : e - 52 ≤ f
    · obtain ⟨k, hk⟩ : ∃ k : Nat, f = (e - 52) + k := ⟨(f - (e - 52)).toNat, by omega⟩
      have hy : (n : ℚ) * 2 ^ f = ((n * 2 ^ k : Int) : ℚ) * 2 ^ (e - 52) := by
        rw [hk, zpow_add₀ (by norm_num), zpow_natCast]
        push_cast
        ring
      rw [hy, scale, scale]
      obtain ⟨g3, g4⟩ := int_nearest h3 (n * 2 ^ k)
      refine ⟨by gcongr, fun he hne => even (h4 (g4 (mul_right_cancel₀ hu.ne' he) ?_))⟩
      intro hc
      apply hne
      rw [hc]
      push_cast
      rfl
    · -- below the smallest number with this exponent
      have hy : (n : ℚ) * 2 ^ f < 2 ^ 52 * 2 ^ (e - 52) := by
        have h5 : (n : ℚ) < 2 ^ 53 := by
          have := lt_of_abs_lt k1
          exact_mod_cast this
        calc (n : ℚ) * 2 ^ f < 2 ^ 53 * 2 ^ f := by gcongr
          _ ≤ 2 ^ 53 * 2 ^ (e - 53) := by
              gcongr
              · norm_num
              · omega
          _ = 2 ^ 52 * 2 ^ (e - 52) := by
              rw [show e - 52 = (e - 53) + 1 by ring, zpow_add₀ (by norm_num)]
              ring
      have h6 : |t * 2 ^ (e - 52) - (2 : ℚ) ^ 52 * 2 ^ (e - 52)| < |t * 2 ^ (e - 52) - n * 2 ^ f| := by
        have : (2 : ℚ) ^ 52 * 2 ^ (e - 52) ≤ t * 2 ^ (e - 52) := by gcongr
        rw [abs_of_nonneg (by linarith), abs_of_pos (by linarith)]
        linarith
      have h7 := (int_nearest h3 (2 ^ 52)).1
      rw [scale] at h6 ⊢
      have h8 : |t - m| * 2 ^ (e - 52) ≤ |t - 2 ^ 52| * 2 ^ (e - 52) := by
        refine mul_le_mul_of_nonneg_right ?_ hu.le
        have h9 : (((2 ^ 52 : Int)) : ℚ) = 2 ^ 52 := by norm_num
        rw [h9] at h7
        exact h7
      exact ⟨(h8.trans_lt h6).le, fun he => absurd he (h8.trans_lt h6).ne'⟩

/-- rounding gives a number with 53 bits; no such number is nearer, and if another one is as near the last bit is zero -/
theorem round_spec (q : ℚ) : IsRounded q (round53 q) := by
  unfold IsRounded
  by_cases hq : q = 0
  · subst hq
    have : round53 0 = 0 := by unfold round53; rw [if_pos rfl]
    rw [this]
    refine ⟨⟨0, 0, by norm_num, by norm_num⟩, fun y _ => ⟨by simp, fun h1 h2 => ?_⟩⟩
    simp at h1
    exact absurd h1 h2
  · obtain ⟨e, m, h1, h2, h3, h4, h5⟩ := round_eq hq
    obtain ⟨g1, g2⟩ := pos_case (e := e) h1 h2 h3 h4
    have hback : |q| * 2 ^ (52 - e) * 2 ^ (e - 52) = |q| := by
      rw [mul_assoc, ← zpow_add₀ (by norm_num), show 52 - e + (e - 52) = 0 by ring, zpow_zero, mul_one]
    rw [hback] at g2
    rw [h5]
    split
    · rename_i hneg
      rw [abs_of_neg hneg] at g2
      refine ⟨g1.neg, fun y hy => ?_⟩
      obtain ⟨g3, g4⟩ := g2 (-y) hy.neg
      have e1 : ∀ z : ℚ, |q - -z| = |-q - z| := by
        intro z
        rw [← abs_neg (-q - z)]
        congr 1
        ring
      have e2 : |q - y| = |-q - -y| := by
        rw [← abs_neg (-q - -y)]
        congr 1
        ring
      rw [e1, e2]
      refine ⟨g3, fun h6 h7 => (g4 h6 ?_).neg⟩
      intro hc
      apply h7
      rw [← hc, neg_neg]
    · rename_i hneg
      rw [abs_of_nonneg (not_lt.1 hneg)] at g2
      exact ⟨g1, g2⟩

end Systre.Round
