import Verif.Model.Normalized
import Verif.Props.Lattices
import Verif.Props.Finder
import Mathlib.Tactic.FinCases
import Mathlib.Algebra.Order.Round
import Mathlib.Data.Rat.Floor

/-! Helper lemmas for `normalized_basis_2d`. -/

namespace Systre.Finder
open Systre Lattices ParseOperator Submodule

theorem dotFn_two (a b c d : ℚ) : dotFn [a, b] [c, d] = a * c + b * d := by
  show (0 + rent [a, b] 0 * rent [c, d] 0) + rent [a, b] 1 * rent [c, d] 1 = _
  simp [rent]

theorem dotFn_isDot : IsDot 2 dotFn := by
  refine ⟨1, Matrix.isSymm_one, ?_, ?_⟩
  · intro x hx
    obtain ⟨i, hi⟩ := Function.ne_iff.1 hx
    rw [Matrix.one_mulVec, dotProduct]
    apply Finset.sum_pos' (fun j _ => mul_self_nonneg _)
    exact ⟨i, Finset.mem_univ _, lt_of_le_of_ne (mul_self_nonneg _) (Ne.symm (mul_self_ne_zero.2 hi))⟩
  · intro v w hv hw
    match v, hv, w, hw with
    | [a, b], _, [c, e], _ =>
      rw [dotFn_two, Matrix.one_mulVec, dotProduct, Fin.sum_univ_two]
      rfl

theorem rv2 (a b : ℚ) : rowVec 2 [a, b] = ![a, b] := by
  funext i; fin_cases i <;> rfl

theorem apply_id (a b : ℚ) : applyOperator "x, y".toList [a, b] = .ok [a, b] := by
  have h : parseOperator "x, y".toList = .ok (.parsed [] [[1, 0], [0, 1]] [0, 0]) := by decide +kernel
  unfold applyOperator
  rw [h]
  simp [applyRows, rowSum, rassert]

theorem apply_neg (a b : ℚ) : applyOperator "-x, -y".toList [a, b] = .ok [-a, -b] := by
  have h : parseOperator "-x, -y".toList = .ok (.parsed [] [[-1, 0], [0, -1]] [0, 0]) := by decide +kernel
  unfold applyOperator
  rw [h]
  simp [applyRows, rowSum, rassert]

theorem apply_2y (a b : ℚ) : applyOperator "0, 2y".toList [a, b] = .ok [0, 2 * b] := by
  have h : parseOperator "0, 2y".toList = .ok (.parsed [] [[0, 0], [0, 2]] [0, 0]) := by decide +kernel
  unfold applyOperator
  rw [h]
  simp [applyRows, rowSum, rassert]

theorem apply_2x (a b : ℚ) : applyOperator "2x, 0".toList [a, b] = .ok [2 * a, 0] := by
  have h : parseOperator "2x, 0".toList = .ok (.parsed [] [[2, 0], [0, 0]] [0, 0]) := by decide +kernel
  unfold applyOperator
  rw [h]
  simp [applyRows, rowSum, rassert]

theorem apply_turn (a b : ℚ) : applyOperator "-y, x".toList [a, b] = .ok [-b, a] := by
  have h : parseOperator "-y, x".toList = .ok (.parsed [] [[0, -1], [1, 0]] [0, 0]) := by decide +kernel
  unfold applyOperator
  rw [h]
  simp [applyRows, rowSum, rassert]

theorem apply_hex (a b : ℚ) : applyOperator "-y, x-y".toList [a, b] = .ok [-b, a - b] := by
  have h : parseOperator "-y, x-y".toList = .ok (.parsed [] [[0, -1], [1, -1]] [0, 0]) := by decide +kernel
  unfold applyOperator
  rw [h]
  simp [applyRows, rowSum, rassert, sub_eq_add_neg]

theorem cols_two (a b c d : ℚ) : omap Mat.col [[a, b], [c, d]] = .ok [⟨2, 1, [a, b]⟩, ⟨2, 1, [c, d]⟩] := by
  simp [omap, Mat.col, Mat.new, rassert]

theorem isVec_two (a b : ℚ) : IsVec ⟨⟨2, 1, [a, b]⟩⟩ ![a, b] := by
  refine ⟨rfl, rfl, rfl, by omega, ?_⟩
  intro i j
  fin_cases i <;> fin_cases j <;> rfl

/-- what the reduction gives in the plane with the usual scalar product -/
theorem reduced_two {U V : Fin 2 → ℚ} (hi : LinearIndependent ℚ ![U, V]) :
    ∃ (N : Nat) (p0 p1 q0 q1 : ℚ), (∀ fuel, N ≤ fuel →
        reducedLatticeBasis fuel [[U 0, U 1], [V 0, V 1]] dotFn 0 = .ok (some [[p0, p1], [q0, q1]])) ∧
      span ℤ {![p0, p1], ![q0, q1]} = span ℤ {U, V} ∧ p0 * q1 - p1 * q0 ≠ 0 ∧
      (∀ z ∈ span ℤ {U, V}, z ≠ 0 → p0 ^ 2 + p1 ^ 2 ≤ z 0 ^ 2 + z 1 ^ 2) ∧
      (∀ z ∈ span ℤ {U, V}, p0 * z 1 - p1 * z 0 ≠ 0 → q0 ^ 2 + q1 ^ 2 ≤ z 0 ^ 2 + z 1 ^ 2) := by
  have eU : rowVec 2 [U 0, U 1] = U := by rw [rv2]; funext i; fin_cases i <;> rfl
  have eV : rowVec 2 [V 0, V 1] = V := by rw [rv2]; funext i; fin_cases i <;> rfl
  have hind : Indep 2 [[U 0, U 1], [V 0, V 1]] := by rw [indep_pair, eU, eV]; exact hi
  have hlat : latticeOf 2 [[U 0, U 1], [V 0, V 1]] = span ℤ {U, V} := by rw [latticeOf_pair, eU, eV]
  obtain ⟨N, a, h1, h2, h3, h4, h5, h6, h7⟩ := C50_reduced_basis (Or.inr (Or.inl rfl)) dotFn_isDot
    (vs := [[U 0, U 1], [V 0, V 1]]) rfl (by simp) hind
  obtain ⟨p0, p1, q0, q1, rfl⟩ : ∃ p0 p1 q0 q1, a = [[p0, p1], [q0, q1]] := by
    match a, h2 with
    | [p, q], _ =>
      have hp := h3 p (by simp)
      have hq := h3 q (by simp)
      match p, hp, q, hq with
      | [p0, p1], _, [q0, q1], _ => exact ⟨p0, p1, q0, q1, rfl⟩
  have hia := indep_of_lattice h4 rfl hind
  have hz : ∀ z : Fin 2 → ℚ, rowVec 2 [z 0, z 1] = z := by
    intro z; rw [rv2]; funext i; fin_cases i <;> rfl
  have hzd : ∀ z : Fin 2 → ℚ, dotFn [z 0, z 1] [z 0, z 1] = z 0 ^ 2 + z 1 ^ 2 := by
    intro z; rw [dotFn_two]; ring
  rw [hlat] at h4 h7
  refine ⟨N, p0, p1, q0, q1, h1, ?_, ?_, ?_, ?_⟩
  · rw [← h4, latticeOf_pair, rv2, rv2]
  · rw [indep_pair, rv2, rv2, LinearIndependent.pair_iff] at hia
    intro h0
    have e1 : q1 • ![p0, p1] + (-p1) • ![q0, q1] = (0 : Fin 2 → ℚ) := by
      funext i; fin_cases i
      · simp; linarith
      · simp; ring
    have e2 : (-q0) • ![p0, p1] + p0 • ![q0, q1] = (0 : Fin 2 → ℚ) := by
      funext i; fin_cases i
      · simp; ring
      · simp; linarith
    have f1 := hia _ _ e1
    have f2 := hia _ _ e2
    have e3 : (1 : ℚ) • ![p0, p1] + (0 : ℚ) • ![q0, q1] = (0 : Fin 2 → ℚ) := by
      have g1 : p1 = 0 := by linarith [f1.2]
      have g2 : p0 = 0 := f2.2
      rw [g1, g2]; funext i; fin_cases i <;> simp
    exact one_ne_zero (hia _ _ e3).1
  · intro z hzm hz0
    have := h7 0 [p0, p1] rfl [z 0, z 1] rfl (by rw [hz]; exact hzm) (by
      have he0 : {y : List Rat | y ∈ List.take 0 [[p0, p1], [q0, q1]]} = ∅ := by ext; simp
      rw [he0, Set.image_empty, Submodule.span_empty, Submodule.mem_bot, hz]
      exact hz0)
    rw [hzd, dotFn_two] at this
    linarith
  · intro z hzm hz0
    have := h7 1 [q0, q1] rfl [z 0, z 1] rfl (by rw [hz]; exact hzm) (by
      have he0 : rowVec 2 '' {y : List Rat | y ∈ List.take 1 [[p0, p1], [q0, q1]]} = {![p0, p1]} := by
        ext y; simp [rv2, eq_comm]
      rw [he0, hz, mem_span_singleton]
      rintro ⟨c, rfl⟩
      apply hz0
      simp; ring)
    rw [hzd, dotFn_two] at this
    linarith

/-! ### lattices in the plane -/

variable {L : Submodule ℤ (Fin 2 → ℚ)}

theorem round_sq (t : ℚ) : (t - round t) ^ 2 ≤ 1 / 4 := by
  have h := abs_sub_round t
  have := abs_nonneg (t - round t)
  rw [← sq_abs]; nlinarith

theorem mem_pair2 {a b c d : ℚ} {z : Fin 2 → ℚ} : z ∈ span ℤ {![a, b], ![c, d]} ↔
    ∃ m k : ℤ, z 0 = m * a + k * c ∧ z 1 = m * b + k * d := by
  rw [mem_span_pair]
  constructor
  · rintro ⟨m, k, rfl⟩; exact ⟨m, k, by simp, by simp⟩
  · rintro ⟨m, k, h0, h1⟩
    refine ⟨m, k, ?_⟩
    funext i; fin_cases i
    · simp [h0]
    · simp [h1]

theorem lin2 (z : Fin 2 → ℚ) (r t : ℤ) (a b c d : ℚ) :
    (z - r • ![a, b] - t • ![c, d]) 0 = z 0 - r * a - t * c ∧
    (z - r • ![a, b] - t • ![c, d]) 1 = z 1 - r * b - t * d := by
  constructor <;> simp only [Pi.sub_apply, Pi.smul_apply, zsmul_eq_mul] <;> rfl

/-- a lattice that is mapped to itself by a mirror, with a shortest vector off the axes -/
theorem rect_first {x y : ℚ} (hinv : ∀ z ∈ L, ![z 0, -z 1] ∈ L) (hm : ![x, y] ∈ L) (hx : x ≠ 0) (hy : y ≠ 0)
    (hmin : ∀ z ∈ L, z ≠ 0 → x ^ 2 + y ^ 2 ≤ z 0 ^ 2 + z 1 ^ 2) :
    L = span ℤ {![0, 2 * y], ![2 * x, 0], ![x, y]} := by
  have h2x : ![2 * x, 0] ∈ L := by
    have := add_mem hm (hinv _ hm)
    convert this using 1
    funext i; fin_cases i <;> simp; ring
  have h2y : ![0, 2 * y] ∈ L := by
    have := sub_mem hm (hinv _ hm)
    convert this using 1
    funext i; fin_cases i <;> simp; ring
  apply le_antisymm
  swap
  · rw [span_le]
    rintro z (rfl | rfl | rfl) <;> assumption
  intro z hz
  set S := span ℤ {![0, 2 * y], ![2 * x, 0], ![x, y]} with hS
  have s1 : ![0, 2 * y] ∈ S := subset_span (by simp)
  have s2 : ![2 * x, 0] ∈ S := subset_span (by simp)
  have s3 : ![x, y] ∈ S := subset_span (by simp)
  set r := round (z 0 / (2 * x)) with hr
  set t := round (z 1 / (2 * y)) with ht
  set w := z - r • ![2 * x, 0] - t • ![0, 2 * y] with hw
  have hwL : w ∈ L := sub_mem (sub_mem hz (smul_mem _ _ h2x)) (smul_mem _ _ h2y)
  have hzw : z = w + r • ![2 * x, 0] + t • ![0, 2 * y] := by rw [hw]; abel
  have w0 : w 0 = 2 * x * (z 0 / (2 * x) - r) := by
    rw [hw, (lin2 ..).1]; field_simp; ring
  have w1 : w 1 = 2 * y * (z 1 / (2 * y) - t) := by
    rw [hw, (lin2 ..).2]; field_simp; ring
  have b0 : w 0 ^ 2 ≤ x ^ 2 := by
    rw [w0, mul_pow]
    have := round_sq (z 0 / (2 * x))
    nlinarith [sq_nonneg x]
  have b1 : w 1 ^ 2 ≤ y ^ 2 := by
    rw [w1, mul_pow]
    have := round_sq (z 1 / (2 * y))
    nlinarith [sq_nonneg y]
  rw [hzw]
  refine add_mem (add_mem ?_ (smul_mem _ _ s2)) (smul_mem _ _ s1)
  by_cases h0 : w = 0
  · rw [h0]; exact zero_mem _
  have := hmin w hwL h0
  have e0 : w 0 = x ∨ w 0 = -x := sq_eq_sq_iff_eq_or_eq_neg.1 (by linarith)
  have e1 : w 1 = y ∨ w 1 = -y := sq_eq_sq_iff_eq_or_eq_neg.1 (by linarith)
  have hwe : w = ![w 0, w 1] := by funext i; fin_cases i <;> rfl
  rw [hwe]
  rcases e0 with e0 | e0 <;> rcases e1 with e1 | e1 <;> rw [e0, e1]
  · exact s3
  · have := sub_mem s3 s1
    convert this using 1
    funext i; fin_cases i <;> simp; ring
  · have := sub_mem s3 s2
    convert this using 1
    funext i; fin_cases i <;> simp; ring
  · have := neg_mem s3
    convert this using 1
    funext i; fin_cases i <;> simp

theorem rect_second_x {p x y : ℚ} (hL : L = span ℤ {![p, 0], ![x, y]}) (hinv : ∀ z ∈ L, ![z 0, -z 1] ∈ L)
    (hp : p ≠ 0) (hx : x ≠ 0) (hy : y ≠ 0)
    (hmin : ∀ z ∈ L, p * z 1 - 0 * z 0 ≠ 0 → x ^ 2 + y ^ 2 ≤ z 0 ^ 2 + z 1 ^ 2) :
    L = span ℤ {![0, 2 * y], ![2 * x, 0], ![x, y]} := by
  have hb0 : ![p, 0] ∈ L := by rw [hL]; exact subset_span (by simp)
  have hb1 : ![x, y] ∈ L := by rw [hL]; exact subset_span (by simp)
  have h2x : ![2 * x, 0] ∈ L := by
    have := add_mem hb1 (hinv _ hb1)
    convert this using 1
    funext i; fin_cases i <;> simp; ring
  have h2y : ![0, 2 * y] ∈ L := by
    have := sub_mem hb1 (hinv _ hb1)
    convert this using 1
    funext i; fin_cases i <;> simp; ring
  obtain ⟨m, k, e0, e1⟩ := mem_pair2.1 (by rw [← hL]; exact h2x)
  simp at e0 e1
  have hk : k = 0 := by
    rcases e1 with e1 | e1
    · exact e1
    · exact absurd e1 hy
  subst hk
  simp at e0
  -- the second vector is at least as short as its neighbours
  have n1 := hmin (![x, y] + ![p, 0]) (add_mem hb1 hb0) (by simp; exact ⟨hp, hy⟩)
  have n2 := hmin (![x, y] - ![p, 0]) (sub_mem hb1 hb0) (by simp; exact ⟨hp, hy⟩)
  simp at n1 n2
  have hm : m = 1 ∨ m = -1 := by
    have hpp : 0 < p ^ 2 := by positivity
    have e2 : 2 * x * p = m * p ^ 2 := by rw [e0]; ring
    have c1 : (m : ℚ) * p ^ 2 ≤ p ^ 2 := by nlinarith
    have c2 : -(p ^ 2) ≤ (m : ℚ) * p ^ 2 := by nlinarith
    have c3 : (m : ℚ) ≤ 1 := by
      by_contra h; push Not at h; nlinarith
    have c4 : (-1 : ℚ) ≤ m := by
      by_contra h; push Not at h; nlinarith
    have c3' : m ≤ 1 := by exact_mod_cast c3
    have c4' : -1 ≤ m := by exact_mod_cast c4
    have c5 : m ≠ 0 := by
      rintro rfl; simp at e0; exact hx e0
    omega
  apply le_antisymm
  swap
  · rw [span_le]
    rintro z (rfl | rfl | rfl) <;> assumption
  rw [hL, span_le]
  rintro z (rfl | rfl)
  · rcases hm with rfl | rfl
    · have : (2 : ℚ) * x = p := by rw [e0]; simp
      rw [← this]; exact subset_span (by simp)
    · have : p = -(2 * x) := by rw [e0]; simp
      rw [this]
      have h : ![2 * x, 0] ∈ span ℤ {![0, 2 * y], ![2 * x, 0], ![x, y]} := subset_span (by simp)
      have e : ![-(2 * x), 0] = -![2 * x, 0] := by funext i; fin_cases i <;> simp
      rw [e]; exact neg_mem h
  · exact subset_span (by simp)

theorem rect_second_y {p x y : ℚ} (hL : L = span ℤ {![0, p], ![x, y]}) (hinv : ∀ z ∈ L, ![z 0, -z 1] ∈ L)
    (hp : p ≠ 0) (hx : x ≠ 0) (hy : y ≠ 0)
    (hmin : ∀ z ∈ L, 0 * z 1 - p * z 0 ≠ 0 → x ^ 2 + y ^ 2 ≤ z 0 ^ 2 + z 1 ^ 2) :
    L = span ℤ {![0, 2 * y], ![2 * x, 0], ![x, y]} := by
  have hb0 : ![0, p] ∈ L := by rw [hL]; exact subset_span (by simp)
  have hb1 : ![x, y] ∈ L := by rw [hL]; exact subset_span (by simp)
  have h2x : ![2 * x, 0] ∈ L := by
    have := add_mem hb1 (hinv _ hb1)
    convert this using 1
    funext i; fin_cases i <;> simp; ring
  have h2y : ![0, 2 * y] ∈ L := by
    have := sub_mem hb1 (hinv _ hb1)
    convert this using 1
    funext i; fin_cases i <;> simp; ring
  obtain ⟨m, k, e0, e1⟩ := mem_pair2.1 (by rw [← hL]; exact h2y)
  simp at e0 e1
  have hk : k = 0 := by
    rcases e0 with e0 | e0
    · exact e0
    · exact absurd e0 hx
  subst hk
  simp at e1
  -- the second vector is at least as short as its neighbours
  have n1 := hmin (![x, y] + ![0, p]) (add_mem hb1 hb0) (by simp; exact ⟨hp, hx⟩)
  have n2 := hmin (![x, y] - ![0, p]) (sub_mem hb1 hb0) (by simp; exact ⟨hp, hx⟩)
  simp at n1 n2
  have hm : m = 1 ∨ m = -1 := by
    have hpp : 0 < p ^ 2 := by positivity
    have e2 : 2 * y * p = m * p ^ 2 := by rw [e1]; ring
    have c1 : (m : ℚ) * p ^ 2 ≤ p ^ 2 := by nlinarith
    have c2 : -(p ^ 2) ≤ (m : ℚ) * p ^ 2 := by nlinarith
    have c3 : (m : ℚ) ≤ 1 := by
      by_contra h; push Not at h; nlinarith
    have c4 : (-1 : ℚ) ≤ m := by
      by_contra h; push Not at h; nlinarith
    have c3' : m ≤ 1 := by exact_mod_cast c3
    have c4' : -1 ≤ m := by exact_mod_cast c4
    have c5 : m ≠ 0 := by
      rintro rfl; simp at e1; exact hy e1
    omega
  apply le_antisymm
  swap
  · rw [span_le]
    rintro z (rfl | rfl | rfl) <;> assumption
  rw [hL, span_le]
  rintro z (rfl | rfl)
  · rcases hm with rfl | rfl
    · have : (2 : ℚ) * y = p := by rw [e1]; simp
      rw [← this]; exact subset_span (by simp)
    · have : p = -(2 * y) := by rw [e1]; simp
      rw [this]
      have h : ![0, 2 * y] ∈ span ℤ {![0, 2 * y], ![2 * x, 0], ![x, y]} := subset_span (by simp)
      have e : ![0, -(2 * y)] = -![0, 2 * y] := by funext i; fin_cases i <;> simp
      rw [e]; exact neg_mem h
  · exact subset_span (by simp)

theorem square_lattice {x y : ℚ} (hinv : ∀ z ∈ L, ![-z 1, z 0] ∈ L) (hm : ![x, y] ∈ L) (h0 : 0 < x ^ 2 + y ^ 2)
    (hmin : ∀ z ∈ L, z ≠ 0 → x ^ 2 + y ^ 2 ≤ z 0 ^ 2 + z 1 ^ 2) :
    L = span ℤ {![x, y], ![-y, x]} := by
  have hm' : ![-y, x] ∈ L := hinv _ hm
  apply le_antisymm
  swap
  · rw [span_le]
    rintro z (rfl | rfl) <;> assumption
  intro z hz
  set q := x ^ 2 + y ^ 2 with hq
  set r := round ((z 0 * x + z 1 * y) / q) with hr
  set t := round ((-z 0 * y + z 1 * x) / q) with ht
  set w := z - r • ![x, y] - t • ![-y, x] with hw
  have hwL : w ∈ L := sub_mem (sub_mem hz (smul_mem _ _ hm)) (smul_mem _ _ hm')
  have hzw : z = w + r • ![x, y] + t • ![-y, x] := by rw [hw]; abel
  rw [hzw]
  refine add_mem (add_mem ?_ (smul_mem _ _ (subset_span (by simp)))) (smul_mem _ _ (subset_span (by simp)))
  by_cases h00 : w = 0
  · rw [h00]; exact zero_mem _
  exfalso
  have hlt := hmin w hwL h00
  have a1 := round_sq ((z 0 * x + z 1 * y) / q)
  have a2 := round_sq ((-z 0 * y + z 1 * x) / q)
  have hnorm : w 0 ^ 2 + w 1 ^ 2 = q * (((z 0 * x + z 1 * y) / q - r) ^ 2 + ((-z 0 * y + z 1 * x) / q - t) ^ 2) := by
    have e0 : w 0 = ((z 0 * x + z 1 * y) / q - r) * x - ((-z 0 * y + z 1 * x) / q - t) * y := by
      rw [hw, (lin2 ..).1]; field_simp; rw [hq]; ring
    have e1 : w 1 = ((z 0 * x + z 1 * y) / q - r) * y + ((-z 0 * y + z 1 * x) / q - t) * x := by
      rw [hw, (lin2 ..).2]; field_simp; rw [hq]; ring
    rw [e0, e1, hq]; ring
  rw [hnorm] at hlt
  nlinarith

theorem hex_round (s t : ℚ) : ∃ m k : ℤ, (s - m) ^ 2 - (s - m) * (t - k) + (t - k) ^ 2 < 1 / 2 := by
  have base : ∀ a b : ℚ, |a| ≤ 1 / 2 → |b| ≤ 1 / 2 → ∃ m k : ℤ, (a - m) ^ 2 - (a - m) * (b - k) + (b - k) ^ 2 < 1 / 2 := by
    intro a b ha hb
    rw [abs_le] at ha hb
    by_cases h : a ^ 2 - a * b + b ^ 2 < 1 / 2
    · exact ⟨0, 0, by simpa using h⟩
    push Not at h
    rcases le_total 0 a with h1 | h1
    · have hb0 : b < 0 := by nlinarith
      rcases le_total (-b) a with h2 | h2
      · exact ⟨1, 0, by push_cast; nlinarith⟩
      · exact ⟨0, -1, by push_cast; nlinarith⟩
    · have hb0 : 0 < b := by nlinarith
      rcases le_total b (-a) with h2 | h2
      · exact ⟨-1, 0, by push_cast; nlinarith⟩
      · exact ⟨0, 1, by push_cast; nlinarith⟩
  obtain ⟨m, k, h⟩ := base _ _ (abs_sub_round s) (abs_sub_round t)
  refine ⟨round s + m, round t + k, ?_⟩
  push_cast
  have e1 : s - (round s + (m : ℚ)) = s - round s - m := by ring
  have e2 : t - (round t + (k : ℚ)) = t - round t - k := by ring
  rw [e1, e2]; exact h

theorem hex_lattice {x y : ℚ} (hinv : ∀ z ∈ L, ![-z 1, z 0 - z 1] ∈ L) (hm : ![x, y] ∈ L) (h0 : 0 < x ^ 2 + y ^ 2)
    (hmin : ∀ z ∈ L, z ≠ 0 → x ^ 2 + y ^ 2 ≤ z 0 ^ 2 + z 1 ^ 2) :
    L = span ℤ {![x, y], ![-y, x - y]} := by
  have hm' : ![-y, x - y] ∈ L := hinv _ hm
  apply le_antisymm
  swap
  · rw [span_le]
    rintro z (rfl | rfl) <;> assumption
  intro z hz
  set q := x ^ 2 - x * y + y ^ 2 with hq
  have hq0 : 0 < q := by nlinarith [sq_nonneg (x - y), sq_nonneg (x + y)]
  set a := (z 0 * (x - y) + z 1 * y) / q with ha
  set b := (x * z 1 - y * z 0) / q with hb
  obtain ⟨m, k, hmk⟩ := hex_round a b
  set w := z - m • ![x, y] - k • ![-y, x - y] with hw
  have hwL : w ∈ L := sub_mem (sub_mem hz (smul_mem _ _ hm)) (smul_mem _ _ hm')
  have hzw : z = w + m • ![x, y] + k • ![-y, x - y] := by rw [hw]; abel
  rw [hzw]
  refine add_mem (add_mem ?_ (smul_mem _ _ (subset_span (by simp)))) (smul_mem _ _ (subset_span (by simp)))
  by_cases h00 : w = 0
  · rw [h00]; exact zero_mem _
  exfalso
  have e0 : w 0 = (a - m) * x - (b - k) * y := by
    rw [hw, (lin2 ..).1, ha, hb]; field_simp; rw [hq]; ring
  have e1 : w 1 = (a - m) * y + (b - k) * (x - y) := by
    rw [hw, (lin2 ..).2, ha, hb]; field_simp; rw [hq]; ring
  have hnorm : w 0 ^ 2 - w 0 * w 1 + w 1 ^ 2 = q * ((a - m) ^ 2 - (a - m) * (b - k) + (b - k) ^ 2) := by
    rw [e0, e1, hq]; ring
  have hw01 : w 0 ≠ 0 ∨ w 1 ≠ 0 := by
    by_contra hc; push Not at hc
    exact h00 (funext fun i => by fin_cases i; exacts [hc.1, hc.2])
  have w1L := hinv _ hwL
  have w2L := hinv _ w1L
  simp only [Matrix.cons_val_zero, Matrix.cons_val_one] at w1L w2L
  have n0 := hmin w hwL h00
  have n1 := hmin _ w1L (by
    intro h
    have c0 := congrFun h 0
    have c1 := congrFun h 1
    simp at c0 c1
    rcases hw01 with h | h
    · exact h (by linarith)
    · exact h c0)
  have n2 := hmin _ w2L (by
    intro h
    have c0 := congrFun h 0
    have c1 := congrFun h 1
    simp at c0 c1
    rcases hw01 with h | h
    · exact h (by linarith)
    · exact h (by linarith))
  simp only [Matrix.cons_val_zero, Matrix.cons_val_one] at n1 n2
  nlinarith [sq_nonneg (x + y)]

/-- a generator of the rational numbers that are integer combinations of two -/
theorem two_rationals (a b : ℚ) : ∃ (q : ℚ) (m n s t : ℤ), a = m * q ∧ b = n * q ∧ q = s * a + t * b := by
  set x : ℤ := a.num * b.den with hx
  set y : ℤ := b.num * a.den with hy
  set D : ℚ := (a.den : ℚ) * b.den with hD
  have ha0 : (a.den : ℚ) ≠ 0 := by exact_mod_cast a.den_ne_zero
  have hb0 : (b.den : ℚ) ≠ 0 := by exact_mod_cast b.den_ne_zero
  have hDn : D ≠ 0 := mul_ne_zero ha0 hb0
  have ea : a = x / D := by
    rw [hx, hD]; push_cast
    rw [mul_div_mul_right _ _ hb0]
    exact (Rat.num_div_den a).symm
  have eb : b = y / D := by
    rw [hy, hD]; push_cast
    rw [mul_comm (a.den : ℚ), mul_div_mul_right _ _ ha0]
    exact (Rat.num_div_den b).symm
  obtain ⟨m, hm⟩ : (Int.gcd x y : ℤ) ∣ x := Int.gcd_dvd_left ..
  obtain ⟨n, hn⟩ : (Int.gcd x y : ℤ) ∣ y := Int.gcd_dvd_right ..
  have hb := Int.gcd_eq_gcd_ab x y
  refine ⟨(Int.gcd x y : ℤ) / D, m, n, Int.gcdA x y, Int.gcdB x y, ?_, ?_, ?_⟩
  · rw [ea]
    conv_lhs => rw [hm]
    push_cast; ring
  · rw [eb]
    conv_lhs => rw [hn]
    push_cast; ring
  · rw [ea, eb]
    conv_lhs => rw [hb]
    push_cast; ring

/-- a lattice that is mapped to itself by the rotation of order six, in coordinates for two vectors at 60 degrees, and by
`(x, y) ↦ (-y, x - y)`, consists of the multiples of one number -/
theorem hex_scalar {a b : Fin 2 → ℚ} (hR : ∀ z ∈ span ℤ {a, b}, ![-z 1, z 0 + z 1] ∈ span ℤ {a, b})
    (hN : ∀ z ∈ span ℤ {a, b}, ![-z 1, z 0 - z 1] ∈ span ℤ {a, b}) :
    ∃ q : ℚ, span ℤ {a, b} = span ℤ {![q, 0], ![0, q]} := by
  obtain ⟨q, m, n, s, t, e1, e2, e3⟩ := two_rationals (a 0) (b 0)
  refine ⟨q, ?_⟩
  set L := span ℤ {a, b} with hL
  have hS : ∀ z ∈ L, ![0, 2 * z 0] ∈ L := by
    intro z hz
    have h1 := hN _ (sub_mem hz (hR z hz))
    have h2 := sub_mem h1 hz
    convert h2 using 1
    funext i; fin_cases i <;> simp; ring
  have hT : ∀ c, ![0, c] ∈ L → ![c, 0] ∈ L := by
    intro c hc
    have h1 := hR _ hc
    have h2 := sub_mem hc h1
    convert h2 using 1
    funext i; fin_cases i <;> simp
  have hT' : ∀ c, ![c, 0] ∈ L → ![0, c] ∈ L := by
    intro c hc
    have h1 := hR _ hc
    convert h1 using 1
    funext i; fin_cases i <;> simp
  have hfirst : ∀ z ∈ L, ∃ k : ℤ, z 0 = k * q := by
    intro z hz
    obtain ⟨k, l, rfl⟩ := mem_span_pair.1 (hL ▸ hz)
    refine ⟨k * m + l * n, ?_⟩
    change k • a 0 + l • b 0 = _
    rw [zsmul_eq_mul, zsmul_eq_mul, e1, e2]; push_cast; ring
  have hsecond : ∀ z ∈ L, ∃ k : ℤ, z 1 = k * q := by
    intro z hz
    obtain ⟨k, hk⟩ := hfirst _ (hR z hz)
    refine ⟨-k, ?_⟩
    simp at hk
    push_cast; linarith
  have hq : ![q, 0] ∈ L := by
    have hz : s • a + t • b ∈ L :=
      add_mem (smul_mem _ _ (subset_span (by simp))) (smul_mem _ _ (subset_span (by simp)))
    set z := s • a + t • b with hzd
    have h0 : z 0 = q := by
      rw [e3]
      change s • a 0 + t • b 0 = _
      rw [zsmul_eq_mul, zsmul_eq_mul]
    obtain ⟨k, hk⟩ := hsecond z hz
    have h2 : ![0, 2 * q] ∈ L := by have := hS z hz; rwa [h0] at this
    rcases Int.even_or_odd' k with ⟨j, rfl | rfl⟩
    · have h3 := sub_mem hz (smul_mem _ j h2)
      convert h3 using 1
      funext i; fin_cases i
      · simp [h0]
      · simp [hk]; ring
    · have h3 := sub_mem hz (smul_mem _ j h2)
      have h4 : ![q, q] ∈ L := by
        convert h3 using 1
        funext i; fin_cases i
        · simp [h0]
        · simp [hk]; ring
      have h5 := sub_mem h2 (hR _ h4)
      convert h5 using 1
      funext i; fin_cases i <;> simp; ring
  apply le_antisymm
  · intro z hz
    obtain ⟨k, hk⟩ := hfirst z hz
    obtain ⟨l, hl⟩ := hsecond z hz
    exact mem_pair2.2 ⟨k, l, by rw [hk]; ring, by rw [hl]; ring⟩
  · rw [span_le]
    rintro z (rfl | rfl)
    · exact hq
    · exact hT' q hq

end Systre.Finder
