import Verif.Lemmas.Padic
import Mathlib.Tactic.NormNum.Prime
import Mathlib.LinearAlgebra.Matrix.Notation

/-!
# Properties of `src/arithmetic/modular_solver.rs`: C19 - C24

`toLists A` is the list of rows of the mathematical matrix `A`, `modP p A` the matrix of residues. The
parameter `ck` of the model is the range check for `i64` results; `ideal` never fails, `i64Check` panics
outside the range of `i64`.
-/

namespace Systre.Modular
open Systre Submodule

/-- 9999991, the modulus used by the solver, is prime. -/
theorem prime_9999991 : Nat.Prime 9999991 := by norm_num

instance : Fact (Nat.Prime 9999991) := ⟨prime_9999991⟩

/-! ## C19 -/

/-- C19: for a residue `a` modulo `m`, `modular_inverse` terminates and returns the inverse in `0..m-1` if
`a` and `m` are coprime, and `None` otherwise. -/
theorem C19_modular_inverse (a m : Int) (hm : 2 ≤ m) (ha : 0 ≤ a) (ham : a < m) :
    (Int.gcd a m = 1 → ∃ x, modularInverse ideal a m = .ok (some x) ∧ 0 ≤ x ∧ x < m ∧ a * x ≡ 1 [ZMOD m]) ∧
    (Int.gcd a m ≠ 1 → modularInverse ideal a m = .ok none) := by
  obtain ⟨h1, h2⟩ := modularInverse_ok (accepts_ideal m) hm ha ham
  refine ⟨fun h => ?_, h2⟩
  obtain ⟨x, g1, g2, g3, g4⟩ := h1 h
  exact ⟨x, g1, g2, g3, ((Int.modEq_iff_dvd).2 (by rw [← dvd_neg, neg_sub]; exact g4))⟩

/-- C19: no intermediate value exceeds the modulus, so `i64` arithmetic does not overflow. -/
theorem C19_no_overflow (a m : Int) (hm : 2 ≤ m) (hm' : m < 2 ^ 63) (ha : 0 ≤ a) (ham : a < m) :
    modularInverse i64Check a m = modularInverse ideal a m := by
  obtain ⟨h1, h2⟩ := modularInverse_ok (accepts_ideal m) hm ha ham
  obtain ⟨g1, g2⟩ := modularInverse_ok (accepts_i64 hm') hm ha ham
  by_cases h : Int.gcd a m = 1
  · obtain ⟨x, e1, e2, e3, e4⟩ := h1 h
    obtain ⟨y, f1, f2, f3, f4⟩ := g1 h
    have hd : m ∣ a * (x - y) := by
      have := dvd_sub e4 f4
      exact dvd_eq this (by ring)
    have hd' : m ∣ x - y := IsCoprime.dvd_of_dvd_mul_left
      ((Int.isCoprime_iff_gcd_eq_one.2 h).symm) hd
    have : x - y = 0 := Int.eq_zero_of_abs_lt_dvd hd' (by rw [abs_lt]; omega)
    rw [e1, f1, show x = y by omega]
  · rw [h2 h, g2 h]

example : modularInverse ideal 7 30 = .ok (some 13) := by decide
example : modularInverse ideal 6 30 = .ok none := by decide
/-- outside the range of residues (a negative argument): an existing inverse is not found -/
theorem C19_negative_argument : modularInverse ideal (-1) 5 = .ok none ∧ (-1) * (-1) ≡ 1 [ZMOD 5] := by
  decide

/-! ## C20 -/

/-- C20 (partial: entries that are negative multiples of `p` are excluded, see `C20_refuted`). For every
size `n ≥ 1` and every prime, the inverse modulo `p`, reduced, or `None` if `p` divides the
determinant. -/
theorem C20_matrix_inverse_partial {n p : Nat} (hp : p.Prime) (hn : 0 < n) (A : Matrix (Fin n) (Fin n) Int)
    (hA : ∀ i j, ¬ (A i j < 0 ∧ (p : Int) ∣ A i j)) :
    (¬ (p : Int) ∣ A.det → ∃ C : Matrix (Fin n) (Fin n) Int,
      matrixInverse ideal (toLists A) p = .ok (some (toLists C)) ∧ (∀ i j, 0 ≤ C i j ∧ C i j < p) ∧
      ∀ i j, (A * C) i j ≡ (1 : Matrix (Fin n) (Fin n) Int) i j [ZMOD p]) ∧
    ((p : Int) ∣ A.det → matrixInverse ideal (toLists A) p = .ok none) := by
  haveI : Fact p.Prime := ⟨hp⟩
  have h1 : (modP p A).det = ((A.det : Int) : ZMod p) := by
    have := (Int.castRingHom (ZMod p)).map_det A
    simp only [RingHom.mapMatrix_apply] at this
    exact this.symm
  rcases matrixInverse_ok (accepts_ideal _) hn A hA with ⟨h0, C, g1, g2, g3, -⟩ | ⟨h0, g1⟩
  · refine ⟨fun _ => ⟨C, g1, g2, ?_⟩, fun hd => ?_⟩
    · intro i j
      rw [← ZMod.intCast_eq_intCast_iff]
      have e1 : (((A * C) i j : Int) : ZMod p) = (modP p A * modP p C) i j := by
        simp [Matrix.mul_apply, modP]
      rw [e1, g3, Matrix.one_apply, Matrix.one_apply]
      split <;> simp
    · exfalso; apply h0; rw [h1]; exact (ZMod.intCast_zmod_eq_zero_iff_dvd _ p).2 hd
  · refine ⟨fun hd => ?_, fun _ => g1⟩
    exfalso; apply hd; rw [h1] at h0; exact (ZMod.intCast_zmod_eq_zero_iff_dvd _ p).1 h0

/-- C20 for all integer matrices: the function panics or the result is right, and it panics only if some entry is a
negative multiple of `p`. -/
theorem C20_any {n p : Nat} (hp : p.Prime) (hn : 0 < n) (A : Matrix (Fin n) (Fin n) Int) :
    (matrixInverse ideal (toLists A) p = .panic ∧ ∃ i j, A i j < 0 ∧ (p : Int) ∣ A i j) ∨
    (¬ (p : Int) ∣ A.det ∧ ∃ C : Matrix (Fin n) (Fin n) Int,
      matrixInverse ideal (toLists A) p = .ok (some (toLists C)) ∧ (∀ i j, 0 ≤ C i j ∧ C i j < p) ∧
      ∀ i j, (A * C) i j ≡ (1 : Matrix (Fin n) (Fin n) Int) i j [ZMOD p]) ∨
    ((p : Int) ∣ A.det ∧ matrixInverse ideal (toLists A) p = .ok none) := by
  haveI : Fact p.Prime := ⟨hp⟩
  have h1 : (modP p A).det = ((A.det : Int) : ZMod p) := by
    have := (Int.castRingHom (ZMod p)).map_det A
    simp only [RingHom.mapMatrix_apply] at this
    exact this.symm
  rcases matrixInverse_any (p := p) hn A with h | ⟨h0, C, g1, g2, g3, -⟩ | ⟨h0, g1⟩
  · replace h := h ideal (accepts_ideal _)
    refine Or.inl ⟨h, ?_⟩
    by_contra hcon
    push Not at hcon
    exact matrixInverse_noPanic (accepts_ideal _) hn A (fun i j hh => hcon i j hh.1 hh.2) h
  · refine Or.inr (Or.inl ⟨fun hd => ?_, C, g1 ideal (accepts_ideal _), g2, ?_⟩)
    · apply h0; rw [h1]; exact (ZMod.intCast_zmod_eq_zero_iff_dvd _ p).2 hd
    · intro i j
      rw [← ZMod.intCast_eq_intCast_iff]
      have e1 : (((A * C) i j : Int) : ZMod p) = (modP p A * modP p C) i j := by
        simp [Matrix.mul_apply, modP]
      rw [e1, g3, Matrix.one_apply, Matrix.one_apply]
      split <;> simp
  · rw [h1] at h0
    exact Or.inr (Or.inr ⟨(ZMod.intCast_zmod_eq_zero_iff_dvd _ p).1 h0, g1 ideal (accepts_ideal _)⟩)

/-- a negative multiple that does no harm -/
example : matrixInverse ideal (toLists !![(1 : Int), 1; -5, 1]) 5 = .ok (some (toLists !![(1 : Int), 4; 0, 1])) := by
  decide

/-- C20 as expected by a user is false: for `[[-p]]` the code panics instead of returning `None`. -/
theorem C20_refuted : matrixInverse ideal (toLists !![(-5 : Int)]) 5 = .panic ∧ (5 : Int) ∣ (!![(-5 : Int)]).det := by
  constructor
  · decide
  · simp

/-- the empty matrix has no inverse according to the code, although its determinant is one -/
theorem C20_empty : matrixInverse ideal [] 5 = .ok none := rfl

example : matrixInverse ideal (toLists !![(2 : Int), 1; 1, -3]) 5 =
    .ok (some (toLists !![(4 : Int), 3; 3, 4])) := by decide

/-! ## C21 -/

/-- C21 (partial: negative multiples of `p` are excluded, and the row echelon shape holds only when the
leading square block is invertible, see `C21_shape_refuted`). -/
theorem C21_row_space_partial {n c p : Nat} (hp : p.Prime) (hn : 0 < n) (A : Matrix (Fin n) (Fin c) Int)
    (hA : ∀ i j, ¬ (A i j < 0 ∧ (p : Int) ∣ A i j)) :
    ∃ A' : Matrix (Fin n) (Fin c) Int, rowEchelonForm ideal (toLists A) p = .ok (toLists A') ∧
      (∀ i j, 0 ≤ A' i j ∧ A' i j < p) ∧
      span (ZMod p) (Set.range (modP p A').row) = span (ZMod p) (Set.range (modP p A).row) ∧
      ∀ h : n ≤ c, ¬ (p : Int) ∣ (A.submatrix id (Fin.castLE h)).det →
        A'.submatrix id (Fin.castLE h) = 1 := by
  haveI : Fact p.Prime := ⟨hp⟩
  obtain ⟨A', h1, h2, h3, h4⟩ := rowEchelonForm_ok (accepts_ideal _) hn A hA
  refine ⟨A', h1, h2, h3, fun h hd => ?_⟩
  ext i j
  have e1 : (lead h (modP p A)).det = (((A.submatrix id (Fin.castLE h)).det : Int) : ZMod p) := by
    have := (Int.castRingHom (ZMod p)).map_det (A.submatrix id (Fin.castLE h))
    simp only [RingHom.mapMatrix_apply] at this
    exact this.symm
  have := h4 h (by
    rw [e1]
    intro h0
    exact hd ((ZMod.intCast_zmod_eq_zero_iff_dvd _ p).1 h0)) i j
  rw [Matrix.submatrix_apply, Matrix.one_apply]
  exact this

/-- C21 for all integer matrices: the function panics, which it does only if some entry is a negative multiple of
`p`, or the result has the same row space, entries between 0 and `p`, and if the leading square part is invertible,
that part becomes the identity and the entries are smaller than `p`. -/
theorem C21_any {n c p : Nat} (hp : p.Prime) (hn : 0 < n) (A : Matrix (Fin n) (Fin c) Int) :
    (rowEchelonForm ideal (toLists A) p = .panic ∧ ∃ i j, A i j < 0 ∧ (p : Int) ∣ A i j) ∨
    ∃ A' : Matrix (Fin n) (Fin c) Int, rowEchelonForm ideal (toLists A) p = .ok (toLists A') ∧
      (∀ i j, 0 ≤ A' i j ∧ A' i j ≤ p) ∧
      span (ZMod p) (Set.range (modP p A').row) = span (ZMod p) (Set.range (modP p A).row) ∧
      ∀ h : n ≤ c, ¬ (p : Int) ∣ (A.submatrix id (Fin.castLE h)).det →
        A'.submatrix id (Fin.castLE h) = 1 ∧ ∀ i j, A' i j < p := by
  haveI : Fact p.Prime := ⟨hp⟩
  rcases rowEchelonForm_any (p := p) hn A with h | ⟨A', h1, h2, h3, h4⟩
  · replace h := h ideal (accepts_ideal _)
    refine Or.inl ⟨h, ?_⟩
    by_contra hcon
    push Not at hcon
    obtain ⟨A', h1, -⟩ := rowEchelonForm_ok (accepts_ideal _) hn A (fun i j hh => hcon i j hh.1 hh.2)
    rw [h] at h1
    cases h1
  · refine Or.inr ⟨A', h1 ideal (accepts_ideal _), h2, h3, fun h hd => ?_⟩
    have e1 : (lead h (modP p A)).det = (((A.submatrix id (Fin.castLE h)).det : Int) : ZMod p) := by
      have := (Int.castRingHom (ZMod p)).map_det (A.submatrix id (Fin.castLE h))
      simp only [RingHom.mapMatrix_apply] at this
      exact this.symm
    obtain ⟨k1, k2⟩ := h4 h (by
      rw [e1]
      intro h0
      exact hd ((ZMod.intCast_zmod_eq_zero_iff_dvd _ p).1 h0))
    refine ⟨?_, fun i j => (k2 i j).2⟩
    ext i j
    rw [Matrix.submatrix_apply, Matrix.one_apply]
    exact k1 i j

/-- C21: negative multiples of the prime also spoil the range of the entries, without a panic. -/
theorem C21_range_refuted :
    rowEchelonForm ideal (toLists !![(0 : Int), -5; 0, 0]) 5 = .ok (toLists !![(0 : Int), 5; 0, 0]) := by decide

/-- C21: for a singular matrix the result need not be in row echelon form: a zero row comes before a
non-zero one. -/
theorem C21_shape_refuted :
    rowEchelonForm ideal (toLists !![(0 : Int), 2; 0, 1]) 5 = .ok (toLists !![(0 : Int), 0; 0, 1]) := by
  decide

/-- C21: a negative multiple of `p` as pivot candidate makes the code panic. -/
theorem C21_negative_multiple_panics : rowEchelonForm ideal (toLists !![(-5 : Int), 1]) 5 = .panic := by decide

example : rowEchelonForm ideal (toLists !![(2 : Int), 4, 1; 3, 0, -1]) 5 =
    .ok (toLists !![(1 : Int), 0, 3; 0, 1, 0]) := by decide

/-! ## C22 -/

/-- C22: every fraction `N/D` with numerator and denominator up to `B` and `(φ B)² ≤ h` is recovered from
any integer `s` (also negative) with `D s ≡ N (mod h)`. -/
theorem C22_reconstruction (s h N D B : Int) (hB : 1 ≤ B) (hh : (Real.goldenRatio * B) ^ 2 ≤ (h : ℝ))
    (hN : |N| ≤ B) (hD : |D| ≤ B) (hD0 : D ≠ 0) (hc : D * s ≡ N [ZMOD h]) :
    rationalReconstruction s h = .ok ((N : Rat) / (D : Rat)) :=
  recon_ok hB hh hN hD hD0 (by
    have := (Int.modEq_iff_dvd).1 hc
    rw [← dvd_neg, neg_sub]; exact this)

/-- C22: in particular the loop terminates and the denominator is not zero for all `h ≥ 1` that are not
too small for the fraction `0/1`; here without any hypothesis on `s`. -/
theorem C22_total (s h : Int) (hh : 2 ≤ h) : ∃ x, rationalReconstruction s h = .ok x := by
  have key : ∀ t : Int, 0 ≤ t → ∃ n d, reconLoop (t.natAbs + 1) h h t 0 1 1 = .ok (n, d) ∧ d ≠ 0 := by
    intro t ht
    have hI : RInv t h h t 0 1 1 :=
      ⟨Or.inl rfl, ht, by omega, le_rfl, by omega, by ring, by simp, by simp, by nlinarith, by intro h; omega⟩
    obtain ⟨u, u1, v, v1, σ, hJ, hst, he⟩ := reconLoop_inv (by omega) (t.natAbs + 1) _ _ _ _ _ hI (by omega)
    exact ⟨_, _, he, by intro h0; have := hJ.nz h0; omega⟩
  unfold rationalReconstruction
  rcases le_or_gt 0 s with hs | hs
  · obtain ⟨n, d, h1, h2⟩ := key s hs
    rw [h1]; simp only [Outcome.ok_bind]; rw [if_neg h2]; exact ⟨_, rfl⟩
  · obtain ⟨n, d, h1, h2⟩ := key (-s) (by omega)
    have := (reconLoop_neg _ _ _ _ _ _ _ _ h1).1
    rw [Int.natAbs_neg] at this
    simp only [neg_neg, neg_zero] at this
    rcases this with h4 | h4 <;> rw [h4] <;> simp only [Outcome.ok_bind]
    · rw [if_neg h2]; exact ⟨_, rfl⟩
    · rw [if_neg (by omega)]; exact ⟨_, rfl⟩

-- 5 * 80 ≡ -3 (mod 403), bound 5
example : rationalReconstruction 80 403 = .ok (-3 / 5) := by decide +kernel
example : rationalReconstruction (-323) 403 = .ok (-3 / 5) := by decide +kernel

/-! ## C23 -/

/-- C23: with at least the number of lifting steps that the exact formula demands, the p-adic solver
returns the exact rational solution, for all sizes and all numbers of right-hand sides. -/
theorem C23_exact_solution {n m : Nat} (hn : 0 < n) (A : Matrix (Fin n) (Fin n) Int)
    (B : Matrix (Fin n) (Fin m) Int) (hneg : ∀ i j, ¬ (A i j < 0 ∧ thePrime ∣ A i j))
    (hdet : ¬ thePrime ∣ A.det) (steps : Nat) (hs : stepsNeeded A B 9999991 ≤ steps) :
    ∃ X : Matrix (Fin n) (Fin m) Rat,
      solveWith ideal thePrime steps (toLists A) (toLists B) = .ok (some (toLists X)) ∧
      A.map (fun x => (x : Rat)) * X = B.map (fun x => (x : Rat)) := by
  obtain ⟨α, hα⟩ : ∃ α : Int, ∀ i j, |A i j| ≤ α :=
    ⟨∑ i, ∑ j, |A i j|, fun i j => (Finset.single_le_sum (f := fun j => |A i j|)
      (fun _ _ => abs_nonneg _) (Finset.mem_univ j)).trans (Finset.single_le_sum (f := fun i => ∑ j, |A i j|)
      (fun _ _ => Finset.sum_nonneg (fun _ _ => abs_nonneg _)) (Finset.mem_univ i))⟩
  obtain ⟨β, hβ⟩ : ∃ β : Int, ∀ i j, |B i j| ≤ β :=
    ⟨∑ i, ∑ j, |B i j|, fun i j => (Finset.single_le_sum (f := fun j => |B i j|)
      (fun _ _ => abs_nonneg _) (Finset.mem_univ j)).trans (Finset.single_le_sum (f := fun i => ∑ j, |B i j|)
      (fun _ _ => Finset.sum_nonneg (fun _ _ => abs_nonneg _)) (Finset.mem_univ i))⟩
  let Bd : Int := max β (n * α)
  let K : Int := max ((9999991 * 9999991 : Nat) : Int) ((9999991 : Nat) * Bd)
  exact solveWith_ok (p := 9999991) (K := K) (α := α) (Bd := Bd) (accepts_ideal K) hn (le_max_left _ _)
    (le_max_right _ _) A B hα (fun i j => (hβ i j).trans (le_max_left _ _)) (le_max_right _ _)
    (by simpa [thePrime] using hneg) (by simpa [thePrime] using hdet) hs

/-- C23 for all integer matrices: the solver panics, which it does only if some entry is a negative multiple of the
prime, or returns the exact solution, or `None` if the prime divides the determinant. -/
theorem C23_any {n m : Nat} (hn : 0 < n) (A : Matrix (Fin n) (Fin n) Int)
    (B : Matrix (Fin n) (Fin m) Int) (steps : Nat) (hs : stepsNeeded A B 9999991 ≤ steps) :
    (solveWith ideal thePrime steps (toLists A) (toLists B) = .panic ∧ ∃ i j, A i j < 0 ∧ thePrime ∣ A i j) ∨
    (¬ thePrime ∣ A.det ∧ ∃ X : Matrix (Fin n) (Fin m) Rat,
      solveWith ideal thePrime steps (toLists A) (toLists B) = .ok (some (toLists X)) ∧
      A.map (fun x => (x : Rat)) * X = B.map (fun x => (x : Rat))) ∨
    (thePrime ∣ A.det ∧ solveWith ideal thePrime steps (toLists A) (toLists B) = .ok none) := by
  obtain ⟨α, hα⟩ : ∃ α : Int, ∀ i j, |A i j| ≤ α :=
    ⟨∑ i, ∑ j, |A i j|, fun i j => (Finset.single_le_sum (f := fun j => |A i j|)
      (fun _ _ => abs_nonneg _) (Finset.mem_univ j)).trans (Finset.single_le_sum (f := fun i => ∑ j, |A i j|)
      (fun _ _ => Finset.sum_nonneg (fun _ _ => abs_nonneg _)) (Finset.mem_univ i))⟩
  obtain ⟨β, hβ⟩ : ∃ β : Int, ∀ i j, |B i j| ≤ β :=
    ⟨∑ i, ∑ j, |B i j|, fun i j => (Finset.single_le_sum (f := fun j => |B i j|)
      (fun _ _ => abs_nonneg _) (Finset.mem_univ j)).trans (Finset.single_le_sum (f := fun i => ∑ j, |B i j|)
      (fun _ _ => Finset.sum_nonneg (fun _ _ => abs_nonneg _)) (Finset.mem_univ i))⟩
  let Bd : Int := max β (n * α)
  let K : Int := max ((9999991 * 9999991 : Nat) : Int) ((9999991 : Nat) * Bd)
  by_cases hpan : matrixInverse ideal (toLists A) (9999991 : Nat) = .panic
  · refine Or.inl ⟨?_, ?_⟩
    · have h : matrixInverse ideal (toLists A) thePrime = .panic := hpan
      unfold solveWith
      rw [h]
      rfl
    · by_contra hcon
      push Not at hcon
      exact matrixInverse_noPanic (p := 9999991) (accepts_ideal _) hn A (fun i j hh => hcon i j hh.1 hh.2) hpan
  · right
    by_cases hdet : thePrime ∣ A.det
    · exact Or.inr ⟨hdet, solveWith_any_none (p := 9999991) (accepts_ideal _) hn A _ hpan hdet steps⟩
    · exact Or.inl ⟨hdet, solveWith_any (p := 9999991) (K := K) (α := α) (Bd := Bd) (accepts_ideal K) hn
        (le_max_left _ _) (le_max_right _ _) A B hα (fun i j => (hβ i j).trans (le_max_left _ _)) (le_max_right _ _)
        hpan (by simpa [thePrime] using hdet) hs⟩

example : solveWith ideal thePrime 2 (toLists !![(1 : Int), 1; -9999991, 1]) (toLists !![(1 : Int); 1]) =
    .ok (some [[0], [1]]) := by decide +kernel
example : solveWith ideal thePrime 2 (toLists !![(-9999991 : Int), 1; 1, 0]) (toLists !![(1 : Int); 1]) = .panic := by
  decide +kernel

/-- C23 for all integer matrices and any number of steps: if the prime divides the determinant, the solver returns
`None`, or panics because of a negative multiple of the prime. -/
theorem C23_any_none {n : Nat} (hn : 0 < n) (A : Matrix (Fin n) (Fin n) Int) (b : IMat) (hdet : thePrime ∣ A.det)
    (steps : Nat) :
    solveWith ideal thePrime steps (toLists A) b = .ok none ∨
    (solveWith ideal thePrime steps (toLists A) b = .panic ∧ ∃ i j, A i j < 0 ∧ thePrime ∣ A i j) := by
  by_cases hpan : matrixInverse ideal (toLists A) (9999991 : Nat) = .panic
  · refine Or.inr ⟨?_, ?_⟩
    · have h : matrixInverse ideal (toLists A) thePrime = .panic := hpan
      unfold solveWith
      rw [h]
      rfl
    · by_contra hcon
      push Not at hcon
      exact matrixInverse_noPanic (p := 9999991) (accepts_ideal _) hn A (fun i j hh => hcon i j hh.1 hh.2) hpan
  · exact Or.inl (solveWith_any_none (p := 9999991) (accepts_ideal _) hn A _ hpan hdet steps)

/-- C23: `None` exactly when the prime divides the determinant. -/
theorem C23_none {n : Nat} (hn : 0 < n) (A : Matrix (Fin n) (Fin n) Int) (b : IMat)
    (hneg : ∀ i j, ¬ (A i j < 0 ∧ thePrime ∣ A i j)) (hdet : thePrime ∣ A.det) (steps : Nat) :
    solveWith ideal thePrime steps (toLists A) b = .ok none :=
  solveWith_none (p := 9999991) (accepts_ideal _) hn A b (by simpa [thePrime] using hneg)
    (by simpa [thePrime] using hdet) steps

example : ∃ X : Matrix (Fin 2) (Fin 1) Rat, ∃ steps,
    solveWith ideal thePrime steps (toLists !![(2 : Int), 1; 1, -3]) (toLists !![(1 : Int); 2]) =
      .ok (some (toLists X)) := by
  obtain ⟨X, h, -⟩ := C23_exact_solution (by omega) !![(2 : Int), 1; 1, -3] !![(1 : Int); 2]
    (by intro i j; fin_cases i <;> fin_cases j <;> simp [thePrime])
    (by simp [Matrix.det_fin_two, thePrime]) _ le_rfl
  exact ⟨X, _, h⟩

example : solveWith ideal thePrime 2 (toLists !![(2 : Int), 1; 1, -3]) (toLists !![(1 : Int); 2]) =
    .ok (some [[5/7], [-3/7]]) := by decide +kernel

/-! ## C24 -/

/-- C24: if `n * max|a|` and `max|b|` are at most `Bd` and `9999991 * Bd < 2^63`, then no intermediate
value of the elimination, the products, the residuals, in any of the lifting steps, leaves the range of
`i64`: the computation with overflow checks does not panic and returns the exact solution. -/
theorem C24_no_overflow {n m : Nat} (hn : 0 < n) (A : Matrix (Fin n) (Fin n) Int)
    (B : Matrix (Fin n) (Fin m) Int) (hneg : ∀ i j, ¬ (A i j < 0 ∧ thePrime ∣ A i j))
    (hdet : ¬ thePrime ∣ A.det) (α Bd : Int) (hA : ∀ i j, |A i j| ≤ α) (hB : ∀ i j, |B i j| ≤ Bd)
    (hαB : n * α ≤ Bd) (hBd : thePrime * Bd < 2 ^ 63) (steps : Nat) (hs : stepsNeeded A B 9999991 ≤ steps) :
    ∃ X : Matrix (Fin n) (Fin m) Rat,
      solveWith i64Check thePrime steps (toLists A) (toLists B) = .ok (some (toLists X)) ∧
      A.map (fun x => (x : Rat)) * X = B.map (fun x => (x : Rat)) := by
  let K : Int := max ((9999991 * 9999991 : Nat) : Int) ((9999991 : Nat) * Bd)
  have hK : K < 2 ^ 63 := by
    apply max_lt
    · norm_num
    · simpa [thePrime] using hBd
  exact solveWith_ok (p := 9999991) (K := K) (α := α) (Bd := Bd) (accepts_i64 hK) hn (le_max_left _ _)
    (le_max_right _ _) A B hA hB hαB
    (by simpa [thePrime] using hneg) (by simpa [thePrime] using hdet) hs

/-- C24 without an assumption on the matrix: within these bounds the run with overflow checks is the run with
unbounded integers, whatever that returns. -/
theorem C24_any {n m : Nat} (hn : 0 < n) (A : Matrix (Fin n) (Fin n) Int)
    (B : Matrix (Fin n) (Fin m) Int) (α Bd : Int) (hA : ∀ i j, |A i j| ≤ α) (hB : ∀ i j, |B i j| ≤ Bd)
    (hαB : n * α ≤ Bd) (hBd : thePrime * Bd < 2 ^ 63) (steps : Nat) (hs : stepsNeeded A B 9999991 ≤ steps) :
    solveWith i64Check thePrime steps (toLists A) (toLists B) =
      solveWith ideal thePrime steps (toLists A) (toLists B) := by
  let K : Int := max ((9999991 * 9999991 : Nat) : Int) ((9999991 : Nat) * Bd)
  have hK : K < 2 ^ 63 := by
    apply max_lt
    · norm_num
    · simpa [thePrime] using hBd
  exact solveWith_eq (p := 9999991) (K := K) (α := α) (Bd := Bd) (accepts_i64 hK) hn (le_max_left _ _)
    (le_max_right _ _) A B hA hB hαB hs

/-- C24 when the prime divides the determinant. -/
theorem C24_no_overflow_none {n : Nat} (hn : 0 < n) (A : Matrix (Fin n) (Fin n) Int) (b : IMat)
    (hneg : ∀ i j, ¬ (A i j < 0 ∧ thePrime ∣ A i j)) (hdet : thePrime ∣ A.det) (steps : Nat) :
    solveWith i64Check thePrime steps (toLists A) b = .ok none :=
  solveWith_none (p := 9999991) (accepts_i64 (by norm_num)) hn A b (by simpa [thePrime] using hneg)
    (by simpa [thePrime] using hdet) steps

example : ∃ X : Matrix (Fin 2) (Fin 1) Rat, ∃ steps,
    solveWith i64Check thePrime steps (toLists !![(2000 : Int), 1; 1, -3]) (toLists !![(1 : Int); 2]) =
      .ok (some (toLists X)) := by
  obtain ⟨X, h, -⟩ := C24_no_overflow (by omega) !![(2000 : Int), 1; 1, -3] !![(1 : Int); 2]
    (by intro i j; fin_cases i <;> fin_cases j <;> simp [thePrime])
    (by simp [Matrix.det_fin_two, thePrime]) 2000 4000 (by decide) (by decide) (by decide)
    (by decide) _ le_rfl
  exact ⟨X, _, h⟩

end Systre.Modular
