import Verif.Lemmas.FloatSteps
import Verif.Props.ModularSolver

/-!
# C77: the number of p-adic steps is computed in floating point numbers

`F : FloatOps` is the arithmetic of the machine, `F.Accurate u` says that each of its operations has a relative
error of at most `u` (`2⁻⁵²` is enough for `f64`).
-/

namespace Systre.Modular
open Systre

variable {F : FloatOps} {u : ℝ} {n m : Nat}

/-- C77: the argument of `ceil` is computed with a relative error of at most `12 u (n + 4)²`, for all systems
with a non-singular matrix and at least one right-hand side. In particular it is a finite number. -/
theorem C77_error (hF : F.Accurate u) (hu : 0 ≤ u) (hn : 0 < n) (hm : 0 < m)
    (hun : 12 * u * (n + 4) ^ 2 ≤ 1 / 10) (A : Matrix (Fin n) (Fin n) Int) (B : Matrix (Fin n) (Fin m) Int)
    (hdet : A.det ≠ 0) :
    ∃ x : ℝ, F.quotient (toLists A) (toLists B) thePrime = .ok (x : WithBot ℝ) ∧
      F.numberOfSteps (toLists A) (toLists B) thePrime = .ok ⌈x⌉₊ ∧
      |x - exactQuotient A B 9999991| ≤ 12 * u * (n + 4) ^ 2 * exactQuotient A B 9999991 := by
  obtain ⟨x, h1, h2⟩ := quotient_near hF hu hn hm hun A B hdet (p := 9999991) (by norm_num)
  refine ⟨x, h1, ?_, h2⟩
  unfold FloatOps.numberOfSteps
  have : F.quotient (toLists A) (toLists B) thePrime = .ok (x : WithBot ℝ) := h1
  rw [this]
  rfl

/-- C77: the computed number of steps is at least one, and differs from the exact number by at most one,
as long as the relative error times the number of steps is below one. -/
theorem C77_off_by_one (hF : F.Accurate u) (hu : 0 ≤ u) (hn : 0 < n) (hm : 0 < m)
    (hun : 12 * u * (n + 4) ^ 2 ≤ 1 / 10) (A : Matrix (Fin n) (Fin n) Int) (B : Matrix (Fin n) (Fin m) Int)
    (hdet : A.det ≠ 0) (hsmall : 12 * u * (n + 4) ^ 2 * stepsNeeded A B 9999991 < 1) :
    ∃ steps, F.numberOfSteps (toLists A) (toLists B) thePrime = .ok steps ∧
      1 ≤ steps ∧ stepsNeeded A B 9999991 ≤ steps + 1 ∧ steps ≤ stepsNeeded A B 9999991 + 1 := by
  obtain ⟨x, -, h1, h2⟩ := C77_error hF hu hn hm hun A B hdet
  have hV := exactQuotient_pos A B hdet (p := 9999991) (by norm_num)
  have hη0 : 0 ≤ 12 * u * ((n : ℝ) + 4) ^ 2 := by positivity
  have hle : exactQuotient A B 9999991 ≤ stepsNeeded A B 9999991 := Nat.le_ceil _
  have h3 := mul_le_mul_of_nonneg_left hle hη0
  have h4 := abs_le.1 (h2.trans h3)
  refine ⟨_, h1, ?_, ?_, ?_⟩
  · rw [Nat.one_le_ceil_iff]
    have := (abs_le.1 h2).1
    have : 12 * u * ((n : ℝ) + 4) ^ 2 * exactQuotient A B 9999991 ≤ 1 / 10 * exactQuotient A B 9999991 :=
      mul_le_mul_of_nonneg_right hun hV.le
    linarith
  · change ⌈exactQuotient A B 9999991⌉₊ ≤ _
    rw [Nat.ceil_le]
    push_cast
    have := Nat.le_ceil x
    linarith [h4.1]
  · rw [Nat.ceil_le]
    push_cast
    linarith [h4.2]

/-- C77: the computed number of steps is large enough, unless the exact quotient lies just above an integer. -/
theorem C77_enough_steps (hF : F.Accurate u) (hu : 0 ≤ u) (hn : 0 < n) (hm : 0 < m)
    (hun : 12 * u * (n + 4) ^ 2 ≤ 1 / 10) (A : Matrix (Fin n) (Fin n) Int) (B : Matrix (Fin n) (Fin m) Int)
    (hdet : A.det ≠ 0)
    (hnm : ¬ ∃ s : ℕ, (1 - 12 * u * (n + 4) ^ 2) * exactQuotient A B 9999991 ≤ s ∧
      (s : ℝ) < exactQuotient A B 9999991) :
    ∃ steps, F.numberOfSteps (toLists A) (toLists B) thePrime = .ok steps ∧ stepsNeeded A B 9999991 ≤ steps := by
  obtain ⟨x, -, h1, h2⟩ := C77_error hF hu hn hm hun A B hdet
  refine ⟨_, h1, ?_⟩
  change ⌈exactQuotient A B 9999991⌉₊ ≤ _
  rw [Nat.ceil_le]
  by_contra hlt
  push Not at hlt
  refine hnm ⟨_, ?_, hlt⟩
  have := (abs_le.1 h2).1
  have := Nat.le_ceil x
  linarith

theorem solve_of_steps {ck : Int → Outcome Int} {K α Bd : Int} (hck : Accepts ck K) (hn : 0 < n)
    (hK : ((9999991 * 9999991 : Nat) : Int) ≤ K) (hKB : (9999991 : Nat) * Bd ≤ K)
    (A : Matrix (Fin n) (Fin n) Int) (B : Matrix (Fin n) (Fin m) Int)
    (hA : ∀ i j, |A i j| ≤ α) (hB : ∀ i j, |B i j| ≤ Bd) (hαB : n * α ≤ Bd)
    (hpan : matrixInverse ck (toLists A) (9999991 : Nat) ≠ .panic) (hdet : ¬ thePrime ∣ A.det) {steps : Nat}
    (hcode : F.numberOfSteps (toLists A) (toLists B) thePrime = .ok steps)
    (hst : ∀ b : Int, 1 ≤ b → (b : ℝ) ≤ Real.exp (logDelta A B) →
      (Real.goldenRatio * b) ^ 2 ≤ ((9999991 : ℕ) : ℝ) ^ steps) :
    ∃ X : Matrix (Fin n) (Fin m) Rat, F.solve ck (toLists A) (toLists B) = .ok (some (toLists X)) ∧
      A.map (fun x => (x : Rat)) * X = B.map (fun x => (x : Rat)) := by
  obtain ⟨X, h1, h2⟩ := solveWith_any_of (p := 9999991) hck hn hK hKB A B hA hB hαB
    hpan (by simpa [thePrime] using hdet) hst
  refine ⟨X, ?_, h2⟩
  have h1' : solveWith ck thePrime steps (toLists A) (toLists B) = .ok (some (toLists X)) := h1
  unfold FloatOps.solve
  have h3 := h1'
  unfold solveWith at h3
  obtain ⟨c, hc, h4⟩ := Outcome.bind_eq_ok.1 h3
  rw [hc]
  cases c with
  | none => cases (Outcome.ok.inj h4)
  | some c =>
    simp only [Outcome.ok_bind]
    rw [hcode]
    exact h1'

theorem solve_exact_core (hF : F.Accurate u) (hu : 0 ≤ u) (hn : 0 < n) (hm : 0 < m)
    (hun : 12 * u * (n + 4) ^ 2 ≤ 1 / 10) (A : Matrix (Fin n) (Fin n) Int) (B : Matrix (Fin n) (Fin m) Int)
    (hpan : matrixInverse i64Check (toLists A) (9999991 : Nat) ≠ .panic) (hdet : ¬ thePrime ∣ A.det)
    (α Bd : Int) (hA : ∀ i j, |A i j| ≤ α) (hB : ∀ i j, |B i j| ≤ Bd)
    (hαB : n * α ≤ Bd) (hBd : thePrime * Bd < 2 ^ 63)
    (hnm : ∀ s, F.numberOfSteps (toLists A) (toLists B) thePrime = .ok s → s < stepsNeeded A B 9999991 →
      NoNearMiss 9999991 (12 * u * (n + 4) ^ 2) s) :
    ∃ X : Matrix (Fin n) (Fin m) Rat, F.solve i64Check (toLists A) (toLists B) = .ok (some (toLists X)) ∧
      A.map (fun x => (x : Rat)) * X = B.map (fun x => (x : Rat)) := by
  have hdet0 : A.det ≠ 0 := by intro h; apply hdet; rw [h]; exact dvd_zero _
  obtain ⟨x, -, h1, h2⟩ := C77_error hF hu hn hm hun A B hdet0
  let K : Int := max ((9999991 * 9999991 : Nat) : Int) ((9999991 : Nat) * Bd)
  have hK : K < 2 ^ 63 := by
    apply max_lt
    · norm_num
    · simpa [thePrime] using hBd
  refine solve_of_steps (K := K) (accepts_i64 hK) hn (le_max_left _ _) (le_max_right _ _) A B hA hB hαB hpan hdet
    h1 ?_
  intro b hb hbD
  rcases Nat.lt_or_ge ⌈x⌉₊ (stepsNeeded A B 9999991) with hlt | hge
  · have h3 := margin_of_le A B (p := 9999991) (by norm_num) (by linarith) h2 (Nat.le_ceil x) hb hbD
    obtain ⟨c, rfl⟩ := Int.eq_ofNat_of_zero_le (by omega : 0 ≤ b)
    rcases hnm _ h1 hlt c with h4 | h4
    · exact_mod_cast h4
    · rw [Int.cast_natCast] at h3
      exact absurd (lt_of_lt_of_le h4 h3) (lt_irrefl _)
  · refine le_trans ?_ (steps_suffice A B (by norm_num) hge)
    have hφ := Real.goldenRatio_pos
    have hb0 : (0 : ℝ) ≤ b := by exact_mod_cast (by omega : 0 ≤ b)
    exact pow_le_pow_left₀ (by positivity) (mul_le_mul_of_nonneg_left hbD hφ.le) _

/-- C77: `solve`, with the number of steps it computes itself in floating point numbers and with `i64` overflow
checks, returns the exact rational solution, provided the computed number of steps `s` has no near miss. -/
theorem C77_solve_exact (hF : F.Accurate u) (hu : 0 ≤ u) (hn : 0 < n) (hm : 0 < m)
    (hun : 12 * u * (n + 4) ^ 2 ≤ 1 / 10) (A : Matrix (Fin n) (Fin n) Int) (B : Matrix (Fin n) (Fin m) Int)
    (hneg : ∀ i j, ¬ (A i j < 0 ∧ thePrime ∣ A i j)) (hdet : ¬ thePrime ∣ A.det)
    (α Bd : Int) (hA : ∀ i j, |A i j| ≤ α) (hB : ∀ i j, |B i j| ≤ Bd)
    (hαB : n * α ≤ Bd) (hBd : thePrime * Bd < 2 ^ 63)
    (hnm : ∀ s, F.numberOfSteps (toLists A) (toLists B) thePrime = .ok s → s < stepsNeeded A B 9999991 →
      NoNearMiss 9999991 (12 * u * (n + 4) ^ 2) s) :
    ∃ X : Matrix (Fin n) (Fin m) Rat, F.solve i64Check (toLists A) (toLists B) = .ok (some (toLists X)) ∧
      A.map (fun x => (x : Rat)) * X = B.map (fun x => (x : Rat)) :=
  solve_exact_core hF hu hn hm hun A B
    (matrixInverse_noPanic (p := 9999991) (accepts_i64 (by norm_num)) hn A (by simpa [thePrime] using hneg))
    hdet α Bd hA hB hαB hBd hnm

/-- C77: for all integer matrices, also with negative multiples of the prime: `solve` returns the exact solution, or finds
that the determinant is a multiple of the prime, or panics, the latter only if an entry is a negative multiple of the
prime. -/
theorem C77_solve_any (hF : F.Accurate u) (hu : 0 ≤ u) (hn : 0 < n) (hm : 0 < m)
    (hun : 12 * u * (n + 4) ^ 2 ≤ 1 / 10) (A : Matrix (Fin n) (Fin n) Int) (B : Matrix (Fin n) (Fin m) Int)
    (α Bd : Int) (hA : ∀ i j, |A i j| ≤ α) (hB : ∀ i j, |B i j| ≤ Bd)
    (hαB : n * α ≤ Bd) (hBd : thePrime * Bd < 2 ^ 63)
    (hnm : ∀ s, F.numberOfSteps (toLists A) (toLists B) thePrime = .ok s → s < stepsNeeded A B 9999991 →
      NoNearMiss 9999991 (12 * u * (n + 4) ^ 2) s) :
    (F.solve i64Check (toLists A) (toLists B) = .panic ∧ ∃ i j, A i j < 0 ∧ thePrime ∣ A i j) ∨
    (¬ thePrime ∣ A.det ∧ ∃ X : Matrix (Fin n) (Fin m) Rat,
      F.solve i64Check (toLists A) (toLists B) = .ok (some (toLists X)) ∧
      A.map (fun x => (x : Rat)) * X = B.map (fun x => (x : Rat))) ∨
    (thePrime ∣ A.det ∧ F.solve i64Check (toLists A) (toLists B) = .ok none) := by
  by_cases hpan : matrixInverse i64Check (toLists A) (9999991 : Nat) = .panic
  · refine Or.inl ⟨?_, ?_⟩
    · have h : matrixInverse i64Check (toLists A) thePrime = .panic := hpan
      unfold FloatOps.solve
      rw [h]
      rfl
    · by_contra hcon
      push Not at hcon
      exact matrixInverse_noPanic (p := 9999991) (accepts_i64 (by norm_num)) hn A
        (fun i j hh => hcon i j hh.1 hh.2) hpan
  · by_cases hdet : thePrime ∣ A.det
    · refine Or.inr (Or.inr ⟨hdet, ?_⟩)
      have h := solveWith_any_none (p := 9999991) (accepts_i64 (by norm_num)) hn A (toLists B) hpan
        (by simpa [thePrime] using hdet) 0
      have h' : solveWith i64Check thePrime 0 (toLists A) (toLists B) = .ok none := h
      unfold FloatOps.solve
      unfold solveWith at h'
      obtain ⟨c, hc, h4⟩ := Outcome.bind_eq_ok.1 h'
      rw [hc]
      cases c with
      | none => rfl
      | some c =>
        simp only [Outcome.ok_bind] at h4
        obtain ⟨_, -, h5⟩ := Outcome.bind_eq_ok.1 h4
        obtain ⟨_, -, h6⟩ := Outcome.bind_eq_ok.1 h5
        obtain ⟨_, -, h7⟩ := Outcome.bind_eq_ok.1 h6
        cases Outcome.ok.inj h7
    · exact Or.inr (Or.inl ⟨hdet, solve_exact_core hF hu hn hm hun A B hpan hdet α Bd hA hB hαB hBd hnm⟩)

/-- C77: for systems with at most 21 unknowns that need at most four steps, the result of `solve` is exact
whatever the rounding errors are (up to one unit in the last place of an `f64` per operation). -/
theorem C77_solve_exact_small (hF : F.Accurate u) (hu : 0 ≤ u) (hu52 : u ≤ 1 / 2 ^ 52) (hn : 0 < n) (hn21 : n ≤ 21)
    (hm : 0 < m) (A : Matrix (Fin n) (Fin n) Int) (B : Matrix (Fin n) (Fin m) Int)
    (hneg : ∀ i j, ¬ (A i j < 0 ∧ thePrime ∣ A i j)) (hdet : ¬ thePrime ∣ A.det)
    (α Bd : Int) (hA : ∀ i j, |A i j| ≤ α) (hB : ∀ i j, |B i j| ≤ Bd)
    (hαB : n * α ≤ Bd) (hBd : thePrime * Bd < 2 ^ 63) (hsteps : stepsNeeded A B 9999991 ≤ 4) :
    ∃ X : Matrix (Fin n) (Fin m) Rat, F.solve i64Check (toLists A) (toLists B) = .ok (some (toLists X)) ∧
      A.map (fun x => (x : Rat)) * X = B.map (fun x => (x : Rat)) := by
  have hnr : (n : ℝ) ≤ 21 := by exact_mod_cast hn21
  have hn0 : (0 : ℝ) ≤ n := Nat.cast_nonneg n
  have hη : 12 * u * ((n : ℝ) + 4) ^ 2 ≤ 1.67e-12 := by
    have h1 : ((n : ℝ) + 4) ^ 2 ≤ 625 := by nlinarith
    have h2 : 12 * u * ((n : ℝ) + 4) ^ 2 ≤ 12 * (1 / 2 ^ 52) * 625 :=
      mul_le_mul (by linarith) h1 (by positivity) (by positivity)
    refine h2.trans ?_
    norm_num
  refine C77_solve_exact hF hu hn hm (by linarith) A B hneg hdet α Bd hA hB hαB hBd ?_
  intro s _ hlt
  exact noNearMiss_small (by positivity) hη (by omega)

/-- A bound for the number of steps from a bound for the squared norms of the columns. -/
theorem steps_le_four (hm : 0 < m) (A : Matrix (Fin n) (Fin n) Int) (B : Matrix (Fin n) (Fin m) Int)
    (q : Nat) (hq : 1 ≤ q) (hAq : ∀ j, ∑ i, A i j ^ 2 ≤ q) (hBq : ∀ j, ∑ i, B i j ^ 2 ≤ q)
    (hqn : 3 * q ^ n ≤ 9999991 ^ 4) : stepsNeeded A B 9999991 ≤ 4 := by
  haveI : Nonempty (Fin m) := ⟨⟨0, hm⟩⟩
  have hqr : (1 : ℝ) ≤ q := by exact_mod_cast hq
  have hlq : 0 ≤ Real.log q := Real.log_nonneg hqr
  have hcol : ∀ {c : Nat} (M : Matrix (Fin n) (Fin c) Int) (j : Fin c), ∑ i, M i j ^ 2 ≤ q →
      Real.log (columnNorm M j) ≤ Real.log q / 2 := by
    intro c M j h
    have h1 : (∑ i, (M i j : ℝ) ^ 2) ≤ q := by exact_mod_cast h
    rw [← Real.log_sqrt (by linarith)]
    rcases columnNorm_zero_or M j with h0 | h0
    · have : columnNorm M j = 0 := by unfold columnNorm; simp [h0]
      rw [this, Real.log_zero, Real.log_sqrt (by linarith)]
      linarith
    · exact Real.log_le_log (by linarith) (Real.sqrt_le_sqrt h1)
  have hall : ∀ y ∈ logNorms A B, y ≤ Real.log q / 2 := by
    intro y hy
    unfold logNorms at hy
    rcases List.mem_append.1 hy with h | h
    · obtain ⟨j, rfl⟩ := List.mem_ofFn.1 h
      exact hcol A j (hAq j)
    · rw [List.mem_singleton.1 h]
      exact ciSup_le (fun j => hcol B j (hBq j))
  have hD : logDelta A B ≤ n * (Real.log q / 2) := by
    unfold logDelta
    have hlen : ((logNorms A B).insertionSort (· ≤ ·)).tail.length = n := by
      simp [logNorms]
    have := List.sum_le_card_nsmul ((logNorms A B).insertionSort (· ≤ ·)).tail (Real.log q / 2) (by
      intro y hy
      exact hall y ((List.perm_insertionSort _ _).mem_iff.1 (List.mem_of_mem_tail hy)))
    rwa [nsmul_eq_mul, hlen] at this
  unfold stepsNeeded
  rw [Nat.ceil_le]
  have hp : (0 : ℝ) < Real.log (9999991 : ℕ) := Real.log_pos (by norm_num)
  rw [div_le_iff₀ hp]
  have h1 : Real.log (3 * (q : ℝ) ^ n) ≤ Real.log (((9999991 : ℕ) : ℝ) ^ 4) := by
    apply Real.log_le_log (by positivity)
    exact_mod_cast hqn
  rw [Real.log_mul (by norm_num) (by positivity), Real.log_pow, Real.log_pow] at h1
  have h2 : 2 * Real.log Real.goldenRatio ≤ Real.log 3 := by
    have hφ := Real.goldenRatio_pos
    have : Real.log (Real.goldenRatio ^ 2) ≤ Real.log 3 :=
      Real.log_le_log (by positivity) (by linarith [golden_sq_bounds.2])
    rwa [Real.log_pow] at this
  push_cast at h1 ⊢
  linarith

/-- C77: every non-singular system with at most 21 unknowns whose columns have squared norm at most 20, for
example the equilibrium equations of a 4-coordinated net with up to 22 vertices and no multiple edges between
vertex orbits, is solved exactly. -/
theorem C77_tetravalent (hF : F.Accurate u) (hu : 0 ≤ u) (hu52 : u ≤ 1 / 2 ^ 52) (hn : 0 < n) (hn21 : n ≤ 21)
    (hm : 0 < m) (A : Matrix (Fin n) (Fin n) Int) (B : Matrix (Fin n) (Fin m) Int)
    (hdet : ¬ thePrime ∣ A.det) (hAq : ∀ j, ∑ i, A i j ^ 2 ≤ 20) (hBq : ∀ j, ∑ i, B i j ^ 2 ≤ 20) :
    ∃ X : Matrix (Fin n) (Fin m) Rat, F.solve i64Check (toLists A) (toLists B) = .ok (some (toLists X)) ∧
      A.map (fun x => (x : Rat)) * X = B.map (fun x => (x : Rat)) := by
  have hentry : ∀ {c : Nat} (M : Matrix (Fin n) (Fin c) Int) (i : Fin n) (j : Fin c), ∑ i, M i j ^ 2 ≤ 20 →
      |M i j| ≤ 4 := by
    intro c M i j h
    have h1 : M i j ^ 2 ≤ 20 := (Finset.single_le_sum (f := fun i => M i j ^ 2) (fun _ _ => sq_nonneg _)
      (Finset.mem_univ i)).trans h
    rw [abs_le]
    constructor <;> nlinarith
  have hnr : (n : Int) ≤ 21 := by exact_mod_cast hn21
  have hn1 : (1 : Int) ≤ n := by exact_mod_cast hn
  refine C77_solve_exact_small hF hu hu52 hn hn21 hm A B ?_ hdet 4 (n * 4) (fun i j => hentry A i j (hAq j))
    (fun i j => (hentry B i j (hBq j)).trans (by linarith)) le_rfl (by unfold thePrime; omega)
    (steps_le_four hm A B 20 (by norm_num) (by simpa using hAq) (by simpa using hBq) ?_)
  · rintro i j ⟨h1, h2⟩
    have h3 := hentry A i j (hAq j)
    have := Int.le_of_dvd (by omega) ((dvd_neg).2 h2)
    unfold thePrime at this
    have := (abs_le.1 h3).1
    omega
  · calc 3 * 20 ^ n ≤ 3 * 20 ^ 21 := Nat.mul_le_mul_left _ (Nat.pow_le_pow_right (by norm_num) hn21)
      _ ≤ 9999991 ^ 4 := by norm_num

/-- C77: `None` exactly when the prime divides the determinant; no floating point number is touched then. -/
theorem C77_none (F : FloatOps) (hn : 0 < n) (A : Matrix (Fin n) (Fin n) Int) (b : IMat)
    (hneg : ∀ i j, ¬ (A i j < 0 ∧ thePrime ∣ A i j)) (hdet : thePrime ∣ A.det) :
    F.solve i64Check (toLists A) b = .ok none := by
  have h := C24_no_overflow_none hn A b hneg hdet 0
  unfold FloatOps.solve
  unfold solveWith at h
  obtain ⟨c, hc, h4⟩ := Outcome.bind_eq_ok.1 h
  rw [hc]
  cases c with
  | none => rfl
  | some c =>
    simp only [Outcome.ok_bind] at h4 ⊢
    obtain ⟨_, -, h5⟩ := Outcome.bind_eq_ok.1 h4
    obtain ⟨_, -, h6⟩ := Outcome.bind_eq_ok.1 h5
    obtain ⟨_, -, h7⟩ := Outcome.bind_eq_ok.1 h6
    cases Outcome.ok.inj h7

/-- C77: without a right-hand side (`b` has rows, but no columns), `solve` panics: `unwrap` of `None`. -/
theorem C77_no_columns_panics (hF : F.Accurate u) (hu : 0 ≤ u) (hu1 : u ≤ 1 / 2) (hn : 0 < n)
    (A : Matrix (Fin n) (Fin n) Int) (B : Matrix (Fin n) (Fin 0) Int) :
    F.numberOfSteps (toLists A) (toLists B) thePrime = .panic := by
  obtain ⟨f, hf, -⟩ := lnNorms_near hF hu hu1 hn A
  obtain ⟨g, hg, -⟩ := lnNorms_near hF hu hu1 hn B
  unfold FloatOps.numberOfSteps FloatOps.quotient FloatOps.logDelta
  rw [hf, hg]
  simp [FloatOps.maxUnwrap]

-- a machine whose every operation is off by one unit in the last place, and a system with a zero column of `B`
example := C77_tetravalent (biasedFloat_accurate (u := 1 / 2 ^ 52) (by norm_num)) (by norm_num) le_rfl
  (by norm_num) (by norm_num) (by norm_num) !![(4 : Int), -1; -1, 3] !![(1 : Int), 0; 2, 0]
  (by simp [Matrix.det_fin_two, thePrime]) (by decide) (by decide)

theorem example_steps : stepsNeeded !![(4 : Int), -1; -1, 3] !![(1 : Int); 2] 9999991 ≤ 4 :=
  steps_le_four (by norm_num) _ _ 20 (by norm_num) (by decide) (by decide) (by norm_num)

example := C77_solve_exact_small (biasedFloat_accurate (u := 1 / 2 ^ 52) (by norm_num)) (by norm_num) le_rfl
  (by norm_num) (by norm_num) (by norm_num) !![(4 : Int), -1; -1, 3] !![(1 : Int); 2]
  (by intro i j; fin_cases i <;> fin_cases j <;> simp [thePrime]) (by simp [Matrix.det_fin_two, thePrime]) 4 8 (by decide) (by decide) (by decide) (by decide)
  example_steps

example := C77_off_by_one (biasedFloat_accurate (u := 1 / 2 ^ 52) (by norm_num)) (by norm_num) (by norm_num)
  (by norm_num) (by norm_num) !![(4 : Int), -1; -1, 3] !![(1 : Int); 2] (by simp [Matrix.det_fin_two])
  (by
    have h : (stepsNeeded !![(4 : Int), -1; -1, 3] !![(1 : Int); 2] 9999991 : ℝ) ≤ 4 := by
      exact_mod_cast example_steps
    refine lt_of_le_of_lt (mul_le_mul_of_nonneg_left h (by norm_num)) ?_
    norm_num)

-- with exact arithmetic there is nothing between `(1 - 0) V` and `V`
example := C77_enough_steps exactFloat_accurate le_rfl (by norm_num) (by norm_num) (by norm_num)
  !![(4 : Int), -1; -1, 3] !![(1 : Int); 2] (by simp [Matrix.det_fin_two])
  (by rintro ⟨s, h1, h2⟩; simp only [mul_zero, zero_mul, sub_zero, one_mul] at h1; linarith)

example := C77_none exactFloat (by norm_num) !![(9999991 : Int), 0; 0, 1] [[1], [1]]
  (by intro i j; fin_cases i <;> fin_cases j <;> simp [thePrime])
  (by simp [Matrix.det_fin_two, thePrime])

example := C77_no_columns_panics (biasedFloat_accurate (u := 1 / 2 ^ 52) (by norm_num)) (by norm_num) (by norm_num)
  (by norm_num) !![(4 : Int), -1; -1, 3] 0

end Systre.Modular
