import Verif.Lemmas.FloatSolve
import Verif.Lemmas.LinAlgRep
import Verif.Spec.LinearAlgebra
import Verif.Lemmas.Round53
import Mathlib.LinearAlgebra.Matrix.Notation
import Mathlib.Tactic.FinCases
import Mathlib.Tactic.NormNum

/-!
# C76: linear algebra over floating point numbers (src/arithmetic/linear_algebra.rs, `impl Scalar for f64`)

`F` is any type with arithmetic operations that need not satisfy any law (`FloatArith`): the theorems hold whatever rounding,
overflow and NaN do. `F64` is double precision rounding on rational numbers.
-/

namespace Systre
open Mat

section
variable {F : Type} [FloatArith F] [DecidableEq F] {m n k : Nat}

/-- **C76** (a) `rank` returns, and is at most the number of rows and the number of columns. -/
theorem C76_rank {a : Mat F} {A : Matrix (Fin m) (Fin n) F} (ha : Rep a A) :
    ∃ r, rank a = .ok r ∧ r ≤ m ∧ r ≤ n := by
  have := FloatShape.rank_ok ha.wf
  rwa [ha.rows, ha.cols] at this

theorem FloatShape.rref_of {bs : List (List F)} {N : Nat} (hE : FloatShape.Ech N bs) (hR : FloatShape.Red bs) :
    ∃ (M : Matrix (Fin bs.length) (Fin N) F) (p : Fin bs.length → Fin N),
      RepRows (FloatShape.matOf N bs) M ∧ IsRREF M p ∧
      ∀ i, FloatShape.Piv (rent bs[i.1]) (p i).1 := by
  obtain ⟨p, hpm, hp⟩ := hE.pivots
  refine ⟨fun i j => rent bs[i.1] j.1, p, ⟨?_, ?_⟩, ⟨⟨hpm, ?_, ?_⟩, ?_, ?_⟩, hp⟩
  · intro hb
    have hne : bs ≠ [] := List.length_pos_iff.1 hb
    have hN : 0 < N := (p ⟨0, hb⟩).pos
    exact rep_of_ent (FloatShape.matOf_wf _ _) (FloatShape.matOf_nrows hN) (FloatShape.matOf_ncols hne)
      (fun i j => FloatShape.matOf_ent hne i.2 j.2)
  · intro hb
    have : bs = [] := List.length_eq_zero_iff.1 hb
    simp [FloatShape.matOf, this]
  · intro i j hj; exact (hp i).1 _ hj
  · intro i; exact (hp i).2
  · intro i
    have := FloatShape.Red.rref hE hR hp i i
    simpa using this
  · intro i i' hne
    have := FloatShape.Red.rref hE hR hp i i'
    simpa [hne] using this

/-- **C76** (b) `reduced_basis` returns a matrix that is in reduced row echelon form exactly (the pivots are 1, the other
entries in their columns are 0: nothing is only close to 1 or 0), with as many rows as `rank` says. -/
theorem C76_reduced_basis {a : Mat F} {A : Matrix (Fin m) (Fin n) F} (ha : Rep a A) :
    ∃ (r : Nat) (t : Mat F) (N : Matrix (Fin r) (Fin n) F) (p : Fin r → Fin n),
      reducedBasis a = .ok t ∧ RepRows t N ∧ IsRREF N p ∧ rank a = .ok r := by
  obtain ⟨bs, h1, h2, h3, h4, -⟩ := FloatShape.reducedBasis_ok ha.wf
  rw [ha.cols] at h1 h3
  obtain ⟨N, p, h5, h6, -⟩ := FloatShape.rref_of h3 h4
  exact ⟨_, _, N, p, h1, h5, h6, h2⟩

/-- **C76** (c) `determinant` returns for every square matrix; from size 4 on it is zero if `rank` is less than the size. It
panics if the matrix is not square. -/
theorem C76_determinant :
    (∀ {a : Mat F} {A : Matrix (Fin n) (Fin n) F}, Rep a A →
      ∃ d, determinant a = .ok d ∧ ∀ r, rank a = .ok r → 4 ≤ n → r < n → d = 0) ∧
    (∀ {a : Mat F}, a.nrows ≠ a.ncols → determinant a = .panic) := by
  refine ⟨?_, fun h => by unfold determinant; rw [if_pos h]⟩
  intro a A ha
  obtain ⟨d, h1, h2⟩ := FloatShape.determinant_ok ha.wf (by rw [ha.rows, ha.cols])
  refine ⟨d, h1, fun r hr h4 hlt => h2 (by rw [ha.rows]; exact h4) ?_⟩
  rw [hr, ha.rows]
  intro h
  have := Outcome.ok.inj h
  omega

/-- **C76** (d) `solve` returns: either a matrix of the right shape, or `None`, the latter exactly if the reduced basis of
`[A | B]` has a pivot in a column of `B`. It never panics unless the numbers of rows differ. -/
theorem C76_solve {a b : Mat F} {A : Matrix (Fin m) (Fin n) F} {B : Matrix (Fin m) (Fin k) F} (ha : Rep a A)
    (hb : Rep b B) (hnk : 0 < n → 0 < k) :
    ∃ (st t : Mat F) (r : Nat) (N : Matrix (Fin r) (Fin (n + k)) F) (p : Fin r → Fin (n + k)),
      hstack [a, b] = .ok st ∧ reducedBasis st = .ok t ∧ RepRows t N ∧ IsRREF N p ∧
      ((solve a b = .ok none ∧ ∃ i, n ≤ (p i).1) ∨
       ((∃ (x : Mat F) (X : Matrix (Fin n) (Fin k) F), solve a b = .ok (some x) ∧ Rep x X) ∧ ∀ i, (p i).1 < n)) := by
  obtain ⟨st, bs, h1, h2, h3, h4, h5, h6, h7, h8⟩ := FloatShape.solve_ok ha.wf hb.wf (by rw [ha.rows, hb.rows])
    (by rw [ha.cols, hb.cols]; exact hnk)
  rw [h4] at h5 h6
  rw [ha.cols, hb.cols] at h5 h6
  obtain ⟨N, p, h9, h10, h11⟩ := FloatShape.rref_of h6 h7
  refine ⟨st, _, _, N, p, h1, h5, h9, h10, ?_⟩
  rcases h8 with ⟨h12, c, hc, d, hd, hnd⟩ | ⟨⟨x, h12, h13, h14, h15⟩, h16⟩
  · left
    refine ⟨h12, ?_⟩
    obtain ⟨i, hi, rfl⟩ := List.getElem_of_mem hc
    refine ⟨⟨i, hi⟩, ?_⟩
    rw [(h11 ⟨i, hi⟩).unique hd, ← ha.cols]
    exact hnd
  · right
    refine ⟨⟨x, _, h12, rep_toM' h13 (by rw [h14, ha.cols]) (by rw [h15, hb.cols])⟩, ?_⟩
    intro i
    have := h16 _ (List.getElem_mem i.2) _ (h11 i)
    rwa [ha.cols] at this

/-- **C76** (e) `inverse` returns, for square matrices: `None` or a matrix of the same size. `null_space` returns, for
matrices with at least one row: `None`, or between one and `n` columns of length `n`. -/
theorem C76_inverse_null_space :
    (∀ {a : Mat F} {A : Matrix (Fin n) (Fin n) F}, Rep a A →
      inverse a = .ok none ∨ ∃ (x : Mat F) (X : Matrix (Fin n) (Fin n) F), inverse a = .ok (some x) ∧ Rep x X) ∧
    (∀ {a : Mat F} {A : Matrix (Fin m) (Fin n) F}, Rep a A → 0 < m →
      nullSpace a = .ok none ∨
      ∃ (d : Nat) (x : Mat F) (X : Matrix (Fin n) (Fin d) F), nullSpace a = .ok (some x) ∧ Rep x X ∧ 0 < d ∧ d ≤ n) ∧
    (∀ {a : Mat F}, a.nrows ≠ a.ncols → inverse a = .panic) ∧
    (∀ {a b : Mat F}, a.nrows ≠ b.nrows → solve a b = .panic) := by
  refine ⟨?_, ?_, fun h => ?_, fun h => ?_⟩
  · intro a A ha
    rcases FloatShape.inverse_ok ha.wf (by rw [ha.rows, ha.cols]) with h | ⟨x, h1, h2, h3, h4⟩
    · exact Or.inl h
    · rw [ha.rows] at h3 h4
      exact Or.inr ⟨x, _, h1, rep_toM' h2 h3 h4⟩
  · intro a A ha hm
    rcases FloatShape.nullSpace_ok ha.wf (by rw [ha.rows]; exact hm) with h | ⟨x, h1, h2, h3, h4, h5⟩
    · exact Or.inl h
    · rw [ha.cols] at h3 h5
      exact Or.inr ⟨_, x, _, h1, rep_toM' h2 h3 rfl, h4, h5⟩
  · simp [inverse, rassert, h]
  · simp [solve, rassert, h]

end

/-- exact arithmetic, as an arithmetic without laws -/
@[reducible] def exactArith : FloatArith Rat where
  one_ne_zero := by decide
  neg_eq_zero := by intro x; simp

/-- **C76** (f) If no operation rounds, the `f64` code computes what the code for `BigRational` computes (for which C07-C15
prove the results correct): whatever is wrong with a result over `f64` comes from rounding. -/
theorem C76_exact (a b : Mat Rat) :
    @rank Rat _ _ (@floatScalar Rat exactArith _) _ a = @rank Rat _ _ ratScalar _ a ∧
    @determinant Rat _ _ _ _ _ _ (@floatScalar Rat exactArith _) _ a = @determinant Rat _ _ _ _ _ _ ratScalar _ a ∧
    @reducedBasis Rat _ _ (@floatScalar Rat exactArith _) _ a = @reducedBasis Rat _ _ ratScalar _ a ∧
    @solve Rat _ _ _ _ _ (@floatScalar Rat exactArith _) _ a b = @solve Rat _ _ _ _ _ ratScalar _ a b ∧
    @nullSpace Rat _ _ _ (@floatScalar Rat exactArith _) _ a = @nullSpace Rat _ _ _ ratScalar _ a ∧
    @inverse Rat _ _ _ _ _ (@floatScalar Rat exactArith _) _ a = @inverse Rat _ _ _ _ _ ratScalar _ a := by
  have h : @floatScalar Rat exactArith _ = ratScalar := rfl
  rw [h]
  exact ⟨rfl, rfl, rfl, rfl, rfl, rfl⟩

/-- the rational numbers that the entries of a floating point matrix stand for -/
def F64.toRat {m n : Nat} (A : Matrix (Fin m) (Fin n) F64) : Matrix (Fin m) (Fin n) Rat :=
  Matrix.of fun i j => (A i j).val

/-- **C76** The results are not accurate: the first non-zero entry of a column is the pivot, however small. For the
well-conditioned system `2^-60 x + y = 1`, `x + y = 2`, whose only solution has `x > 1` and `y < 1`, `solve` answers `x = 0`,
`y = 1` (which does not satisfy the second equation by far). -/
theorem C76_accuracy_refuted :
    ∃ (a b x : Mat F64) (A : Matrix (Fin 2) (Fin 2) F64) (B : Matrix (Fin 2) (Fin 1) F64), Rep a A ∧ Rep b B ∧
      solve a b = .ok (some x) ∧ x.data = [⟨0⟩, ⟨1⟩] ∧
      ∀ X : Matrix (Fin 2) (Fin 1) Rat, F64.toRat A * X = F64.toRat B → 1 < X 0 0 ∧ X 1 0 < 1 := by
  refine ⟨⟨2, 2, [⟨1 / 2 ^ 60⟩, ⟨1⟩, ⟨1⟩, ⟨1⟩]⟩, ⟨2, 1, [⟨1⟩, ⟨2⟩]⟩, ⟨2, 1, [⟨0⟩, ⟨1⟩]⟩,
    !![⟨1 / 2 ^ 60⟩, ⟨1⟩; ⟨1⟩, ⟨1⟩], !![⟨1⟩; ⟨2⟩], ⟨rfl, rfl, rfl, by decide, ?_⟩, ⟨rfl, rfl, rfl, by decide, ?_⟩, ?_, rfl, ?_⟩
  · decide +kernel
  · decide +kernel
  · decide +kernel
  · intro X h
    have h0 := congrFun (congrFun h 0) 0
    have h1 := congrFun (congrFun h 1) 0
    simp [F64.toRat, Matrix.mul_apply, Fin.sum_univ_two] at h0 h1
    norm_num at h0 h1
    constructor <;> linarith

/-- **C76** `rank` is not accurate: for the exactly stored singular matrix with the rows (3, 27), (7, 63) the elimination
leaves a rounding error that counts as a pivot. -/
theorem C76_rank_refuted :
    ∃ (a : Mat F64) (A : Matrix (Fin 2) (Fin 2) F64), Rep a A ∧ rank a = .ok 2 ∧ (F64.toRat A).det = 0 := by
  refine ⟨⟨2, 2, [⟨3⟩, ⟨27⟩, ⟨7⟩, ⟨63⟩]⟩, !![⟨3⟩, ⟨27⟩; ⟨7⟩, ⟨63⟩], ⟨rfl, rfl, rfl, by decide, ?_⟩, ?_, ?_⟩
  · decide +kernel
  · decide +kernel
  · rw [Matrix.det_fin_two]
    simp [F64.toRat]
    try norm_num

/-- **C76** (the arithmetic of the counterexamples) The operations on `F64` are those of IEEE double precision numbers as long
as no exponent is too large or too small: the exact result, rounded to the nearest number with 53 bits, ties to even. -/
theorem C76_f64 (a b : F64) :
    IsRounded (a.val + b.val) (a + b).val ∧ IsRounded (a.val - b.val) (a - b).val ∧
    IsRounded (a.val * b.val) (a * b).val ∧ (b ≠ 0 → IsRounded (a.val / b.val) (a / b).val) ∧ (-a).val = -a.val :=
  ⟨Round.round_spec _, Round.round_spec _, Round.round_spec _, fun _ => Round.round_spec _, rfl⟩

/-- ties go to the even number, up or down -/
example : ((⟨2 ^ 53⟩ : F64) + ⟨1⟩).val = 2 ^ 53 ∧ ((⟨2 ^ 53⟩ : F64) + ⟨3⟩).val = 2 ^ 53 + 4 := by decide +kernel

/-- The same system with the equations exchanged is solved well: (1, 1). -/
example : solve (⟨2, 2, [⟨1⟩, ⟨1⟩, ⟨1 / 2 ^ 60⟩, ⟨1⟩]⟩ : Mat F64) ⟨2, 1, [⟨2⟩, ⟨1⟩]⟩ =
    .ok (some ⟨2, 1, [⟨1⟩, ⟨1⟩]⟩) := by decide +kernel

/-- rounding: a third -/
example : (1 / (⟨3⟩ : F64)).val = 6004799503160661 / 2 ^ 54 := by decide +kernel

/-- a case of (a)-(e) with rounding in it -/
example : rank (⟨2, 2, [⟨3⟩, ⟨1⟩, ⟨1⟩, ⟨1⟩]⟩ : Mat F64) = .ok 2 ∧
    inverse (⟨2, 2, [⟨1⟩, ⟨2⟩, ⟨2⟩, ⟨4⟩]⟩ : Mat F64) = .ok none ∧
    nullSpace (⟨1, 2, [⟨1⟩, ⟨2⟩]⟩ : Mat F64) = .ok (some ⟨2, 1, [⟨1⟩, ⟨-1 / 2⟩]⟩) := by decide +kernel

end Systre
