import Verif.Props.RowLattice
import Verif.Props.Matrices
import Mathlib.LinearAlgebra.Matrix.Rank
import Mathlib.LinearAlgebra.Matrix.NonsingularInverse

/-!
# C92: the functions of `src/arithmetic/linear_algebra.rs` agree with each other

Nothing new is modelled. The theorems relate the answers of `rank`, `determinant`, `inverse`, `null_space`,
`reduced_basis`, `solve` and the product for the same matrices; the conclusions are about program values.
-/

namespace Systre
open Submodule

/-- C92 over ℚ, for a square matrix with at least one row: the determinant is not zero, the rank is the size,
there is an inverse, and the null space is empty, all at the same time. -/
theorem C92_regular_rat {n : Nat} {a : Mat Rat} {A : Matrix (Fin n) (Fin n) Rat} (ha : Rep a A) (hn : 0 < n) :
    (determinant a ≠ .ok 0 ↔ rank a = .ok n) ∧ (determinant a ≠ .ok 0 ↔ ∃ b, inverse a = .ok (some b)) ∧
      (determinant a ≠ .ok 0 ↔ nullSpace a = .ok none) := by
  have hd : determinant a ≠ .ok 0 ↔ A.det ≠ 0 := by
    rw [C09_determinant_rat ha]
    exact not_congr ⟨fun h => Outcome.ok.inj h, fun h => by rw [h]⟩
  have hu : A.det ≠ 0 ↔ IsUnit A := by rw [Matrix.isUnit_iff_isUnit_det, isUnit_iff_ne_zero]
  refine ⟨?_, ?_, ?_⟩ <;> rw [hd]
  · rw [C08_rank_rat ha]
    constructor
    · intro h
      rw [Matrix.rank_of_isUnit A (hu.1 h), Fintype.card_fin]
    · intro h
      have h := Outcome.ok.inj h
      rw [hu, ← Matrix.linearIndependent_rows_iff_isUnit, linearIndependent_iff_card_eq_finrank_span]
      rw [Fintype.card_fin, Set.finrank, ← Matrix.rank_eq_finrank_span_row, h]
  · constructor
    · intro h
      rcases C15_inverse_rat ha with ⟨b, B, h1, -⟩ | ⟨-, h1⟩
      · exact ⟨b, h1⟩
      · exact absurd h1 h
    · rintro ⟨b, hb⟩ h
      rcases C15_inverse_rat ha with ⟨b, B, h1, -, h2, -⟩ | ⟨h1, -⟩
      · have := congrArg Matrix.det h2
        rw [Matrix.det_mul, h] at this
        simp at this
      · rw [hb] at h1
        exact absurd (Outcome.ok.inj h1) (by simp)
  · constructor
    · intro h
      rcases C14_null_space_rat ha hn with ⟨x, d, X, -, hd, -, h2, h3, -⟩ | ⟨h1, -⟩
      · have h4 : X = 0 := by
          have := congrArg (fun Y => A⁻¹ * Y) h2
          simpa [← Matrix.mul_assoc, Matrix.nonsing_inv_mul _ (isUnit_iff_ne_zero.2 h)] using this
        have := h3.ne_zero ⟨0, hd⟩
        exact absurd (by rw [h4]; rfl) this
      · exact h1
    · intro h h0
      rcases C14_null_space_rat ha hn with ⟨x, d, X, h1, -⟩ | ⟨-, h1⟩
      · rw [h] at h1
        exact absurd (Outcome.ok.inj h1) (by simp)
      · obtain ⟨v, hv, hv'⟩ := Matrix.exists_mulVec_eq_zero_iff.2 h0
        exact hv (h1 v hv')

/-- C92 over ℤ, for a square matrix with at least one row: the determinant is not zero, the rank is the size, and
the null space is empty, all at the same time. -/
theorem C92_regular_int {n : Nat} {a : Mat Int} {A : Matrix (Fin n) (Fin n) Int} (ha : Rep a A) (hn : 0 < n) :
    (determinant a ≠ .ok 0 ↔ rank a = .ok n) ∧ (determinant a ≠ .ok 0 ↔ nullSpace a = .ok none) := by
  have hd : determinant a ≠ .ok 0 ↔ A.det ≠ 0 := by
    rw [C09_determinant_int ha]
    exact not_congr ⟨fun h => Outcome.ok.inj h, fun h => by rw [h]⟩
  have hq : (A.map (Int.cast : Int → Rat)).det = (A.det : Rat) := (Int.cast_det A).symm
  refine ⟨?_, ?_⟩ <;> rw [hd]
  · rw [(C08_rank_int ha).1]
    have hu : A.det ≠ 0 ↔ IsUnit (A.map (Int.cast : Int → Rat)) := by
      rw [Matrix.isUnit_iff_isUnit_det, isUnit_iff_ne_zero, hq, Int.cast_ne_zero]
    constructor
    · intro h
      rw [Matrix.rank_of_isUnit _ (hu.1 h), Fintype.card_fin]
    · intro h
      have h := Outcome.ok.inj h
      rw [hu, ← Matrix.linearIndependent_rows_iff_isUnit, linearIndependent_iff_card_eq_finrank_span]
      rw [Fintype.card_fin, Set.finrank, ← Matrix.rank_eq_finrank_span_row, h]
  · constructor
    · intro h
      rcases C14_null_space_int ha hn with ⟨x, d, X, -, hd, -, h2, h3, -⟩ | ⟨h1, -⟩
      · refine absurd ?_ (h3.ne_zero ⟨0, hd⟩)
        refine Matrix.eq_zero_of_mulVec_eq_zero h ?_
        ext i
        exact congrFun (congrFun h2 i) ⟨0, hd⟩
      · exact h1
    · intro h h0
      rcases C14_null_space_int ha hn with ⟨x, d, X, h1, -⟩ | ⟨-, h1⟩
      · rw [h] at h1
        exact absurd (Outcome.ok.inj h1) (by simp)
      · obtain ⟨v, hv, hv'⟩ := Matrix.exists_mulVec_eq_zero_iff.2 h0
        exact hv (h1 v hv')

/-- C92: a matrix of integers, regarded as a matrix of rationals, has the same determinant and rank; an inverse
over the integers is also the inverse over the rationals. -/
theorem C92_int_rat {n : Nat} {a : Mat Int} {q : Mat Rat} {A : Matrix (Fin n) (Fin n) Int} (ha : Rep a A)
    (hq : Rep q (A.map (Int.cast : Int → Rat))) :
    (∃ x : Int, determinant a = .ok x ∧ determinant q = .ok (x : Rat)) ∧ rank q = rank a ∧
      ∀ b, inverse a = .ok (some b) → ∃ r, inverse q = .ok (some r) ∧
        ∃ B : Matrix (Fin n) (Fin n) Int, Rep b B ∧ Rep r (B.map (Int.cast : Int → Rat)) := by
  refine ⟨⟨_, C09_determinant_int ha, ?_⟩, ?_, fun b hb => ?_⟩
  · rw [C09_determinant_rat hq]
    exact congrArg _ (Int.cast_det A).symm
  · rw [C08_rank_rat hq, (C08_rank_int ha).1]
  · rcases C15_inverse_int ha with ⟨b', B, h1, h2, h3, -⟩ | ⟨h1, -⟩
    · obtain rfl : b = b' := Option.some.inj (Outcome.ok.inj (hb.symm.trans h1))
      have h3' : A.map (Int.cast : Int → Rat) * B.map (Int.cast : Int → Rat) = 1 := by
        have := congrArg (Int.castRingHom Rat).mapMatrix h3
        rwa [map_mul, map_one] at this
      rcases C15_inverse_rat hq with ⟨r, R, h4, h5, h6, h7⟩ | ⟨-, h4⟩
      · have : R = B.map (Int.cast : Int → Rat) := by
          calc R = R * (A.map (Int.cast : Int → Rat) * B.map (Int.cast : Int → Rat)) := by rw [h3', Matrix.mul_one]
            _ = _ := by rw [← Matrix.mul_assoc, h7, Matrix.one_mul]
        exact ⟨r, h4, B, h2, this ▸ h5⟩
      · have := congrArg Matrix.det h3'
        rw [Matrix.det_mul, h4] at this
        simp at this
    · rw [hb] at h1
      exact absurd (Outcome.ok.inj h1) (by simp)

/-- C92: the determinant of a product is the product of the determinants, over ℚ and over ℤ. -/
theorem C92_determinant_mul_rat {n : Nat} {a b : Mat Rat} {A B : Matrix (Fin n) (Fin n) Rat} (ha : Rep a A)
    (hb : Rep b B) : ∃ m x y, Mat.mul a b = .ok m ∧ determinant a = .ok x ∧ determinant b = .ok y ∧
      determinant m = .ok (x * y) := by
  obtain ⟨m, h1, h2⟩ := C17_mul a b A B ha hb
  exact ⟨m, _, _, h1, C09_determinant_rat ha, C09_determinant_rat hb, by rw [C09_determinant_rat h2, Matrix.det_mul]⟩

theorem C92_determinant_mul_int {n : Nat} {a b : Mat Int} {A B : Matrix (Fin n) (Fin n) Int} (ha : Rep a A)
    (hb : Rep b B) : ∃ m x y, Mat.mul a b = .ok m ∧ determinant a = .ok x ∧ determinant b = .ok y ∧
      determinant m = .ok (x * y) := by
  obtain ⟨m, h1, h2⟩ := C17_mul a b A B ha hb
  exact ⟨m, _, _, h1, C09_determinant_int ha, C09_determinant_int hb, by rw [C09_determinant_int h2, Matrix.det_mul]⟩

/-- C92: the inverse of the inverse is the matrix itself, and the determinants multiply to one. -/
theorem C92_inverse_inverse {n : Nat} {a b : Mat Rat} {A : Matrix (Fin n) (Fin n) Rat} (ha : Rep a A)
    (h : inverse a = .ok (some b)) :
    inverse b = .ok (some a) ∧ ∃ x y, determinant a = .ok x ∧ determinant b = .ok y ∧ x * y = 1 := by
  rcases C15_inverse_rat ha with ⟨b', B, h1, h2, h3, h4⟩ | ⟨h1, -⟩
  · obtain rfl : b = b' := Option.some.inj (Outcome.ok.inj (h.symm.trans h1))
    refine ⟨?_, _, _, C09_determinant_rat ha, C09_determinant_rat h2, by rw [← Matrix.det_mul, h3, Matrix.det_one]⟩
    rcases C15_inverse_rat h2 with ⟨c, C, h5, h6, h7, -⟩ | ⟨-, h5⟩
    · have : C = A := by
        calc C = A * B * C := by rw [h3, Matrix.one_mul]
          _ = A := by rw [Matrix.mul_assoc, h7, Matrix.mul_one]
      subst this
      rw [h5, C17_rep_unique c a C h6 ha]
    · have := congrArg Matrix.det h3
      rw [Matrix.det_mul, h5] at this
      simp at this
  · rw [h] at h1
    exact absurd (Outcome.ok.inj h1) (by simp)

/-- C92 over ℤ: there is an inverse exactly if the determinant is `1` or `-1`. -/
theorem C92_inverse_int {n : Nat} {a : Mat Int} {A : Matrix (Fin n) (Fin n) Int} (ha : Rep a A) :
    (∃ b, inverse a = .ok (some b)) ↔ determinant a = .ok 1 ∨ determinant a = .ok (-1) := by
  have hd : ∀ x, determinant a = .ok x ↔ A.det = x := fun x => by
    rw [C09_determinant_int ha]
    exact ⟨fun h => Outcome.ok.inj h, fun h => by rw [h]⟩
  rw [hd, hd]
  constructor
  · rintro ⟨b, hb⟩
    rcases C15_inverse_int ha with ⟨b', B, -, -, h3, -⟩ | ⟨h1, -⟩
    · have := congrArg Matrix.det h3
      rw [Matrix.det_mul, Matrix.det_one] at this
      exact Int.isUnit_iff.1 (IsUnit.of_mul_eq_one _ this)
    · rw [hb] at h1
      exact absurd (Outcome.ok.inj h1) (by simp)
  · intro h
    rcases C15_inverse_int ha with ⟨b', B, h1, -⟩ | ⟨-, h1, h2⟩
    · exact ⟨b', h1⟩
    · tauto

/-- C92: rank and null space: the number of columns is the rank plus the number of columns of the null space. -/
theorem C92_rank_nullity {m n : Nat} {a : Mat Rat} {A : Matrix (Fin m) (Fin n) Rat} (ha : Rep a A) (hm : 0 < m) :
    (∃ x k, nullSpace a = .ok (some x) ∧ rank a = .ok k ∧ k + x.ncols = a.ncols) ∨
      (nullSpace a = .ok none ∧ rank a = .ok a.ncols) := by
  have hrn := A.mulVecLin.finrank_range_add_finrank_ker
  rw [Module.finrank_fin_fun] at hrn
  rcases C14_null_space_rat ha hm with ⟨x, d, X, h1, -, h2, h3, h4, h5⟩ | ⟨h1, h2⟩
  · refine Or.inl ⟨x, _, h1, C08_rank_rat ha, ?_⟩
    have hk : LinearMap.ker A.mulVecLin = span Rat (Set.range X.col) := by
      apply le_antisymm
      · intro y hy
        obtain ⟨g, rfl⟩ := h5 y hy
        rw [mem_span_range_iff_exists_fun]
        refine ⟨g, ?_⟩
        ext i
        simp [Matrix.mulVec, dotProduct, mul_comm]
      · rw [span_le]
        rintro _ ⟨j, rfl⟩
        show A.mulVec (X.col j) = 0
        ext i
        exact congrFun (congrFun h3 i) j
    rw [hk, finrank_span_eq_card h4, Fintype.card_fin] at hrn
    rw [h2.cols, ha.cols]
    exact hrn
  · refine Or.inr ⟨h1, ?_⟩
    have hk : LinearMap.ker A.mulVecLin = ⊥ := by
      rw [LinearMap.ker_eq_bot']
      exact fun y hy => h2 y hy
    rw [hk, finrank_bot, add_zero] at hrn
    rw [C08_rank_rat ha, ha.cols]
    exact congrArg _ hrn

/-- C92: the rank is the number of rows of the reduced basis (which is the 0 × 0 matrix for rank zero). -/
theorem C92_rank_rows {m n : Nat} {a : Mat Rat} {A : Matrix (Fin m) (Fin n) Rat} (ha : Rep a A) :
    ∃ b, reducedBasis a = .ok b ∧ rank a = .ok b.nrows := by
  obtain ⟨b, k, N, p, h1, h2, h3, h4⟩ := C10_rref ha
  refine ⟨b, h1, ?_⟩
  have hli : LinearIndependent Rat N.row := by
    rw [Fintype.linearIndependent_iff]
    intro g hg i
    have := congrFun hg (p i)
    simp only [Finset.sum_apply, Pi.smul_apply, smul_eq_mul, Matrix.row, Pi.zero_apply] at this
    rw [Finset.sum_eq_single i (fun l _ hl => by rw [h3.alone i l hl, mul_zero]) (by simp), h3.one, mul_one] at this
    exact this
  have hk : A.rank = k := by
    rw [Matrix.rank_eq_finrank_span_row, ← h4, finrank_span_eq_card hli, Fintype.card_fin]
  rw [C08_rank_rat ha, hk]
  rcases Nat.eq_zero_or_pos k with rfl | hpos
  · rw [h2.2 rfl]
  · rw [(h2.1 hpos).rows]

/-- C92: the rank of the transpose is the same; the rank of a product is at most the rank of each factor. -/
theorem C92_rank_transpose {m n : Nat} {a : Mat Rat} {A : Matrix (Fin m) (Fin n) Rat} (ha : Rep a A) (hm : 0 < m) :
    ∃ t, Mat.transpose a = .ok t ∧ rank t = rank a := by
  obtain ⟨t, h1, h2⟩ := C17_transpose a A ha hm
  exact ⟨t, h1, by rw [C08_rank_rat h2, C08_rank_rat ha, Matrix.rank_transpose]⟩

theorem C92_rank_mul {m k n : Nat} {a b : Mat Rat} {A : Matrix (Fin m) (Fin k) Rat} {B : Matrix (Fin k) (Fin n) Rat}
    (ha : Rep a A) (hb : Rep b B) : ∃ c x y z, Mat.mul a b = .ok c ∧ rank a = .ok x ∧ rank b = .ok y ∧
      rank c = .ok z ∧ z ≤ x ∧ z ≤ y := by
  obtain ⟨c, h1, h2⟩ := C17_mul a b A B ha hb
  exact ⟨c, _, _, _, h1, C08_rank_rat ha, C08_rank_rat hb, C08_rank_rat h2, Matrix.rank_mul_le_left A B,
    Matrix.rank_mul_le_right A B⟩

/-- C92: `solve` and `null_space`: if the null space is empty, `solve` inverts the multiplication with the matrix;
in any case what it returns for a product gives the same product. -/
theorem C92_solve_mul {m n k : Nat} {a x : Mat Rat} {A : Matrix (Fin m) (Fin n) Rat} {X : Matrix (Fin n) (Fin k) Rat}
    (ha : Rep a A) (hx : Rep x X) (hm : 0 < m) (hnk : 0 < n → 0 < k) :
    ∃ b y, Mat.mul a x = .ok b ∧ solve a b = .ok (some y) ∧ Mat.mul a y = .ok b ∧
      (nullSpace a = .ok none → y = x) := by
  obtain ⟨b, h1, h2⟩ := C17_mul a x A X ha hx
  rcases C12_solve_rat ha h2 hnk with ⟨y, Y, h3, h4, h5⟩ | ⟨-, h3⟩
  · obtain ⟨b', h6, h7⟩ := C17_mul a y A Y ha h4
    rw [h5] at h7
    refine ⟨b, y, h1, h3, by rw [h6, C17_rep_unique b' b _ h7 h2], fun hnull => ?_⟩
    rcases C14_null_space_rat ha hm with ⟨z, d, Z, h8, -⟩ | ⟨-, h8⟩
    · rw [hnull] at h8
      exact absurd (Outcome.ok.inj h8) (by simp)
    · have : Y = X := by
        ext i j
        have h9 := h8 (fun i => Y i j - X i j) (by
          ext l
          have := congrFun (congrFun h5 l) j
          simp only [Matrix.mul_apply] at this
          simp [Matrix.mulVec, dotProduct, mul_sub, Finset.sum_sub_distrib, this])
        exact sub_eq_zero.1 (congrFun h9 i)
      subst this
      exact C17_rep_unique y x Y h4 hx
  · exact absurd ⟨X, rfl⟩ h3

/-- C92: for a matrix with an inverse, `solve` is the multiplication with the inverse. -/
theorem C92_solve_inverse {n k : Nat} {a b i : Mat Rat} {A : Matrix (Fin n) (Fin n) Rat}
    {B : Matrix (Fin n) (Fin k) Rat} (ha : Rep a A) (hb : Rep b B) (h : inverse a = .ok (some i)) :
    ∃ y, solve a b = .ok (some y) ∧ Mat.mul i b = .ok y := by
  rcases C15_inverse_rat ha with ⟨i', I, h1, h2, h3, h4⟩ | ⟨h1, -⟩
  · obtain rfl : i = i' := Option.some.inj (Outcome.ok.inj (h.symm.trans h1))
    obtain ⟨y, h5, h6⟩ := C17_mul i b I B h2 hb
    rcases C12_solve_rat ha hb hb.empty with ⟨z, Z, h7, h8, h9⟩ | ⟨-, h7⟩
    · have : Z = I * B := by
        rw [← h9, ← Matrix.mul_assoc, h4, Matrix.one_mul]
      subst this
      exact ⟨y, by rw [h7, C17_rep_unique z y _ h8 h6], h5⟩
    · exact absurd ⟨I * B, by rw [← Matrix.mul_assoc, h3, Matrix.one_mul]⟩ h7
  · rw [h] at h1
    exact absurd (Outcome.ok.inj h1) (by simp)

/-! ### Witnesses -/

theorem mat2_rep {T : Type} (a b c d : T) : Rep (⟨2, 2, [a, b, c, d]⟩ : Mat T) !![a, b; c, d] := by
  refine ⟨rfl, rfl, rfl, by simp, fun i j => ?_⟩
  fin_cases i <;> fin_cases j <;> rfl

example := C92_regular_rat (mat2_rep (1 : Rat) 2 3 4) (by decide)
example : determinant (⟨2, 2, [1, 2, 3, 4]⟩ : Mat Rat) = .ok (-2) ∧ rank (⟨2, 2, [1, 2, 3, 4]⟩ : Mat Rat) = .ok 2 ∧
    determinant (⟨2, 2, [1, 2, 2, 4]⟩ : Mat Rat) = .ok 0 ∧ rank (⟨2, 2, [1, 2, 2, 4]⟩ : Mat Rat) = .ok 1 := by
  decide +kernel
example : inverse (⟨2, 2, [1, 2, 3, 4]⟩ : Mat Rat) = .ok (some ⟨2, 2, [-2, 1, 3 / 2, -1 / 2]⟩) := by decide +kernel
example := C92_inverse_inverse (b := ⟨2, 2, [-2, 1, 3 / 2, -1 / 2]⟩) (mat2_rep (1 : Rat) 2 3 4) (by decide +kernel)
example := C92_solve_inverse (i := ⟨2, 2, [-2, 1, 3 / 2, -1 / 2]⟩) (mat2_rep (1 : Rat) 2 3 4) (mat2_rep (5 : Rat) 6 7 8)
  (by decide +kernel)
example := C92_solve_mul (mat2_rep (1 : Rat) 2 3 4) (mat2_rep (5 : Rat) 6 7 8) (by decide) (by decide)
example := C92_determinant_mul_int (mat2_rep (1 : Int) 2 3 4) (mat2_rep (5 : Int) 6 7 8)
example := C92_determinant_mul_rat (mat2_rep (1 : Rat) 2 3 4) (mat2_rep (5 : Rat) 6 7 8)
example := C92_inverse_int (mat2_rep (2 : Int) 1 1 1)
example := C92_regular_int (mat2_rep (2 : Int) 1 1 1) (by decide)
example : Rep (⟨2, 2, [2, 1, 1, 1]⟩ : Mat Rat) ((!![2, 1; 1, 1] : Matrix (Fin 2) (Fin 2) Int).map Int.cast) := by
  refine ⟨rfl, rfl, rfl, by simp, fun i j => ?_⟩
  fin_cases i <;> fin_cases j <;> simp <;> rfl
example : inverse (⟨2, 2, [2, 1, 1, 1]⟩ : Mat Int) = .ok (some ⟨2, 2, [1, -1, -1, 2]⟩) := by decide
example := C92_rank_nullity (mat2_rep (1 : Rat) 2 2 4) (by decide)
example : nullSpace (⟨2, 2, [1, 2, 2, 4]⟩ : Mat Rat) ≠ .ok none := by decide +kernel
example := C92_rank_rows (mat2_rep (1 : Rat) 2 2 4)
example := C92_rank_transpose (mat2_rep (1 : Rat) 2 2 4) (by decide)
example := C92_rank_mul (mat2_rep (1 : Rat) 2 2 4) (mat2_rep (5 : Rat) 6 7 8)

end Systre
