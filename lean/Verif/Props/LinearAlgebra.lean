import Verif.Lemmas.Canonical
import Mathlib.LinearAlgebra.Matrix.Notation

/-!
# Properties of `src/arithmetic/linear_algebra.rs`: C06 - C15

Integers are ideal (no overflow), `BigRational` is `ℚ`. `Rep m M` says that the stored matrix `m` is the
mathematical matrix `M`. `.ok` means: returned without panic.
-/

namespace Systre
open Submodule

/-! ## C06 -/

/-- C06: `gcdx` terminates, gives Bezout coefficients and a unimodular cofactor matrix. -/
theorem C06_gcdx (a b : Int) :
    ∃ g r s t u, gcdx a b = .ok (g, r, s, t, u) ∧ a * r + b * s = g ∧ a * t + b * u = 0 ∧
      (r * u - s * t = 1 ∨ r * u - s * t = -1) ∧ g.natAbs = Int.gcd a b := gcdx_ok a b

example : gcdx (-12) 18 = .ok (6, 1, 1, 3, 2) := by decide

/-! ## C07 -/

/-- C07 over ℤ: after any sequence of `extend_basis` calls with vectors of length `n`, the rows are in
echelon form, generate exactly the lattice generated by the vectors, and are independent. -/
theorem C07_extend_basis_int (n : Nat) (vs : List (List Int)) (h : ∀ v ∈ vs, v.length = n) :
    ∃ bs, extendAll vs [] = .ok bs ∧ (∀ b ∈ bs, b.length = n) ∧
      (∃ p, IsEchelon (Matrix.of (fun i : Fin bs.length => rowVec n bs[i.1])) p) ∧
      span Int (rowVec n '' {b | b ∈ bs}) = span Int (rowVec n '' {v | v ∈ vs}) ∧
      LinearIndependent Int (fun i : Fin bs.length => rowVec n bs[i.1]) := gen_extend n vs h

/-- C07 over ℚ. -/
theorem C07_extend_basis_rat (n : Nat) (vs : List (List Rat)) (h : ∀ v ∈ vs, v.length = n) :
    ∃ bs, extendAll vs [] = .ok bs ∧ (∀ b ∈ bs, b.length = n) ∧
      (∃ p, IsEchelon (Matrix.of (fun i : Fin bs.length => rowVec n bs[i.1])) p) ∧
      span Rat (rowVec n '' {b | b ∈ bs}) = span Rat (rowVec n '' {v | v ∈ vs}) ∧
      LinearIndependent Rat (fun i : Fin bs.length => rowVec n bs[i.1]) := gen_extend n vs h

/-- a wrong length panics (the `assert!` in `extend_basis`) -/
theorem C07_length_panics {T : Type} [CommRing T] [Scalar T] [DecidableEq T] (v b : List T)
    (bs : List (List T)) (h : b.length ≠ v.length) : extendBasis v (b :: bs) = .panic := by
  unfold extendBasis; rw [if_pos h]

example : extendAll [[2, 4, 0], [3, 5, 1], [5, 9, 1]] ([] : List (List Int)) =
    .ok [[-1, -1, -1], [0, 2, -2]] := by decide

/-! ## C08 -/

/-- C08 over ℚ: `rank` is the rank. -/
theorem C08_rank_rat {m : Mat Rat} {r c : Nat} {M : Matrix (Fin r) (Fin c) Rat} (h : Rep m M) :
    rank m = .ok M.rank := by
  rw [gen_rank h (RingHom.id Rat) Function.injective_id]
  simp

/-- C08 over ℤ: `rank` is the rank over ℚ, and the rank of the row lattice. -/
theorem C08_rank_int {m : Mat Int} {r c : Nat} {M : Matrix (Fin r) (Fin c) Int} (h : Rep m M) :
    rank m = .ok (M.map (Int.cast : Int → Rat)).rank ∧
    rank m = .ok (Module.finrank Int (span Int (Set.range M.row))) :=
  ⟨gen_rank h (Int.castRingHom Rat) Int.cast_injective, rank_rep h⟩

example : rank (⟨3, 2, [1, 2, 2, 4, 3, 6]⟩ : Mat Int) = .ok 1 := by decide

/-! ## C09 -/

/-- C09 over ℤ: `determinant` is the Leibniz determinant, for every size. -/
theorem C09_determinant_int {m : Mat Int} {n : Nat} {M : Matrix (Fin n) (Fin n) Int} (h : Rep m M) :
    determinant m = .ok M.det := determinant_rep h

/-- C09 over ℚ. -/
theorem C09_determinant_rat {m : Mat Rat} {n : Nat} {M : Matrix (Fin n) (Fin n) Rat} (h : Rep m M) :
    determinant m = .ok M.det := determinant_rep h

/-- C09: panics exactly on non-square matrices. -/
theorem C09_panics_iff {m : Mat Int} (h : Built m) : determinant m = .panic ↔ m.nrows ≠ m.ncols := by
  constructor
  · intro hp hsq
    obtain ⟨M, hM⟩ := built_rep h
    rw [determinant_rep (n := m.nrows) (M := toM m m.nrows m.nrows)
      (rep_toM' (built_wf h) rfl hsq.symm)] at hp
    cases hp
  · intro h; exact gen_det_panic h

theorem C09_panics_iff_rat {m : Mat Rat} (h : Built m) : determinant m = .panic ↔ m.nrows ≠ m.ncols := by
  constructor
  · intro hp hsq
    rw [determinant_rep (n := m.nrows) (M := toM m m.nrows m.nrows)
      (rep_toM' (built_wf h) rfl hsq.symm)] at hp
    cases hp
  · intro h; exact gen_det_panic h

-- the elimination path (size 4), with an odd permutation
example : determinant (⟨4, 4, [0, 1, 0, 0, 1, 0, 0, 0, 0, 0, 2, 0, 0, 0, 5, 3]⟩ : Mat Int) = .ok (-6) := by
  decide

/-! ## C10 -/

/-- C10: over ℚ the result is in reduced row echelon form with the same row space. -/
theorem C10_rref {m : Mat Rat} {r c : Nat} {M : Matrix (Fin r) (Fin c) Rat} (h : Rep m M) :
    ∃ (m' : Mat Rat) (k : Nat) (N : Matrix (Fin k) (Fin c) Rat) (p : Fin k → Fin c),
      reducedBasis m = .ok m' ∧ RepRows m' N ∧ IsRREF N p ∧
      span Rat (Set.range N.row) = span Rat (Set.range M.row) := by
  obtain ⟨bs, h1, hE, hR, h2, h3, -⟩ := gen_reduced h
  obtain ⟨p, hp, hpv⟩ := hE.pivots
  have hpr : ∀ l : Fin bs.length, Piv (rw' bs l.1) (p l) := fun l => by
    rw [rw'_lt l.2]; exact (hpv l).1
  have hen : ∀ (i l : Fin bs.length), bM c bs i ⟨p l, (hpv l).2⟩ = if i = l then 1 else 0 := by
    intro i l
    have := rat_pivot_entry hE hR i.2 l.2 (hpr l)
    rw [rw'_lt i.2] at this
    simp only [Fin.ext_iff]
    exact this
  refine ⟨_, _, bM c bs, fun i => ⟨p i, (hpv i).2⟩, h1, h2, ⟨⟨?_, ?_, ?_⟩, ?_, ?_⟩, h3⟩
  · intro i j hij; exact hp hij
  · intro i j hij; exact (hpv i).1.1 j.1 hij
  · intro i; exact (hpv i).1.2
  · intro i; rw [hen, if_pos rfl]
  · intro i i' hne; rw [hen, if_neg hne]

/-- C10: the result is a canonical form: two matrices with the same number of columns have the same row
space iff the results are equal. -/
theorem C10_canonical {m m' : Mat Rat} {r r' c : Nat} {M : Matrix (Fin r) (Fin c) Rat}
    {M' : Matrix (Fin r') (Fin c) Rat} (h : Rep m M) (h' : Rep m' M') :
    reducedBasis m = reducedBasis m' ↔
      span Rat (Set.range M.row) = span Rat (Set.range M'.row) := by
  constructor
  · intro he
    obtain ⟨a, k, N, p, h1, h2, -, h3⟩ := C10_rref h
    obtain ⟨a', k', N', p', h1', h2', -, h3'⟩ := C10_rref h'
    rw [h1, h1'] at he
    have he := Outcome.ok.inj he
    subst he
    rw [← h3, ← h3']
    rcases Nat.eq_zero_or_pos k with hk | hk
    · rcases Nat.eq_zero_or_pos k' with hk' | hk'
      · subst hk; subst hk'
        rw [Set.range_eq_empty, Set.range_eq_empty]
      · have e1 := (h2'.1 hk').rows
        rw [h2.2 hk] at e1
        simp at e1; omega
    · rcases Nat.eq_zero_or_pos k' with hk' | hk'
      · have e1 := (h2.1 hk).rows
        rw [h2'.2 hk'] at e1
        simp at e1; omega
      · have r1 := h2.1 hk
        have r2 := h2'.1 hk'
        have : k = k' := by rw [← r1.rows, ← r2.rows]
        subst this
        rw [r1.eq_toM, r2.eq_toM]
  · intro he
    obtain ⟨bs, h1, hE, hR, -, -, h3, -⟩ := gen_reduced h
    obtain ⟨bs', h1', hE', hR', -, -, h3', -⟩ := gen_reduced h'
    rw [h1, h1', rat_unique hE hE' hR hR' (by rw [h3, h3', he])]

example : reducedBasis (⟨3, 3, [2, 4, 1, 1, 2, 0, 3, 6, 1]⟩ : Mat Rat) =
    .ok ⟨2, 3, [1, 2, 0, 0, 0, 1]⟩ := by decide +kernel

/-! ## C11 -/

/-- C11 (partial): over ℤ the result is in echelon form and generates the same lattice, the pivots are
positive and every entry above a pivot lies between zero and the pivot (inclusive). Missing: the bound is
not strict, so the result is not the Hermite normal form and not canonical, see
`C11_canonical_refuted`. -/
theorem C11_reduced_int_partial {m : Mat Int} {r c : Nat} {M : Matrix (Fin r) (Fin c) Int} (h : Rep m M) :
    ∃ (m' : Mat Int) (k : Nat) (N : Matrix (Fin k) (Fin c) Int) (p : Fin k → Fin c),
      reducedBasis m = .ok m' ∧ RepRows m' N ∧ IsEchelon N p ∧
      span Int (Set.range N.row) = span Int (Set.range M.row) ∧ (∀ i, 0 < N i (p i)) ∧
      ∀ i i', i' < i → 0 ≤ N i' (p i) ∧ N i' (p i) ≤ N i (p i) := by
  obtain ⟨bs, h1, hE, hR, h2, h3, -⟩ := gen_reduced h
  obtain ⟨p, hp, hpv⟩ := hE.pivots
  refine ⟨_, _, bM c bs, fun i => ⟨p i, (hpv i).2⟩, h1, h2, ⟨?_, ?_, ?_⟩, h3, ?_, ?_⟩
  · intro i j hij; exact hp hij
  · intro i j hij; exact (hpv i).1.1 j.1 hij
  · intro i; exact (hpv i).1.2
  · intro i; exact hR.norm _ (List.getElem_mem i.2) _ (hpv i).1
  · intro i i' hi
    exact List.pairwise_iff_getElem.1 hR.red i'.1 i.1 i'.2 i.2 hi _ (hpv i).1

/-- C11: what is canonical over ℤ: matrices with the same row lattice give results with the same number of
rows, the same pivot columns and the same pivot values; and if both results satisfy the strict Hermite
bound they are equal. -/
theorem C11_pivots_canonical {m m' : Mat Int} {r r' c : Nat} {M : Matrix (Fin r) (Fin c) Int}
    {M' : Matrix (Fin r') (Fin c) Int} (h : Rep m M) (h' : Rep m' M')
    (he : span Int (Set.range M.row) = span Int (Set.range M'.row)) :
    ∃ (a a' : Mat Int) (k : Nat) (N N' : Matrix (Fin k) (Fin c) Int) (p : Fin k → Fin c),
      reducedBasis m = .ok a ∧ reducedBasis m' = .ok a' ∧ RepRows a N ∧ RepRows a' N' ∧
      IsEchelon N p ∧ IsEchelon N' p ∧ (∀ i, N i (p i) = N' i (p i)) ∧
      ((∀ i i', i' < i → N i' (p i) < N i (p i) ∧ N' i' (p i) < N' i (p i)) → a = a') := by
  obtain ⟨bs, h1, hE, hR, h2, -, h3, -⟩ := gen_reduced h
  obtain ⟨bs', h1', hE', hR', h2', -, h3', -⟩ := gen_reduced h'
  have hs : rspan bs = rspan bs' := by rw [h3, h3', he]
  obtain ⟨hl, hpu⟩ := pivots_unique hE hE' hs
  obtain ⟨p, hp, hpv⟩ := hE.pivots
  have hpr : ∀ l : Fin bs.length, Piv (rw' bs l.1) (p l) := fun l => by
    rw [rw'_lt l.2]; exact (hpv l).1
  let N' : Matrix (Fin bs.length) (Fin c) Int := fun i j => rw' bs' i.1 j.1
  have hN' : RepRows (matOf c bs') N' := by
    constructor
    · intro hk
      have := h2'.1 (by rw [← hl]; exact hk)
      refine rep_of_ent this.wf (by rw [this.rows, hl]) this.cols (fun i j => ?_)
      rw [this.ent ⟨i.1, by rw [← hl]; exact i.2⟩ j]
      show rent _ _ = rw' bs' i.1 j.1
      rw [rw'_lt (by rw [← hl]; exact i.2)]
    · intro hk
      exact h2'.2 (by rw [← hl]; exact hk)
  have hpr' : ∀ l : Fin bs.length, Piv (rw' bs' l.1) (p l) := fun l => (hpu l.1 l.2 _).1 (hpr l)
  have hbM : ∀ (i : Fin bs.length) (j : Fin c), bM c bs i j = rw' bs i.1 j.1 := fun i j => by
    rw [rw'_lt i.2]; rfl
  refine ⟨_, _, _, bM c bs, N', fun i => ⟨p i, (hpv i).2⟩, h1, h1', h2, hN', ⟨?_, ?_, ?_⟩, ⟨?_, ?_, ?_⟩,
    ?_, ?_⟩
  · intro i j hij; exact hp hij
  · intro i j hij; exact (hpv i).1.1 j.1 hij
  · intro i; exact (hpv i).1.2
  · intro i j hij; exact hp hij
  · intro i j hij; exact (hpr' i).1 j.1 hij
  · intro i; exact (hpr' i).2
  · intro i
    rw [hbM]
    exact int_pivot_unique hE hE' hR hR' hs i.2 (hpr i)
  · intro hst
    have : bs = bs' := by
      apply int_strict_unique hE hE' hR hR' hs
      · intro i l hil hl d hd
        rw [hd.unique (hpr ⟨l, hl⟩)]
        have := (hst ⟨l, hl⟩ ⟨i, by omega⟩ hil).1
        rw [hbM, hbM] at this
        exact this
      · intro i l hil hl' d hd
        have hl2 : l < bs.length := by omega
        rw [hd.unique (hpr' ⟨l, hl2⟩)]
        exact (hst ⟨l, hl2⟩ ⟨i, by omega⟩ hil).2
    rw [this]

/-- C11: the expected strict bound fails, and with it canonicity: both matrices have rows generating ℤ²,
but the results differ. -/
theorem C11_canonical_refuted :
    ∃ (m m' : Mat Int) (M M' : Matrix (Fin 2) (Fin 2) Int), Rep m M ∧ Rep m' M' ∧
      span Int (Set.range M.row) = span Int (Set.range M'.row) ∧ reducedBasis m ≠ reducedBasis m' := by
  refine ⟨⟨2, 2, [1, -1, 0, 1]⟩, ⟨2, 2, [1, 0, 0, 1]⟩, !![1, -1; 0, 1], !![1, 0; 0, 1], ?_, ?_, ?_, ?_⟩
  · refine ⟨rfl, rfl, rfl, by simp, ?_⟩; decide
  · refine ⟨rfl, rfl, rfl, by simp, ?_⟩; decide
  · apply le_antisymm <;> rw [span_le] <;> rintro _ ⟨i, rfl⟩ <;>
      rw [SetLike.mem_coe, mem_span_range_iff_exists_fun] <;> fin_cases i
    · exact ⟨![1, -1], by ext j; fin_cases j <;> simp [Fin.sum_univ_two]⟩
    · exact ⟨![0, 1], by ext j; fin_cases j <;> simp [Fin.sum_univ_two]⟩
    · exact ⟨![1, 1], by ext j; fin_cases j <;> simp [Fin.sum_univ_two]⟩
    · exact ⟨![0, 1], by ext j; fin_cases j <;> simp [Fin.sum_univ_two]⟩
  · decide

example : reducedBasis (⟨2, 2, [4, 2, 6, 5]⟩ : Mat Int) = .ok ⟨2, 2, [2, 3, 0, 4]⟩ := by decide

/-! ## C12, C13 -/

/-- C12: `solve` over ℚ returns an exact solution when there is one and `None` exactly when there is none.
(`hnk` only excludes a system without equations and without right-hand sides.) -/
theorem C12_solve_rat {m n k : Nat} {a b : Mat Rat} {A : Matrix (Fin m) (Fin n) Rat}
    {B : Matrix (Fin m) (Fin k) Rat} (ha : Rep a A) (hb : Rep b B) (hnk : 0 < n → 0 < k) :
    (∃ x X, solve a b = .ok (some x) ∧ Rep x X ∧ A * X = B) ∨
    (solve a b = .ok none ∧ ¬ ∃ X : Matrix (Fin n) (Fin k) Rat, A * X = B) := gen_solve ha hb hnk

/-- C12: panics if the numbers of rows differ. -/
theorem C12_panics {a b : Mat Rat} (h : a.nrows ≠ b.nrows) : solve a b = .panic := gen_solve_panic h

/-- C13: `solve` over ℤ returns an integer solution when there is one and `None` exactly when there is
none. -/
theorem C13_solve_int {m n k : Nat} {a b : Mat Int} {A : Matrix (Fin m) (Fin n) Int}
    {B : Matrix (Fin m) (Fin k) Int} (ha : Rep a A) (hb : Rep b B) (hnk : 0 < n → 0 < k) :
    (∃ x X, solve a b = .ok (some x) ∧ Rep x X ∧ A * X = B) ∨
    (solve a b = .ok none ∧ ¬ ∃ X : Matrix (Fin n) (Fin k) Int, A * X = B) := gen_solve ha hb hnk

theorem C13_panics {a b : Mat Int} (h : a.nrows ≠ b.nrows) : solve a b = .panic := gen_solve_panic h

-- 2x + 3y = 1 has integer solutions, 2x + 4y = 1 has none, but a rational one
example : solve (⟨1, 2, [2, 3]⟩ : Mat Int) ⟨1, 1, [1]⟩ = .ok (some ⟨2, 1, [2, -1]⟩) := by decide
example : solve (⟨1, 2, [2, 4]⟩ : Mat Int) ⟨1, 1, [1]⟩ = .ok none := by decide
example : solve (⟨1, 2, [2, 4]⟩ : Mat Rat) ⟨1, 1, [1]⟩ = .ok (some ⟨2, 1, [0, 1/4]⟩) := by decide +kernel
example : solve (⟨2, 1, [1, 1]⟩ : Mat Rat) ⟨2, 1, [1, 2]⟩ = .ok none := by decide +kernel

/-! ## C14 -/

/-- C14 over ℚ: the columns of the result are a basis of the kernel; `None` means that it is trivial. -/
theorem C14_null_space_rat {m n : Nat} {a : Mat Rat} {A : Matrix (Fin m) (Fin n) Rat} (ha : Rep a A)
    (hm : 0 < m) :
    (∃ (x : Mat Rat) (d : Nat) (X : Matrix (Fin n) (Fin d) Rat), nullSpace a = .ok (some x) ∧ 0 < d ∧
      Rep x X ∧ A * X = 0 ∧ LinearIndependent Rat X.col ∧
      ∀ y : Fin n → Rat, A.mulVec y = 0 → ∃ g : Fin d → Rat, y = X.mulVec g) ∨
    (nullSpace a = .ok none ∧ ∀ y : Fin n → Rat, A.mulVec y = 0 → y = 0) := gen_nullSpace ha hm

/-- C14 over ℤ: the columns generate all integer solutions. -/
theorem C14_null_space_int {m n : Nat} {a : Mat Int} {A : Matrix (Fin m) (Fin n) Int} (ha : Rep a A)
    (hm : 0 < m) :
    (∃ (x : Mat Int) (d : Nat) (X : Matrix (Fin n) (Fin d) Int), nullSpace a = .ok (some x) ∧ 0 < d ∧
      Rep x X ∧ A * X = 0 ∧ LinearIndependent Int X.col ∧
      ∀ y : Fin n → Int, A.mulVec y = 0 → ∃ g : Fin d → Int, y = X.mulVec g) ∨
    (nullSpace a = .ok none ∧ ∀ y : Fin n → Int, A.mulVec y = 0 → y = 0) := gen_nullSpace ha hm

example : nullSpace (⟨1, 3, [2, 4, 6]⟩ : Mat Int) = .ok (some ⟨3, 2, [1, 0, 1, 3, -1, -2]⟩) := by decide
example : nullSpace (⟨2, 2, [1, 2, 3, 4]⟩ : Mat Rat) = .ok none := by decide +kernel

/-! ## C15 -/

/-- C15 over ℚ: a two-sided inverse, or `None` and the determinant is zero. -/
theorem C15_inverse_rat {n : Nat} {a : Mat Rat} {A : Matrix (Fin n) (Fin n) Rat} (ha : Rep a A) :
    (∃ b B, inverse a = .ok (some b) ∧ Rep b B ∧ A * B = 1 ∧ B * A = 1) ∨
    (inverse a = .ok none ∧ A.det = 0) := by
  rcases gen_inverse ha with h | ⟨h1, h2⟩
  · exact Or.inl h
  · exact Or.inr ⟨h1, by simpa using h2⟩

/-- C15 over ℤ: a two-sided inverse, or `None` and the determinant is not ±1. -/
theorem C15_inverse_int {n : Nat} {a : Mat Int} {A : Matrix (Fin n) (Fin n) Int} (ha : Rep a A) :
    (∃ b B, inverse a = .ok (some b) ∧ Rep b B ∧ A * B = 1 ∧ B * A = 1) ∨
    (inverse a = .ok none ∧ A.det ≠ 1 ∧ A.det ≠ -1) := by
  rcases gen_inverse ha with h | ⟨h1, h2⟩
  · exact Or.inl h
  · refine Or.inr ⟨h1, ?_, ?_⟩ <;> intro h <;> apply h2 <;> rw [h] <;> simp

theorem C15_panics_rat {a : Mat Rat} (h : Built a) : inverse a = .panic ↔ a.nrows ≠ a.ncols := by
  constructor
  · intro hp hsq
    rcases gen_inverse (n := a.nrows) (rep_toM' (built_wf h) rfl hsq.symm) with ⟨_, _, h1, -⟩ | ⟨h1, -⟩ <;>
      rw [h1] at hp <;> cases hp
  · intro h; exact gen_inverse_panic h

theorem C15_panics_int {a : Mat Int} (h : Built a) : inverse a = .panic ↔ a.nrows ≠ a.ncols := by
  constructor
  · intro hp hsq
    rcases gen_inverse (n := a.nrows) (rep_toM' (built_wf h) rfl hsq.symm) with ⟨_, _, h1, -⟩ | ⟨h1, -⟩ <;>
      rw [h1] at hp <;> cases hp
  · intro h; exact gen_inverse_panic h

example : inverse (⟨2, 2, [2, 1, 1, 1]⟩ : Mat Int) = .ok (some ⟨2, 2, [1, -1, -1, 2]⟩) := by decide
example : inverse (⟨2, 2, [2, 0, 0, 1]⟩ : Mat Int) = .ok none := by decide
example : inverse (⟨2, 2, [2, 0, 0, 1]⟩ : Mat Rat) = .ok (some ⟨2, 2, [1/2, 0, 0, 1]⟩) := by decide +kernel

end Systre
