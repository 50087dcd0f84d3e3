import Verif.Lemmas.Normalized
import Verif.Lemmas.OperatorText
import Verif.Props.LinearAlgebra
import Verif.Props.Parsing

/-!
# C67: normalised bases of plane lattices

`u`, `v` are the columns given to `normalized_basis_2d`, `U`, `V` the vectors they stand for; the lattice is
`span ℤ {U, V}`. The loop inside the reduction is bounded by fuel, and the result is the same for all
sufficiently large fuel. For each crystal system the hypothesis is that the lattice is mapped to itself by the
symmetry that belongs to the system.
-/

namespace Systre
open Finder Lattices Submodule
open Table (Centering)

variable {u v : Mat Rat} {U V : Fin 2 → ℚ}

theorem normalized_start (hu : IsVec ⟨u⟩ U) (hv : IsVec ⟨v⟩ V) (hi : LinearIndependent ℚ ![U, V]) (s : CrystalSystem) :
    ∃ (N : Nat) (p0 p1 q0 q1 : ℚ), (∀ fuel, N ≤ fuel →
        normalizedBasis2d fuel s [u, v] = normalizedCases s [[p0, p1], [q0, q1]]) ∧
      span ℤ {![p0, p1], ![q0, q1]} = span ℤ {U, V} ∧ p0 * q1 - p1 * q0 ≠ 0 ∧
      (∀ z ∈ span ℤ {U, V}, z ≠ 0 → p0 ^ 2 + p1 ^ 2 ≤ z 0 ^ 2 + z 1 ^ 2) ∧
      (∀ z ∈ span ℤ {U, V}, p0 * z 1 - p1 * z 0 ≠ 0 → q0 ^ 2 + q1 ^ 2 ≤ z 0 ^ 2 + z 1 ^ 2) := by
  obtain ⟨N, p0, p1, q0, q1, h1, h2, h3, h4, h5⟩ := reduced_two hi
  refine ⟨N, p0, p1, q0, q1, ?_, h2, h3, h4, h5⟩
  intro fuel hf
  have du : u.data = [U 0, U 1] := by have := ParseOperator.isVec_data hu; simpa [List.ofFn_succ] using this
  have dv : v.data = [V 0, V 1] := by have := ParseOperator.isVec_data hv; simpa [List.ofFn_succ] using this
  unfold normalizedBasis2d
  simp only [List.map_cons, List.map_nil, du, dv]
  rw [bind_ok (h1 fuel hf)]
  rfl

theorem pos_of_det {p0 p1 q0 q1 : ℚ} (h : p0 * q1 - p1 * q0 ≠ 0) : 0 < p0 ^ 2 + p1 ^ 2 := by
  by_contra hc
  have h0 : p0 = 0 := by nlinarith [sq_nonneg p0, sq_nonneg p1]
  have h1 : p1 = 0 := by nlinarith [sq_nonneg p0, sq_nonneg p1]
  rw [h0, h1] at h; simp at h

theorem rowSum_eq (r b : List ℚ) (h : r.length ≤ b.length) :
    rowSum r b = .ok (∑ j : Fin r.length, r.getD j 0 * b.getD j 0) := by
  induction r generalizing b with
  | nil => simp [rowSum]
  | cons x r ih =>
    cases b with
    | nil => simp at h
    | cons y b =>
      simp only [rowSum]
      rw [bind_ok (ih b (by simpa using h))]
      show _ = Outcome.ok (∑ j : Fin (r.length + 1), _)
      rw [Fin.sum_univ_succ]
      simp

theorem applyRows_eq {n : Nat} (v : List ℚ) (A : List (List ℚ)) (b : List ℚ) (hl : A.length = b.length)
    (hr : ∀ r ∈ A, r.length = n) (hv : n ≤ v.length) :
    applyRows n v A b =
      .ok (List.ofFn fun i : Fin b.length => (∑ j : Fin n, (A.getD i []).getD j 0 * v.getD j 0) + b.getD i 0) := by
  induction A generalizing b with
  | nil =>
    cases b with
    | nil => rfl
    | cons => simp at hl
  | cons r A ih =>
    cases b with
    | nil => simp at hl
    | cons y b =>
      have hrn : r.length = n := hr r (by simp)
      subst hrn
      simp only [applyRows, rassert, decide_true, if_true, Outcome.ok_bind]
      rw [bind_ok (rowSum_eq r v hv), bind_ok (ih b (by simpa using hl) (fun r' h' => hr r' (by simp [h'])))]
      show _ = Outcome.ok (List.ofFn (n := b.length + 1) _)
      rw [List.ofFn_succ]
      simp

/-- **C67** `apply_operator` applies the affine map that its text stands for: the one `AffineMap::from_string`
reads. -/
theorem C67_apply_operator {n : Nat} {op : List Char} {m : AffineMap ℚ} {A : Matrix (Fin n) (Fin n) ℚ} {s x : Fin n → ℚ}
    (h : ParseOperator.affFromString op = .ok (some m)) (hm : IsAff m A s) :
    applyOperator op (List.ofFn x) = .ok (List.ofFn (A.mulVec x + s)) := by
  cases hp : ParseOperator.parseOperator op with
  | panic => unfold ParseOperator.affFromString at h; rw [hp] at h; cases h
  | diverge => unfold ParseOperator.affFromString at h; rw [hp] at h; cases h
  | ok r =>
    cases r with
    | error k t => rw [C59_from_string_error op k t hp] at h; cases h
    | parsed rest L b =>
      obtain ⟨-, hl, h0, hr⟩ := C59_sound op rest L b hp
      obtain ⟨h3, h4⟩ := C59_from_string op rest L b hp
      have hb : b.length ≤ 3 := by
        by_contra hc
        rw [h4 (by omega)] at h; cases h
      obtain ⟨m', e, hm'⟩ := h3 hb
      rw [e] at h
      obtain rfl := Option.some.inj (Outcome.ok.inj h)
      have hn : n = b.length := hm.1.rows.symm.trans hm'.1.rows
      subst hn
      have eA := hm.1.inj hm'.1
      have es : s = fun i : Fin b.length => b.getD i 0 := hm.2.inj hm'.2
      unfold applyOperator
      rw [bind_ok hp]
      simp only [rassert, hl, decide_true, if_true, Outcome.ok_bind]
      rw [applyRows_eq (n := b.length) _ _ _ hl (fun r h => by rw [hr r h]; omega) (by simp)]
      congr 2
      funext i
      rw [eA, es]
      simp [Matrix.mulVec, dotProduct]

/-- **C67** Oblique: a basis of the same lattice. -/
theorem C67_oblique (hu : IsVec ⟨u⟩ U) (hv : IsVec ⟨v⟩ V) (hi : LinearIndependent ℚ ![U, V]) :
    ∃ N x y X Y, (∀ fuel, N ≤ fuel → normalizedBasis2d fuel .oblique [u, v] = .ok ([x, y], .primitive2d)) ∧
      IsVec ⟨x⟩ X ∧ IsVec ⟨y⟩ Y ∧ span ℤ {X, Y} = span ℤ {U, V} := by
  obtain ⟨N, p0, p1, q0, q1, h1, h2, -⟩ := normalized_start hu hv hi .oblique
  refine ⟨N, _, _, _, _, fun fuel hf => ?_, isVec_two p0 p1, isVec_two q0 q1, h2⟩
  rw [h1 fuel hf]
  show (do let c ← omap Mat.col [[p0, p1], [q0, q1]]; Outcome.ok (c, Centering.primitive2d)) = _
  rw [bind_ok (cols_two ..)]

theorem half_sum (x y : ℚ) : (1 / 2 : ℚ) • (![0, 2 * y] + ![2 * x, 0]) = ![x, y] := by
  funext i; fin_cases i <;> simp

theorem rect_done {N : Nat} {x y : ℚ} (hx : x ≠ 0) (hy : y ≠ 0)
    (h : ∀ fuel, N ≤ fuel → normalizedBasis2d fuel .rectangular [u, v] =
      (do let c ← twoColumns "0, 2y".toList [x, y] "2x, 0".toList [x, y]; .ok (c, .centered2d)))
    (hL : span ℤ {U, V} = span ℤ {![0, 2 * y], ![2 * x, 0], ![x, y]}) :
    ∃ N x y X Y c, (∀ fuel, N ≤ fuel → normalizedBasis2d fuel .rectangular [u, v] = .ok ([x, y], c)) ∧
      IsVec ⟨x⟩ X ∧ IsVec ⟨y⟩ Y ∧ X 0 = 0 ∧ X 1 ≠ 0 ∧ Y 0 ≠ 0 ∧ Y 1 = 0 ∧
      ((c = .primitive2d ∧ span ℤ {U, V} = span ℤ {X, Y}) ∨
       (c = .centered2d ∧ span ℤ {U, V} = span ℤ {X, Y, (1 / 2 : ℚ) • (X + Y)})) := by
  refine ⟨N, _, _, _, _, .centered2d, fun fuel hf => ?_, isVec_two 0 (2 * y), isVec_two (2 * x) 0, rfl, ?_, ?_, rfl,
    Or.inr ⟨rfl, ?_⟩⟩
  · rw [h fuel hf]
    unfold twoColumns
    rw [apply_2y, apply_2x]
    simp only [Outcome.ok_bind]
    rw [bind_ok (cols_two ..)]
  · show 2 * y ≠ 0; simpa using hy
  · show 2 * x ≠ 0; simpa using hx
  · rw [half_sum]; exact hL

/-- **C67** Rectangular: if the lattice is mapped to itself by the mirror `(x, y) ↦ (x, -y)` then the result is
a vector along the second axis and one along the first, and the lattice is generated by them, or by them and
half of their sum; the centring says which. -/
theorem C67_rectangular (hu : IsVec ⟨u⟩ U) (hv : IsVec ⟨v⟩ V) (hi : LinearIndependent ℚ ![U, V])
    (hinv : ∀ z ∈ span ℤ {U, V}, ![z 0, -z 1] ∈ span ℤ {U, V}) :
    ∃ N x y X Y c, (∀ fuel, N ≤ fuel → normalizedBasis2d fuel .rectangular [u, v] = .ok ([x, y], c)) ∧
      IsVec ⟨x⟩ X ∧ IsVec ⟨y⟩ Y ∧ X 0 = 0 ∧ X 1 ≠ 0 ∧ Y 0 ≠ 0 ∧ Y 1 = 0 ∧
      ((c = .primitive2d ∧ span ℤ {U, V} = span ℤ {X, Y}) ∨
       (c = .centered2d ∧ span ℤ {U, V} = span ℤ {X, Y, (1 / 2 : ℚ) • (X + Y)})) := by
  obtain ⟨N, p0, p1, q0, q1, h1, h2, h3, h4, h5⟩ := normalized_start hu hv hi .rectangular
  have hp : ![p0, p1] ∈ span ℤ {U, V} := by rw [← h2]; exact subset_span (by simp)
  have hcases : normalizedCases .rectangular [[p0, p1], [q0, q1]] =
      if p0 ≠ 0 ∧ p1 ≠ 0 then
        (do let c ← twoColumns "0, 2y".toList [p0, p1] "2x, 0".toList [p0, p1]; .ok (c, .centered2d))
      else if q0 ≠ 0 ∧ q1 ≠ 0 then
        (do let c ← twoColumns "0, 2y".toList [q0, q1] "2x, 0".toList [q0, q1]; .ok (c, .centered2d))
      else if p1 = 0 then
        (do let c ← twoColumns "x, y".toList [q0, q1] "-x, -y".toList [p0, p1]; .ok (c, .primitive2d))
      else (do let c ← omap Mat.col [[p0, p1], [q0, q1]]; .ok (c, .primitive2d)) := rfl
  rw [hcases] at h1
  by_cases c1 : p0 ≠ 0 ∧ p1 ≠ 0
  · simp only [if_pos c1] at h1
    exact rect_done c1.1 c1.2 h1 (rect_first hinv hp c1.1 c1.2 h4)
  simp only [if_neg c1] at h1
  by_cases c2 : q0 ≠ 0 ∧ q1 ≠ 0
  · simp only [if_pos c2] at h1
    refine rect_done c2.1 c2.2 h1 ?_
    by_cases hp1 : p1 = 0
    · subst hp1
      have hp0 : p0 ≠ 0 := by rintro rfl; simp at h3
      exact rect_second_x h2.symm hinv hp0 c2.1 c2.2 h5
    · have hp0 : p0 = 0 := by
        by_contra h; exact c1 ⟨h, hp1⟩
      subst hp0
      exact rect_second_y h2.symm hinv hp1 c2.1 c2.2 h5
  simp only [if_neg c2] at h1
  by_cases c3 : p1 = 0
  · simp only [if_pos c3] at h1
    subst c3
    have hp0 : p0 ≠ 0 := by rintro rfl; simp at h3
    have hq1 : q1 ≠ 0 := by rintro rfl; simp at h3
    have hq0 : q0 = 0 := by by_contra h; exact c2 ⟨h, hq1⟩
    subst hq0
    refine ⟨N, _, _, _, _, .primitive2d, fun fuel hf => ?_, isVec_two 0 q1, isVec_two (-p0) (-0), rfl, hq1, ?_, ?_,
      Or.inl ⟨rfl, ?_⟩⟩
    · rw [h1 fuel hf]
      unfold twoColumns
      rw [apply_id, apply_neg]
      simp only [Outcome.ok_bind]
      rw [bind_ok (cols_two ..)]
    · show -p0 ≠ 0; simpa using hp0
    · show -(0 : ℚ) = 0; simp
    · rw [← h2]
      have e : ![-p0, -0] = -![p0, 0] := by funext i; fin_cases i <;> simp
      rw [e]
      apply le_antisymm <;> rw [span_le] <;> rintro z (rfl | rfl)
      · exact (neg_mem_iff (S := Submodule ℤ (Fin 2 → ℚ))).1 (subset_span (by simp))
      · exact subset_span (by simp)
      · exact subset_span (by simp)
      · exact neg_mem (subset_span (by simp))
  · simp only [if_neg c3] at h1
    have hp0 : p0 = 0 := by by_contra h; exact c1 ⟨h, c3⟩
    subst hp0
    have hq0 : q0 ≠ 0 := by rintro rfl; simp at h3
    have hq1 : q1 = 0 := by by_contra h; exact c2 ⟨hq0, h⟩
    subst hq1
    refine ⟨N, _, _, _, _, .primitive2d, fun fuel hf => ?_, isVec_two 0 p1, isVec_two q0 0, rfl, c3, hq0, rfl,
      Or.inl ⟨rfl, h2.symm⟩⟩
    rw [h1 fuel hf, bind_ok (cols_two ..)]

/-- **C67** Square: if the lattice is mapped to itself by the rotation `(x, y) ↦ (-y, x)` then the result is a
basis of it that consists of a vector and this vector turned. -/
theorem C67_square (hu : IsVec ⟨u⟩ U) (hv : IsVec ⟨v⟩ V) (hi : LinearIndependent ℚ ![U, V])
    (hinv : ∀ z ∈ span ℤ {U, V}, ![-z 1, z 0] ∈ span ℤ {U, V}) :
    ∃ N x y X Y, (∀ fuel, N ≤ fuel → normalizedBasis2d fuel .square [u, v] = .ok ([x, y], .primitive2d)) ∧
      IsVec ⟨x⟩ X ∧ IsVec ⟨y⟩ Y ∧ Y = ![-X 1, X 0] ∧ span ℤ {X, Y} = span ℤ {U, V} := by
  obtain ⟨N, p0, p1, q0, q1, h1, h2, h3, h4, -⟩ := normalized_start hu hv hi .square
  have hp : ![p0, p1] ∈ span ℤ {U, V} := by rw [← h2]; exact subset_span (by simp)
  refine ⟨N, _, _, _, _, fun fuel hf => ?_, isVec_two p0 p1, isVec_two (-p1) p0, rfl,
    (square_lattice hinv hp (pos_of_det h3) h4).symm⟩
  rw [h1 fuel hf]
  show (do let c ← twoColumns "x, y".toList [p0, p1] "-y, x".toList [p0, p1]
           Outcome.ok (c, Centering.primitive2d)) = _
  unfold twoColumns
  rw [apply_id, apply_turn]
  simp only [Outcome.ok_bind]
  rw [bind_ok (cols_two ..)]

/-- **C67** Hexagonal: if the lattice is mapped to itself by `(x, y) ↦ (-y, x - y)`, the rotation of order three
in coordinates for two vectors at 120 degrees, then the result is a basis of it that consists of a vector and
this vector turned. The coordinates in which the lattice is given in the program are for two vectors at 60
degrees, and then it can fail: see `C67_hexagonal_refuted`. -/
theorem C67_hexagonal_partial (hu : IsVec ⟨u⟩ U) (hv : IsVec ⟨v⟩ V) (hi : LinearIndependent ℚ ![U, V])
    (hinv : ∀ z ∈ span ℤ {U, V}, ![-z 1, z 0 - z 1] ∈ span ℤ {U, V}) :
    ∃ N x y X Y, (∀ fuel, N ≤ fuel → normalizedBasis2d fuel .hexagonal [u, v] = .ok ([x, y], .primitive2d)) ∧
      IsVec ⟨x⟩ X ∧ IsVec ⟨y⟩ Y ∧ Y = ![-X 1, X 0 - X 1] ∧ span ℤ {X, Y} = span ℤ {U, V} := by
  obtain ⟨N, p0, p1, q0, q1, h1, h2, h3, h4, -⟩ := normalized_start hu hv hi .hexagonal
  have hp : ![p0, p1] ∈ span ℤ {U, V} := by rw [← h2]; exact subset_span (by simp)
  refine ⟨N, _, _, _, _, fun fuel hf => ?_, isVec_two p0 p1, isVec_two (-p1) (p0 - p1), rfl,
    (hex_lattice hinv hp (pos_of_det h3) h4).symm⟩
  rw [h1 fuel hf]
  show (do let c ← twoColumns "x, y".toList [p0, p1] "-y, x-y".toList [p0, p1]
           Outcome.ok (c, Centering.primitive2d)) = _
  unfold twoColumns
  rw [apply_id, apply_hex]
  simp only [Outcome.ok_bind]
  rw [bind_ok (cols_two ..)]

/-- **C67** Hexagonal, exactly: the result is always a vector of the lattice and this vector mapped by `(x, y) ↦ (-y, x - y)`.
In the coordinates of the program, where `(x, y) ↦ (-y, x + y)` maps the lattice to itself, they are a basis of the lattice
exactly when it consists of the integer multiples of one number in each coordinate. -/
theorem C67_hexagonal (hu : IsVec ⟨u⟩ U) (hv : IsVec ⟨v⟩ V) (hi : LinearIndependent ℚ ![U, V])
    (hinv : ∀ z ∈ span ℤ {U, V}, ![-z 1, z 0 + z 1] ∈ span ℤ {U, V}) :
    ∃ N x y X Y, (∀ fuel, N ≤ fuel → normalizedBasis2d fuel .hexagonal [u, v] = .ok ([x, y], .primitive2d)) ∧
      IsVec ⟨x⟩ X ∧ IsVec ⟨y⟩ Y ∧ X ∈ span ℤ {U, V} ∧ Y = ![-X 1, X 0 - X 1] ∧
      (span ℤ {X, Y} = span ℤ {U, V} ↔ ∃ q : ℚ, span ℤ {U, V} = span ℤ {![q, 0], ![0, q]}) := by
  obtain ⟨N, p0, p1, q0, q1, h1, h2, h3, h4, -⟩ := normalized_start hu hv hi .hexagonal
  have hp : ![p0, p1] ∈ span ℤ {U, V} := by rw [← h2]; exact subset_span (by simp)
  refine ⟨N, _, _, _, _, fun fuel hf => ?_, isVec_two p0 p1, isVec_two (-p1) (p0 - p1), hp, rfl, ?_⟩
  · rw [h1 fuel hf]
    show (do let c ← twoColumns "x, y".toList [p0, p1] "-y, x-y".toList [p0, p1]
             Outcome.ok (c, Centering.primitive2d)) = _
    unfold twoColumns
    rw [apply_id, apply_hex]
    simp only [Outcome.ok_bind]
    rw [bind_ok (cols_two ..)]
  constructor
  · intro h
    refine hex_scalar hinv ?_
    intro z hz
    rw [← h] at hz ⊢
    obtain ⟨m, k, e0, e1⟩ := mem_pair2.1 hz
    refine mem_pair2.2 ⟨-k, m - k, ?_, ?_⟩
    · simp only [Matrix.cons_val_zero, e1]; push_cast; ring
    · simp only [Matrix.cons_val_one, Matrix.cons_val_zero, e0, e1]; push_cast; ring
  · rintro ⟨q, h⟩
    refine (hex_lattice (fun z hz => ?_) hp (pos_of_det h3) h4).symm
    rw [h] at hz ⊢
    obtain ⟨m, k, e0, e1⟩ := mem_pair2.1 hz
    refine mem_pair2.2 ⟨-k, m - k, ?_, ?_⟩
    · simp only [Matrix.cons_val_zero, e1]; push_cast; ring
    · simp only [Matrix.cons_val_one, Matrix.cons_val_zero, e0, e1]; push_cast; ring

/-- **C67** The other crystal systems are not implemented: a panic. -/
theorem C67_other (hu : IsVec ⟨u⟩ U) (hv : IsVec ⟨v⟩ V) (hi : LinearIndependent ℚ ![U, V]) {s : CrystalSystem}
    (hs : s ≠ .oblique ∧ s ≠ .rectangular ∧ s ≠ .square ∧ s ≠ .hexagonal) :
    ∃ N, ∀ fuel, N ≤ fuel → normalizedBasis2d fuel s [u, v] = .panic := by
  obtain ⟨N, p0, p1, q0, q1, h1, -⟩ := normalized_start hu hv hi s
  refine ⟨N, fun fuel hf => ?_⟩
  rw [h1 fuel hf]
  cases s <;> first | rfl | simp at hs

/-! ### cases in which the hypotheses are met -/

/-- an operator with a shift -/
example : ParseOperator.affFromString "x-y+1/2, 2y".toList = .ok (some (af2 1 (-1) 0 2 (1 / 2) 0)) ∧
    applyOperator "x-y+1/2, 2y".toList [3, 4] = .ok [-1 / 2, 8] := by
  constructor <;> decide +kernel

theorem indep_of_det {a b c d : ℚ} (h : a * d - b * c ≠ 0) : LinearIndependent ℚ ![![a, b], ![c, d]] := by
  rw [LinearIndependent.pair_iff]
  intro s t hst
  have h0 := congrFun hst 0
  have h1 := congrFun hst 1
  simp at h0 h1
  constructor
  · have : s * (a * d - b * c) = 0 := by linear_combination d * h0 - c * h1
    exact (mul_eq_zero.1 this).resolve_right h
  · have : t * (a * d - b * c) = 0 := by linear_combination a * h1 - b * h0
    exact (mul_eq_zero.1 this).resolve_right h

theorem maps_of_gens {f : (Fin 2 → ℚ) → (Fin 2 → ℚ)} {L : Submodule ℤ (Fin 2 → ℚ)} {U V : Fin 2 → ℚ}
    (hadd : ∀ x y, f (x + y) = f x + f y) (hsm : ∀ (c : ℤ) x, f (c • x) = c • f x) (hU : f U ∈ L) (hV : f V ∈ L) :
    ∀ z ∈ span ℤ {U, V}, f z ∈ L := by
  intro z hz
  obtain ⟨a, b, rfl⟩ := mem_span_pair.1 hz
  rw [hadd, hsm, hsm]
  exact add_mem (smul_mem _ _ hU) (smul_mem _ _ hV)

/-- a centred rectangular lattice -/
example : LinearIndependent ℚ ![![(1 : ℚ), 2], ![1, -2]] ∧
    (∀ z ∈ span ℤ {(![1, 2] : Fin 2 → ℚ), ![1, -2]}, ![z 0, -z 1] ∈ span ℤ {(![1, 2] : Fin 2 → ℚ), ![1, -2]}) ∧
    normalizedBasis2d 10 .rectangular [⟨2, 1, [1, 2]⟩, ⟨2, 1, [1, -2]⟩] =
      .ok ([⟨2, 1, [0, -4]⟩, ⟨2, 1, [-2, 0]⟩], .centered2d) := by
  refine ⟨indep_of_det (by norm_num), maps_of_gens ?_ ?_ ?_ ?_, by decide +kernel⟩
  · intro x y; funext i; fin_cases i <;> simp; ring
  · intro c x; funext i; fin_cases i <;> simp
  · exact subset_span (by right; funext i; fin_cases i <;> simp)
  · exact subset_span (by left; funext i; fin_cases i <;> simp)

/-- a lattice with a rotation of order three in these coordinates -/
example : LinearIndependent ℚ ![![(2 : ℚ), 1], ![-1, 1]] ∧
    (∀ z ∈ span ℤ {(![2, 1] : Fin 2 → ℚ), ![-1, 1]}, ![-z 1, z 0 - z 1] ∈ span ℤ {(![2, 1] : Fin 2 → ℚ), ![-1, 1]}) ∧
    normalizedBasis2d 10 .hexagonal [⟨2, 1, [2, 1]⟩, ⟨2, 1, [-1, 1]⟩] =
      .ok ([⟨2, 1, [1, -1]⟩, ⟨2, 1, [1, 2]⟩], .primitive2d) := by
  refine ⟨indep_of_det (by norm_num), maps_of_gens ?_ ?_ ?_ ?_, by decide +kernel⟩
  · intro x y; funext i; fin_cases i <;> simp <;> ring
  · intro c x; funext i; fin_cases i <;> simp <;> ring
  · exact subset_span (by right; funext i; fin_cases i <;> simp <;> norm_num)
  · rw [mem_span_pair]
    exact ⟨-1, -1, by funext i; fin_cases i <;> simp <;> norm_num⟩

/-- the hypotheses of `C67_hexagonal` are met by multiples of the integer vectors, where the result is a basis -/
example : LinearIndependent ℚ ![![(3 : ℚ), 0], ![3, 3]] ∧
    (∀ z ∈ span ℤ {(![3, 0] : Fin 2 → ℚ), ![3, 3]}, ![-z 1, z 0 + z 1] ∈ span ℤ {(![3, 0] : Fin 2 → ℚ), ![3, 3]}) ∧
    normalizedBasis2d 10 .hexagonal [⟨2, 1, [3, 0]⟩, ⟨2, 1, [3, 3]⟩] =
      .ok ([⟨2, 1, [3, 0]⟩, ⟨2, 1, [0, 3]⟩], .primitive2d) := by
  refine ⟨indep_of_det (by norm_num), maps_of_gens ?_ ?_ ?_ ?_, by decide +kernel⟩
  · intro x y; funext i; fin_cases i <;> simp <;> ring
  · intro c x; funext i; fin_cases i <;> simp <;> ring
  · rw [mem_span_pair]
    exact ⟨-1, 1, by funext i; fin_cases i <;> simp⟩
  · rw [mem_span_pair]
    exact ⟨-3, 2, by funext i; fin_cases i <;> simp <;> norm_num⟩

/-! ### the two steps together -/

/-- the vector with the coordinates `z` in the basis `X`, `Y` -/
def fromBasis (X Y z : Fin 2 → ℚ) : Fin 2 → ℚ := z 0 • X + z 1 • Y

/-- the same as a linear map -/
def fromBasisL (X Y : Fin 2 → ℚ) : (Fin 2 → ℚ) →ₗ[ℚ] (Fin 2 → ℚ) where
  toFun := fromBasis X Y
  map_add' a b := by simp only [fromBasis, Pi.add_apply, add_smul]; abel
  map_smul' c a := by simp only [fromBasis, Pi.smul_apply, smul_add, smul_smul, smul_eq_mul, RingHom.id_apply]

theorem fromBasis_inj {X Y : Fin 2 → ℚ} (h : 0 < (Matrix.of ![X, Y]).det) : Function.Injective (fromBasis X Y) := by
  rw [Matrix.det_fin_two] at h
  simp at h
  intro a b hab
  have h0 := congrFun hab 0
  have h1 := congrFun hab 1
  simp [fromBasis] at h0 h1
  have e0 : (a 0 - b 0) * (X 0 * Y 1 - X 1 * Y 0) = 0 := by linear_combination Y 1 * h0 - Y 0 * h1
  have e1 : (a 1 - b 1) * (X 0 * Y 1 - X 1 * Y 0) = 0 := by linear_combination X 0 * h1 - X 1 * h0
  have hne : X 0 * Y 1 - X 1 * Y 0 ≠ 0 := by intro hc; linarith
  funext i; fin_cases i
  · exact sub_eq_zero.1 ((mul_eq_zero.1 e0).resolve_right hne)
  · exact sub_eq_zero.1 ((mul_eq_zero.1 e1).resolve_right hne)

theorem map_fromBasis (X Y : Fin 2 → ℚ) (S : Set (Fin 2 → ℚ)) :
    (span ℤ S).map ((fromBasisL X Y).restrictScalars ℤ) = span ℤ (fromBasis X Y '' S) := by
  rw [map_span]; rfl

theorem inv_coords {X Y U V a b : Fin 2 → ℚ} (hd : 0 < (Matrix.of ![X, Y]).det) (hU : U = fromBasis X Y a)
    (hV : V = fromBasis X Y b) {M : Matrix (Fin 2) (Fin 2) ℚ} (hM : ∀ z ∈ span ℤ {U, V}, M.mulVec z ∈ span ℤ {U, V})
    {f : (Fin 2 → ℚ) → (Fin 2 → ℚ)} (hf : ∀ z, M.mulVec (fromBasis X Y z) = fromBasis X Y (f z)) :
    ∀ z ∈ span ℤ {a, b}, f z ∈ span ℤ {a, b} := by
  have hmap : (span ℤ {a, b}).map ((fromBasisL X Y).restrictScalars ℤ) = span ℤ {U, V} := by
    rw [map_fromBasis, Set.image_pair, hU, hV]
  intro z hz
  have h1 := hM (fromBasis X Y z) (by rw [← hmap]; exact mem_map_of_mem hz)
  rw [hf, ← hmap] at h1
  obtain ⟨w, hw, he⟩ := h1
  rwa [← fromBasis_inj hd he]

theorem C67_rotation_four {R : Matrix (Fin 2) (Fin 2) ℚ} (h : orderOf R = 4) (hd : R.det = 1) : R * R = -1 := by
  have h4 : R ^ 4 = 1 := h ▸ pow_orderOf_eq_one R
  rcases invol_rot (R * R) (by rw [Matrix.det_mul, hd, one_mul]) (by rw [← h4]; noncomm_ring) with h2 | h2
  · exfalso
    have := Nat.le_of_dvd (by omega) (orderOf_dvd_of_pow_eq_one (show R ^ 2 = 1 by rw [pow_two, h2]))
    omega
  · exact h2

theorem C67_rotation_six {S : Matrix (Fin 2) (Fin 2) ℚ} (h : orderOf S = 3) (hd : S.det = 1) : S * S = -S - 1 := by
  have h3 : S ^ 3 = 1 := h ▸ pow_orderOf_eq_one S
  have hne : S ≠ 1 := by rintro rfl; rw [orderOf_one] at h; omega
  obtain ⟨a, b, c, d, rfl⟩ : ∃ a b c d, S = !![a, b; c, d] := ⟨_, _, _, _, Matrix.eta_fin_two S⟩
  rw [Matrix.det_fin_two_of] at hd
  have hsq : !![a, b; c, d] * !![a, b; c, d] = (a + d) • !![a, b; c, d] - (1 : Matrix (Fin 2) (Fin 2) ℚ) := by
    rw [Matrix.mul_fin_two, Matrix.one_fin_two]
    ext i j; fin_cases i <;> fin_cases j <;> simp <;> linarith
  have hcu : ((a + d) ^ 2 - 1) • !![a, b; c, d] = (a + d + 1) • (1 : Matrix (Fin 2) (Fin 2) ℚ) := by
    have h4 : !![a, b; c, d] * (!![a, b; c, d] * !![a, b; c, d]) = 1 := by rw [← h3]; noncomm_ring
    rw [hsq, Matrix.mul_sub, Matrix.mul_smul, hsq, Matrix.mul_one] at h4
    have h5 : (a + d) • ((a + d) • !![a, b; c, d] - (1 : Matrix (Fin 2) (Fin 2) ℚ)) - !![a, b; c, d] -
        (1 : Matrix (Fin 2) (Fin 2) ℚ) = 0 := by rw [h4, sub_self]
    have h6 : ((a + d) ^ 2 - 1) • !![a, b; c, d] - (a + d + 1) • (1 : Matrix (Fin 2) (Fin 2) ℚ) = 0 := by
      rw [← h5]; module
    exact sub_eq_zero.1 h6
  have ht : a + d = -1 := by
    by_contra hn
    have hn' : a + d + 1 ≠ 0 := fun e => hn (by linarith)
    have hc : (a + d - 1) • !![a, b; c, d] = (1 : Matrix (Fin 2) (Fin 2) ℚ) := by
      have : (a + d + 1) • ((a + d - 1) • !![a, b; c, d]) = (a + d + 1) • (1 : Matrix (Fin 2) (Fin 2) ℚ) := by
        rw [← hcu, smul_smul]; congr 1; ring
      have h7 := congrArg (fun M => (a + d + 1)⁻¹ • M) this
      simp only [smul_smul, inv_mul_cancel₀ hn', one_smul] at h7
      rw [← mul_assoc, inv_mul_cancel₀ hn', one_mul] at h7
      exact h7
    have g00 := congrFun (congrFun hc 0) 0
    have g01 := congrFun (congrFun hc 0) 1
    have g10 := congrFun (congrFun hc 1) 0
    have g11 := congrFun (congrFun hc 1) 1
    simp at g00 g01 g10 g11
    have hk : a + d - 1 ≠ 0 := by rintro e; rw [e] at g00; simp at g00
    have hb : b = 0 := by rcases g01 with e | e; exact absurd e hk; exact e
    have hc0 : c = 0 := by rcases g10 with e | e; exact absurd e hk; exact e
    have had : a = d := mul_left_cancel₀ hk (g00.trans g11.symm)
    subst hb hc0 had
    have h1 : a = 1 := by nlinarith
    apply hne
    rw [h1, Matrix.one_fin_two]
  rw [hsq, ht]
  module

/-- **C67** With the basis of `crystal_system_and_basis_2d`: let the lattice of `U`, `V` be mapped to itself by
a finite group (its elements may be repeated, as long as the basis is right according to C65), and let the columns given to `normalized_basis_2d` be the coordinates of `U`, `V` in the basis
returned for that group. Then in all systems except the hexagonal one the lattice is generated by the two
vectors `A`, `B` that the result stands for, if it is called primitive, and by `A`, `B` and half their sum, if it
is called centred. In the rectangular system all operators map `A` and `B` to themselves or their opposites.
What is missing is the hexagonal system: see `C67_hexagonal_refuted` and, for the exact condition,
`C67_conventional_hexagonal`. -/
theorem C67_conventional_partial {ops : List (Mat Rat)} {Ms : List (Matrix (Fin 2) (Fin 2) ℚ)}
    (hops : List.Forall₂ (fun m M => Rep m M) ops Ms) (hg : IsFiniteGroupSet Ms) (hnt : ¬ TwinMirrors Ms)
    (hi : LinearIndependent ℚ ![U, V]) (hinv : ∀ M ∈ Ms, ∀ z ∈ span ℤ {U, V}, M.mulVec z ∈ span ℤ {U, V}) :
    ∃ s x y X Y, crystalSystemAndBasis2d ops = .ok (s, [x, y]) ∧ IsVec ⟨x⟩ X ∧ IsVec ⟨y⟩ Y ∧
      (s ≠ .hexagonal → ∀ (a b : Fin 2 → ℚ), U = a 0 • X + a 1 • Y → V = b 0 • X + b 1 • Y →
        IsVec ⟨u⟩ a → IsVec ⟨v⟩ b →
        ∃ N p q, ∃ P Q : Fin 2 → ℚ, ∃ c A B, (∀ fuel, N ≤ fuel → normalizedBasis2d fuel s [u, v] = .ok ([p, q], c)) ∧
          IsVec ⟨p⟩ P ∧ IsVec ⟨q⟩ Q ∧ A = P 0 • X + P 1 • Y ∧ B = Q 0 • X + Q 1 • Y ∧
          ((c = .primitive2d ∧ span ℤ {U, V} = span ℤ {A, B}) ∨
            (c = .centered2d ∧ span ℤ {U, V} = span ℤ {A, B, (1 / 2 : ℚ) • (A + B)})) ∧
          (s = .rectangular → ∀ M ∈ Ms, (M.mulVec A = A ∨ M.mulVec A = -A) ∧ (M.mulVec B = B ∨ M.mulVec B = -B))) := by
  obtain ⟨s, x, y, X, Y, h1, hx, hy, hd, c1, c2, c3, c4, c5, c6, c7⟩ := (C65_repeated hops hg).1 hnt
  refine ⟨s, x, y, X, Y, h1, hx, hy, ?_⟩
  intro hs a b hU hV hu hv
  have hU' : U = fromBasis X Y a := hU
  have hV' : V = fromBasis X Y b := hV
  have hmap : ∀ S, (span ℤ S).map ((fromBasisL X Y).restrictScalars ℤ) = span ℤ (fromBasis X Y '' S) :=
    map_fromBasis X Y
  have hmap2 : (span ℤ {a, b}).map ((fromBasisL X Y).restrictScalars ℤ) = span ℤ {U, V} := by
    rw [hmap, Set.image_pair, hU', hV']
  have hiab : LinearIndependent ℚ ![a, b] := by
    apply LinearIndependent.of_comp (fromBasisL X Y)
    convert hi using 1
    funext i; fin_cases i
    · exact hU'.symm
    · exact hV'.symm
  have hprim : ∀ P Q, span ℤ {P, Q} = span ℤ {a, b} → span ℤ {U, V} = span ℤ {fromBasis X Y P, fromBasis X Y Q} := by
    intro P Q h
    rw [← hmap2, ← h, hmap, Set.image_pair]
  cases s with
  | hexagonal => exact absurd rfl hs
  | oblique =>
    obtain ⟨N, p, q, P, Q, e1, e2, e3, e4⟩ := C67_oblique hu hv hiab
    exact ⟨N, p, q, P, Q, _, _, _, e1, e2, e3, rfl, rfl, Or.inl ⟨rfl, hprim P Q e4⟩, by simp⟩
  | square =>
    obtain ⟨R, hR, hord, hRm⟩ := c7 (Or.inl rfl)
    simp only [if_true] at hord
    have hdR : R.det = 1 := by
      have h2 : 2 < orderOf (-R) := by rw [order_four_neg hord]; omega
      have := big_order_rot hg hRm h2
      rwa [Matrix.det_neg, Fintype.card_fin, neg_one_sq, one_mul] at this
    have hRR := C67_rotation_four hord hdR
    have hinv' : ∀ z ∈ span ℤ {a, b}, ![-z 1, z 0] ∈ span ℤ {a, b} := by
      refine inv_coords (M := R) (f := fun z => ![-z 1, z 0]) hd hU' hV' ?_ ?_
      · intro z hz
        have := hinv _ hRm z hz
        rw [Matrix.neg_mulVec] at this
        exact (neg_mem_iff (S := Submodule ℤ (Fin 2 → ℚ))).1 this
      · intro z
        have hY : R.mulVec Y = -X := by rw [hR, Matrix.mulVec_mulVec, hRR, Matrix.neg_mulVec, Matrix.one_mulVec]
        simp only [fromBasis, Matrix.mulVec_add, Matrix.mulVec_smul, ← hR, hY, Matrix.cons_val_zero, Matrix.cons_val_one]
        rw [smul_neg, neg_smul, add_comm]
    obtain ⟨N, p, q, P, Q, e1, e2, e3, -, e4⟩ := C67_square hu hv hiab hinv'
    exact ⟨N, p, q, P, Q, _, _, _, e1, e2, e3, rfl, rfl, Or.inl ⟨rfl, hprim P Q e4⟩, by simp⟩
  | rectangular =>
    obtain ⟨-, hmir⟩ := c3.1 rfl
    obtain ⟨M, hM, hdM, hMX⟩ := c5 hmir
    have hMY : M.mulVec Y = -Y := by
      rcases (c6 rfl M hM).2 with h | h
      · exfalso
        have hM1 : M = 1 := by
          refine fixes_two hMX h ?_
          rw [Matrix.det_fin_two] at hd
          simp at hd
          intro hc; linarith
        rw [hM1, Matrix.det_one] at hdM
        norm_num at hdM
      · exact h
    have hinv' : ∀ z ∈ span ℤ {a, b}, ![z 0, -z 1] ∈ span ℤ {a, b} := by
      refine inv_coords (M := M) (f := fun z => ![z 0, -z 1]) hd hU' hV' (hinv M hM) ?_
      intro z
      simp only [fromBasis, Matrix.mulVec_add, Matrix.mulVec_smul, hMX, hMY, Matrix.cons_val_zero, Matrix.cons_val_one]
      rw [smul_neg, neg_smul]
    obtain ⟨N, p, q, P, Q, c, e1, e2, e3, e4, -, -, e5, e6⟩ := C67_rectangular hu hv hiab hinv'
    refine ⟨N, p, q, P, Q, c, _, _, e1, e2, e3, rfl, rfl, ?_, ?_⟩
    · rcases e6 with ⟨f1, f2⟩ | ⟨f1, f2⟩
      · exact Or.inl ⟨f1, hprim P Q f2.symm⟩
      · refine Or.inr ⟨f1, ?_⟩
        rw [← hmap2, f2, hmap, Set.image_insert_eq, Set.image_pair]
        have : fromBasis X Y ((1 / 2 : ℚ) • (P + Q)) = (1 / 2 : ℚ) • (fromBasis X Y P + fromBasis X Y Q) := by
          show fromBasisL X Y _ = (1 / 2 : ℚ) • (fromBasisL X Y P + fromBasisL X Y Q)
          rw [map_smul, map_add]
        rw [this]; rfl
    · intro _ K hK
      obtain ⟨k1, k2⟩ := c6 rfl K hK
      rw [e4, e5]
      simp only [zero_smul, zero_add, add_zero, Matrix.mulVec_smul]
      constructor
      · rcases k2 with k | k <;> rw [k] <;> simp
      · rcases k1 with k | k <;> rw [k] <;> simp
  | _ =>
    exfalso
    have h12 : ∀ M ∈ Ms, orderOf M ≤ 2 := by
      intro M hM
      rcases hg.order_cases (by omega) hM with h | h | h | h | h
      · omega
      · omega
      · exact absurd (c1.2 ⟨M, hM, h⟩) (by simp)
      · exact absurd (c2.2 ⟨M, hM, h⟩) (by simp)
      · obtain ⟨h3, h4⟩ := order_three hg hM h
        exact absurd (c1.2 ⟨_, h3, h4⟩) (by simp)
    by_cases hm : ∃ M ∈ Ms, M.det = -1
    · exact absurd (c3.2 ⟨h12, hm⟩) (by simp)
    · push Not at hm
      exact absurd (c4.2 (fun M hM => ⟨h12 M hM, (hg.det_cases hM).resolve_right (hm M hM)⟩)) (by simp)

/-- **C67** With the basis of `crystal_system_and_basis_2d`, in the hexagonal system: `A` is in the lattice, and `A` and `B`
are a basis of it exactly when the lattice is generated by the same multiple of both vectors of that basis. -/
theorem C67_conventional_hexagonal {ops : List (Mat Rat)} {Ms : List (Matrix (Fin 2) (Fin 2) ℚ)}
    (hops : List.Forall₂ (fun m M => Rep m M) ops Ms) (hg : IsFiniteGroupSet Ms) (hhex : ∃ M ∈ Ms, orderOf M = 3)
    (hi : LinearIndependent ℚ ![U, V]) (hinv : ∀ M ∈ Ms, ∀ z ∈ span ℤ {U, V}, M.mulVec z ∈ span ℤ {U, V}) :
    ∃ x y X Y, crystalSystemAndBasis2d ops = .ok (.hexagonal, [x, y]) ∧ IsVec ⟨x⟩ X ∧ IsVec ⟨y⟩ Y ∧
      ∀ (a b : Fin 2 → ℚ), U = a 0 • X + a 1 • Y → V = b 0 • X + b 1 • Y → IsVec ⟨u⟩ a → IsVec ⟨v⟩ b →
        ∃ N p q, ∃ P Q : Fin 2 → ℚ, ∃ A B,
          (∀ fuel, N ≤ fuel → normalizedBasis2d fuel .hexagonal [u, v] = .ok ([p, q], .primitive2d)) ∧
          IsVec ⟨p⟩ P ∧ IsVec ⟨q⟩ Q ∧ A = P 0 • X + P 1 • Y ∧ B = Q 0 • X + Q 1 • Y ∧ A ∈ span ℤ {U, V} ∧
          (span ℤ {A, B} = span ℤ {U, V} ↔ ∃ r : ℚ, span ℤ {U, V} = span ℤ {r • X, r • Y}) := by
  have hnt : ¬ TwinMirrors Ms := by
    rintro ⟨h, -⟩
    obtain ⟨M, hM, h3⟩ := hhex
    have := h M hM
    omega
  obtain ⟨s, x, y, X, Y, h1, hx, hy, hd, c1, c2, c3, c4, c5, c6, c7⟩ := (C65_repeated hops hg).1 hnt
  obtain rfl := c1.2 hhex
  refine ⟨x, y, X, Y, h1, hx, hy, ?_⟩
  intro a b hU hV hu hv
  have hU' : U = fromBasis X Y a := hU
  have hV' : V = fromBasis X Y b := hV
  have hmap : ∀ S, (span ℤ S).map ((fromBasisL X Y).restrictScalars ℤ) = span ℤ (fromBasis X Y '' S) :=
    map_fromBasis X Y
  have hmap2 : (span ℤ {a, b}).map ((fromBasisL X Y).restrictScalars ℤ) = span ℤ {U, V} := by
    rw [hmap, Set.image_pair, hU', hV']
  have hinj : Function.Injective (Submodule.map ((fromBasisL X Y).restrictScalars ℤ)) :=
    Submodule.map_injective_of_injective (fromBasis_inj hd)
  have hiab : LinearIndependent ℚ ![a, b] := by
    apply LinearIndependent.of_comp (fromBasisL X Y)
    convert hi using 1
    funext i; fin_cases i
    · exact hU'.symm
    · exact hV'.symm
  have heq : ∀ P Q, span ℤ {fromBasis X Y P, fromBasis X Y Q} = span ℤ {U, V} ↔ span ℤ {P, Q} = span ℤ {a, b} := by
    intro P Q
    rw [← hmap2, ← Set.image_pair, ← hmap]
    exact hinj.eq_iff
  obtain ⟨R, hR, hord, hRm⟩ := c7 (Or.inr rfl)
  have hinvR : ∀ z ∈ span ℤ {a, b}, ![-z 1, z 0 + z 1] ∈ span ℤ {a, b} := by
    have hord : orderOf R = 6 := hord
    have hsq : R ^ 2 ≠ 1 := fun h => by
      have := Nat.le_of_dvd (by omega) (orderOf_dvd_of_pow_eq_one h)
      omega
    have hdR : (-R).det = 1 := by
      refine big_order_rot hg hRm ?_
      by_contra hlt
      have hpos : 0 < orderOf (-R) := (hg.fin_order hRm).elim (fun k hk => orderOf_pos_iff.2 (isOfFinOrder_iff_pow_eq_one.2 ⟨k, hk.1, hk.2⟩))
      have h2 : (-R) ^ 2 = 1 := by
        have h0 := pow_orderOf_eq_one (-R)
        generalize orderOf (-R) = k at h0 hlt hpos
        have : k = 1 ∨ k = 2 := by omega
        rcases this with rfl | rfl
        · rw [pow_one] at h0
          rw [h0, one_pow]
        · exact h0
      rw [neg_sq] at h2
      exact hsq h2
    have h3 : orderOf (-R) = 3 := by
      refine orderOf_eq_prime (p := 3) ?_ ?_
      · have h6 : R ^ 6 = 1 := hord ▸ pow_orderOf_eq_one R
        have hd' : R.det = 1 := by rwa [Matrix.det_neg, Fintype.card_fin, neg_one_sq, one_mul] at hdR
        rcases invol_rot (R ^ 3) (by rw [Matrix.det_pow, hd', one_pow]) (by rw [← h6]; noncomm_ring) with h2 | h2
        · exfalso
          have := Nat.le_of_dvd (by omega) (orderOf_dvd_of_pow_eq_one h2)
          omega
        · rw [Odd.neg_pow (by decide), h2, neg_neg]
      · intro h
        exact hsq (by rw [← neg_neg R, h]; simp)
    have hSS := C67_rotation_six h3 hdR
    have hRR : R * R = R - 1 := by rw [neg_mul_neg, neg_neg] at hSS; exact hSS
    refine inv_coords (M := R) (f := fun z => ![-z 1, z 0 + z 1]) hd hU' hV' ?_ ?_
    · intro z hz
      have := hinv _ hRm z hz
      rw [Matrix.neg_mulVec] at this
      exact (neg_mem_iff (S := Submodule ℤ (Fin 2 → ℚ))).1 this
    · intro z
      have hY : R.mulVec Y = Y - X := by
        rw [hR, Matrix.mulVec_mulVec, hRR, Matrix.sub_mulVec, Matrix.one_mulVec]
      simp only [fromBasis, Matrix.mulVec_add, Matrix.mulVec_smul, ← hR, hY, Matrix.cons_val_zero, Matrix.cons_val_one]
      module
  obtain ⟨N, p, q, P, Q, e1, e2, e3, e4, e5, e6⟩ := C67_hexagonal hu hv hiab hinvR
  refine ⟨N, p, q, P, Q, _, _, e1, e2, e3, rfl, rfl, ?_, ?_⟩
  · rw [← hmap2]
    exact mem_map_of_mem e4
  · have hs : ∀ r : ℚ, fromBasis X Y ![r, 0] = r • X ∧ fromBasis X Y ![0, r] = r • Y := by
      intro r
      simp [fromBasis]
    change span ℤ {fromBasis X Y P, fromBasis X Y Q} = _ ↔ _
    rw [heq, e6]
    refine exists_congr (fun r => ?_)
    rw [← (hs r).1, ← (hs r).2, eq_comm, eq_comm (a := span ℤ {U, V})]
    exact (heq _ _).symm

/-- **C67 refuted** in the hexagonal system: the group `p3m1` maps the integer vectors to themselves, and the
columns are the coordinates of the unit vectors in the basis `X`, `Y` that is returned for it, but the second
vector of the result is not in the lattice. -/
theorem C67_hexagonal_refuted :
    IsFiniteGroup p3m1 ∧ (∀ M ∈ p3m1, ∀ z ∈ span ℤ {(![1, 0] : Fin 2 → ℚ), ![0, 1]},
      M.mulVec z ∈ span ℤ {(![1, 0] : Fin 2 → ℚ), ![0, 1]}) ∧
    crystalSystemAndBasis2d [⟨2, 2, [1, 0, 0, 1]⟩, ⟨2, 2, [0, -1, 1, -1]⟩, ⟨2, 2, [-1, 1, -1, 0]⟩,
      ⟨2, 2, [0, -1, -1, 0]⟩, ⟨2, 2, [-1, 1, 0, 1]⟩, ⟨2, 2, [1, 0, 1, -1]⟩] =
      .ok (.hexagonal, [⟨2, 1, [1, -1]⟩, ⟨2, 1, [2, 1]⟩]) ∧
    (![1, 0] : Fin 2 → ℚ) = (1 / 3 : ℚ) • ![1, -1] + (1 / 3 : ℚ) • ![2, 1] ∧
    (![0, 1] : Fin 2 → ℚ) = (-2 / 3 : ℚ) • ![1, -1] + (1 / 3 : ℚ) • ![2, 1] ∧
    normalizedBasis2d 10 .hexagonal [⟨2, 1, [1 / 3, 1 / 3]⟩, ⟨2, 1, [-2 / 3, 1 / 3]⟩] =
      .ok ([⟨2, 1, [-1 / 3, -1 / 3]⟩, ⟨2, 1, [1 / 3, 0]⟩], .primitive2d) ∧
    (1 / 3 : ℚ) • (![1, -1] : Fin 2 → ℚ) + (0 : ℚ) • ![2, 1] ∉ span ℤ {(![1, 0] : Fin 2 → ℚ), ![0, 1]} := by
  refine ⟨⟨⟨by simp [p3m1], by decide +kernel, by decide +kernel⟩, by decide +kernel⟩, ?_, by decide +kernel, ?_, ?_,
    by decide +kernel, ?_⟩
  · intro M hM z hz
    obtain ⟨a, b, h0, h1⟩ := mem_pair2.1 hz
    rw [mem_pair2]
    simp at h0 h1
    simp only [p3m1, List.mem_cons, List.not_mem_nil, or_false] at hM
    rcases hM with rfl | rfl | rfl | rfl | rfl | rfl
    · exact ⟨a, b, by simp [Matrix.mulVec, dotProduct, Fin.sum_univ_two, h0, h1], by simp [Matrix.mulVec, dotProduct, Fin.sum_univ_two, h0, h1]⟩
    · exact ⟨-b, a - b, by simp [Matrix.mulVec, dotProduct, Fin.sum_univ_two, h0, h1], by simp [Matrix.mulVec, dotProduct, Fin.sum_univ_two, h0, h1]; ring⟩
    · exact ⟨b - a, -a, by simp [Matrix.mulVec, dotProduct, Fin.sum_univ_two, h0, h1]; ring, by simp [Matrix.mulVec, dotProduct, Fin.sum_univ_two, h0, h1]⟩
    · exact ⟨-b, -a, by simp [Matrix.mulVec, dotProduct, Fin.sum_univ_two, h0, h1], by simp [Matrix.mulVec, dotProduct, Fin.sum_univ_two, h0, h1]⟩
    · exact ⟨b - a, b, by simp [Matrix.mulVec, dotProduct, Fin.sum_univ_two, h0, h1]; ring, by simp [Matrix.mulVec, dotProduct, Fin.sum_univ_two, h0, h1]⟩
    · exact ⟨a, a - b, by simp [Matrix.mulVec, dotProduct, Fin.sum_univ_two, h0, h1], by simp [Matrix.mulVec, dotProduct, Fin.sum_univ_two, h0, h1]; ring⟩
  · funext i; fin_cases i <;> simp <;> norm_num
  · funext i; fin_cases i <;> simp <;> norm_num
  · intro h
    obtain ⟨a, b, h0, -⟩ := mem_pair2.1 h
    simp at h0
    have h3 : (3 * a : ℚ) = 1 := by rw [← h0]; norm_num
    have : 3 * a = 1 := by exact_mod_cast h3
    omega

/-! ## C68 -/

theorem normalizedCases_ok {s : CrystalSystem} {p0 p1 q0 q1 : ℚ}
    (hs : s = .oblique ∨ s = .rectangular ∨ s = .square ∨ s = .hexagonal) (hd : p0 * q1 - p1 * q0 ≠ 0) :
    ∃ x y, ∃ X Y : Fin 2 → ℚ, ∃ c, normalizedCases s [[p0, p1], [q0, q1]] = .ok ([x, y], c) ∧ IsVec ⟨x⟩ X ∧ IsVec ⟨y⟩ Y ∧
      X 0 * Y 1 - X 1 * Y 0 ≠ 0 := by
  have hpos := pos_of_det hd
  rcases hs with rfl | rfl | rfl | rfl
  · refine ⟨_, _, _, _, .primitive2d, ?_, isVec_two p0 p1, isVec_two q0 q1, hd⟩
    show (do let c ← omap Mat.col [[p0, p1], [q0, q1]]; Outcome.ok (c, Centering.primitive2d)) = _
    rw [bind_ok (cols_two ..)]
  · have hcases : normalizedCases .rectangular [[p0, p1], [q0, q1]] =
        if p0 ≠ 0 ∧ p1 ≠ 0 then
          (do let c ← twoColumns "0, 2y".toList [p0, p1] "2x, 0".toList [p0, p1]; .ok (c, .centered2d))
        else if q0 ≠ 0 ∧ q1 ≠ 0 then
          (do let c ← twoColumns "0, 2y".toList [q0, q1] "2x, 0".toList [q0, q1]; .ok (c, .centered2d))
        else if p1 = 0 then
          (do let c ← twoColumns "x, y".toList [q0, q1] "-x, -y".toList [p0, p1]; .ok (c, .primitive2d))
        else (do let c ← omap Mat.col [[p0, p1], [q0, q1]]; .ok (c, .primitive2d)) := rfl
    have hc : ∀ {x y : ℚ}, x ≠ 0 ∧ y ≠ 0 → ∃ x' y' X Y c,
        (do let c ← twoColumns "0, 2y".toList [x, y] "2x, 0".toList [x, y]; .ok (c, Centering.centered2d)) =
          Outcome.ok ([x', y'], c) ∧ IsVec ⟨x'⟩ X ∧ IsVec ⟨y'⟩ Y ∧ X (0 : Fin 2) * Y (1 : Fin 2) - X 1 * Y 0 ≠ 0 := by
      intro x y h
      refine ⟨_, _, _, _, .centered2d, ?_, isVec_two 0 (2 * y), isVec_two (2 * x) 0, ?_⟩
      · unfold twoColumns
        rw [apply_2y, apply_2x]
        simp only [Outcome.ok_bind]
        rw [bind_ok (cols_two ..)]
      · simp; exact ⟨h.2, h.1⟩
    rw [hcases]
    split_ifs with c1 c2 c3
    · exact hc c1
    · exact hc c2
    · refine ⟨_, _, _, _, .primitive2d, ?_, isVec_two q0 q1, isVec_two (-p0) (-p1), ?_⟩
      · unfold twoColumns
        rw [apply_id, apply_neg]
        simp only [Outcome.ok_bind]
        rw [bind_ok (cols_two ..)]
      · simp only [Matrix.cons_val_zero, Matrix.cons_val_one]
        intro h; apply hd; linarith
    · exact ⟨_, _, _, _, .primitive2d, by rw [bind_ok (cols_two ..)], isVec_two p0 p1, isVec_two q0 q1, hd⟩
  · refine ⟨_, _, _, _, .primitive2d, ?_, isVec_two p0 p1, isVec_two (-p1) p0, ?_⟩
    · show (do let c ← twoColumns "x, y".toList [p0, p1] "-y, x".toList [p0, p1]
               Outcome.ok (c, Centering.primitive2d)) = _
      unfold twoColumns
      rw [apply_id, apply_turn]
      simp only [Outcome.ok_bind]
      rw [bind_ok (cols_two ..)]
    · simp only [Matrix.cons_val_zero, Matrix.cons_val_one]
      intro h; nlinarith
  · refine ⟨_, _, _, _, .primitive2d, ?_, isVec_two p0 p1, isVec_two (-p1) (p0 - p1), ?_⟩
    · show (do let c ← twoColumns "x, y".toList [p0, p1] "-y, x-y".toList [p0, p1]
               Outcome.ok (c, Centering.primitive2d)) = _
      unfold twoColumns
      rw [apply_id, apply_hex]
      simp only [Outcome.ok_bind]
      rw [bind_ok (cols_two ..)]
    · simp only [Matrix.cons_val_zero, Matrix.cons_val_one]
      intro h; nlinarith [sq_nonneg (p0 - p1), sq_nonneg (p0 + p1)]

theorem cols_det {x y : Mat Rat} {X Y : Fin 2 → ℚ} (hx : IsVec ⟨x⟩ X) (hy : IsVec ⟨y⟩ Y) :
    ∃ b, Mat.hstack [x, y] = .ok b ∧ Rep b (Matrix.of fun i k => ![X, Y] k i) := by
  obtain ⟨mh, hh1, hh2⟩ := hstack_basis (n := 2) (bs := [⟨x⟩, ⟨y⟩]) rfl ![X, Y] (by
    intro k; fin_cases k
    · exact hx
    · exact hy)
  exact ⟨mh, hh1, hh2⟩

theorem inverse_some {n : Nat} {a : Mat Rat} {A : Matrix (Fin n) (Fin n) ℚ} (ha : Rep a A) (hd : A.det ≠ 0) :
    ∃ b B, inverse a = .ok (some b) ∧ Rep b B ∧ A * B = 1 ∧ B * A = 1 := by
  rcases C15_inverse_rat ha with h | ⟨-, h⟩
  · exact h
  · exact absurd h hd

theorem transposed_inverse {a : Mat Rat} {A : Matrix (Fin 2) (Fin 2) ℚ} (ha : Rep a A) (hd : A.det ≠ 0) :
    ∃ t b B, a.transpose = .ok t ∧ inverse t = .ok (some b) ∧ Rep b B ∧ A.transpose * B = 1 ∧ B.det ≠ 0 := by
  obtain ⟨t, h1, h2⟩ := rep_transpose_sq ha
  obtain ⟨b, B, h3, h4, h5, h6⟩ := inverse_some h2 (by rw [Matrix.det_transpose]; exact hd)
  refine ⟨t, b, B, h1, h3, h4, h5, ?_⟩
  have := congrArg Matrix.det h6
  rw [Matrix.det_mul, Matrix.det_one] at this
  exact left_ne_zero_of_mul_eq_one this

theorem unit_columns {cols : List (Mat Rat)}
    (h : List.Forall₂ (fun c (k : Fin 2) => Rep c (colM (Pi.single k (1 : ℚ)))) cols (List.finRange 2)) :
    ∃ c0 c1, cols = [c0, c1] ∧ Rep c0 (colM (Pi.single (0 : Fin 2) (1 : ℚ))) ∧ Rep c1 (colM (Pi.single (1 : Fin 2) (1 : ℚ))) := by
  have e : List.finRange 2 = [0, 1] := by decide
  rw [e] at h
  cases h with
  | cons a t => cases t with
    | cons b t => cases t; exact ⟨_, _, rfl, a, b⟩

theorem rep_four (a b c d : ℚ) : Rep ⟨2, 2, [a, b, c, d]⟩ !![a, b; c, d] := by
  refine ⟨rfl, rfl, rfl, fun h => h, fun i j => ?_⟩
  fin_cases i <;> fin_cases j <;> rfl

/-- the hypotheses of `C67_conventional_hexagonal` are met by `p3m1` and the integer vectors -/
example := C67_conventional_hexagonal (U := ![1, 0]) (V := ![0, 1]) (Ms := p3m1)
  (ops := [⟨2, 2, [1, 0, 0, 1]⟩, ⟨2, 2, [0, -1, 1, -1]⟩, ⟨2, 2, [-1, 1, -1, 0]⟩,
      ⟨2, 2, [0, -1, -1, 0]⟩, ⟨2, 2, [-1, 1, 0, 1]⟩, ⟨2, 2, [1, 0, 1, -1]⟩])
  (u := ⟨2, 1, [1 / 3, 1 / 3]⟩) (v := ⟨2, 1, [-2 / 3, 1 / 3]⟩)
  (.cons (rep_four ..) (.cons (rep_four ..) (.cons (rep_four ..) (.cons (rep_four ..) (.cons (rep_four ..)
    (.cons (rep_four ..) .nil))))))
  C67_hexagonal_refuted.1.toIsFiniteGroupSet
  ⟨!![0, -1; 1, -1], by simp [p3m1], orderOf_eq_prime (by decide +kernel) (by decide +kernel)⟩
  (indep_of_det (by norm_num)) C67_hexagonal_refuted.2.1

/-- **C68** For every group of operators, unless there are twin mirrors as in C65, `identitify_spacegroup_2d` gets
to its last line: it finds the crystal system (as in C65), a centring and an invertible change of coordinates. -/
theorem C68_prepared_partial {ops : List (AffineMap Rat)} {os : List (Op 2)} (h : AreOps ops os)
    (hg : IsFiniteGroupSet (os.map (·.1))) (hnt : ¬ TwinMirrors (os.map (·.1))) :
    ∃ N s c t, (∀ fuel, N ≤ fuel → identifyPrep fuel ops = .ok (s, c, t)) ∧
      (s = .hexagonal ↔ ∃ o ∈ os, orderOf o.1 = 3) ∧
      (s = .square ↔ ∃ o ∈ os, orderOf o.1 = 4) ∧
      (s = .rectangular ↔ (∀ o ∈ os, orderOf o.1 ≤ 2) ∧ ∃ o ∈ os, o.1.det = -1) ∧
      (s = .oblique ↔ ∀ o ∈ os, orderOf o.1 ≤ 2 ∧ o.1.det = 1) ∧
      ∃ A B : Matrix (Fin 2) (Fin 2) ℚ, IsCoordMap t A B 0 0 := by
  have hne : ops ≠ [] := by
    rintro rfl
    cases h
    exact hg.nonempty rfl
  have hlin : List.Forall₂ (fun m M => Rep m M) (ops.map (·.linear)) (os.map (·.1)) := by
    rw [List.forall₂_map_left_iff, List.forall₂_map_right_iff]
    exact h.imp (fun a p hp => hp.1)
  obtain ⟨s, x, y, X, Y, h1, hx, hy, hd, c1, c2, c3, c4, -⟩ := (C65_repeated hlin hg).1 hnt
  have hs : s = .oblique ∨ s = .rectangular ∨ s = .square ∨ s = .hexagonal := by
    by_contra hcon
    push Not at hcon
    obtain ⟨n1, n2, n3, n4⟩ := hcon
    have h12 : ∀ M ∈ os.map (·.1), orderOf M ≤ 2 := by
      intro M hM
      rcases hg.order_cases (by omega) hM with h | h | h | h | h
      · omega
      · omega
      · exact absurd (c1.2 ⟨M, hM, h⟩) n4
      · exact absurd (c2.2 ⟨M, hM, h⟩) n3
      · obtain ⟨h3, h4⟩ := order_three hg hM h
        exact absurd (c1.2 ⟨_, h3, h4⟩) n4
    by_cases hm : ∃ M ∈ os.map (·.1), M.det = -1
    · exact absurd (c3.2 ⟨h12, hm⟩) n2
    · push Not at hm
      exact absurd (c4.2 (fun M hM => ⟨h12 M hM, (hg.det_cases hM).resolve_right (hm M hM)⟩)) n1
  obtain ⟨b, hb1, hb2⟩ := cols_det hx hy
  have hbd : (Matrix.of fun i k => ![X, Y] k i : Matrix (Fin 2) (Fin 2) ℚ).det ≠ 0 := by
    have e : (Matrix.of fun i k => ![X, Y] k i : Matrix (Fin 2) (Fin 2) ℚ) = (Matrix.of ![X, Y]).transpose := rfl
    rw [e, Matrix.det_transpose]; exact hd.ne'
  obtain ⟨bt, m, W, hm1, hm2, hm3, -, hm4⟩ := transposed_inverse hb2 hbd
  obtain ⟨cols, hc1, hc2⟩ := primitiveCell_eq h hne
  obtain ⟨e0, e1, rfl, he0, he1⟩ := unit_columns hc2
  obtain ⟨u, hu1, hU⟩ := mul_col hm3 he0
  obtain ⟨v, hv1, hV⟩ := mul_col hm3 he1
  have hi : LinearIndependent ℚ ![W.mulVec (Pi.single 0 1), W.mulVec (Pi.single 1 1)] := by
    rw [Matrix.det_fin_two] at hm4
    have := indep_of_det (a := W 0 0) (b := W 1 0) (c := W 0 1) (d := W 1 1) (by intro hc; apply hm4; linarith)
    convert this using 2
    · funext i; fin_cases i <;> simp
    · congr 1
      funext i; fin_cases i <;> simp
  obtain ⟨N, p0, p1, q0, q1, n1, -, n2, -⟩ := normalized_start hU hV hi s
  obtain ⟨nx, ny, NX, NY, c, k1, k2, k3, k4⟩ := normalizedCases_ok hs n2
  obtain ⟨nb, l1, l2⟩ := cols_det k2 k3
  obtain ⟨pr, r1, r2⟩ := rep_mul l2 hb2
  have hpd : ((Matrix.of fun i k => ![NX, NY] k i : Matrix (Fin 2) (Fin 2) ℚ) *
      (Matrix.of fun i k => ![X, Y] k i : Matrix (Fin 2) (Fin 2) ℚ)).det ≠ 0 := by
    rw [Matrix.det_mul]
    refine mul_ne_zero ?_ hbd
    rw [Matrix.det_fin_two]
    simp
    intro hc; apply k4; linarith
  obtain ⟨pt, t, T, t1, t2, t3, -, t4⟩ := transposed_inverse r2 hpd
  obtain ⟨a, a1, a2⟩ := aff_ofMat t3
  obtain ⟨cm, B, tt, g1, g2⟩ := (coord_new a2).1 t4
  refine ⟨N, s, c, cm, ?_, ?_, ?_, ?_, ?_, T, B, ?_⟩
  · intro fuel hf
    unfold identifyPrep
    have hoc : omap (fun b => m.mul b) [e0, e1] = .ok [u, v] := by
      simp only [omap, hu1, hv1]
    rw [bind_ok h1]
    simp only [hb1, hm1, hm2, hc1, hoc, n1 fuel hf, k1, l1, r1, t1, t2, a1, g1, Outcome.ok_bind, unwrap]
  · rw [c1]; simp
  · rw [c2]; simp
  · rw [c3]; simp
  · rw [c4]; simp
  · have : tt = 0 := by
      have := g2.2.2.2.2.2 0
      simpa using this
    rw [this] at g2; exact g2

/-- **C68** With twin mirrors `identitify_spacegroup_2d` panics early: the matrix of the basis has no inverse. -/
theorem C68_twins {ops : List (AffineMap Rat)} {os : List (Op 2)} (h : AreOps ops os)
    (hg : IsFiniteGroupSet (os.map (·.1))) (ht : TwinMirrors (os.map (·.1))) (fuel : Nat) :
    identifyPrep fuel ops = .panic := by
  have hlin : List.Forall₂ (fun m M => Rep m M) (ops.map (·.linear)) (os.map (·.1)) := by
    rw [List.forall₂_map_left_iff, List.forall₂_map_right_iff]
    exact h.imp (fun a p hp => hp.1)
  obtain ⟨x, y, X, Y, h1, hx, hy, -, -, -, hd⟩ := (C65_repeated hlin hg).2 ht
  obtain ⟨b, hb1, hb2⟩ := cols_det hx hy
  obtain ⟨t, h2, h3⟩ := rep_transpose_sq hb2
  have hbd : (Matrix.of fun i k => ![X, Y] k i : Matrix (Fin 2) (Fin 2) ℚ).det = 0 := by
    have e : (Matrix.of fun i k => ![X, Y] k i : Matrix (Fin 2) (Fin 2) ℚ) = (Matrix.of ![X, Y]).transpose := rfl
    rw [e, Matrix.det_transpose]; exact hd
  rcases C15_inverse_rat h3 with ⟨c, C, -, -, hc, -⟩ | ⟨h4, -⟩
  · exfalso
    have := congrArg Matrix.det hc
    rw [Matrix.det_mul, Matrix.det_transpose, hbd, zero_mul, Matrix.det_one] at this
    exact zero_ne_one this
  · unfold identifyPrep
    rw [bind_ok h1]
    simp only [hb1, h2, h4, Outcome.ok_bind]
    rfl

/-- **C68 refuted.** `identitify_spacegroup_2d` never returns: for no operators and no fuel is there a result, and
for every group of operators it panics. -/
theorem C68_never_returns_refuted :
    (∀ fuel ops r, identifySpacegroup2d fuel ops ≠ .ok r) ∧
    (∀ (ops : List (AffineMap Rat)) (os : List (Op 2)), AreOps ops os → IsFiniteGroupSet (os.map (·.1)) →
      ∃ N, ∀ fuel, N ≤ fuel → identifySpacegroup2d fuel ops = .panic) := by
  constructor
  · intro fuel ops r
    unfold identifySpacegroup2d
    cases identifyPrep fuel ops <;> simp
  · intro ops os h hg
    by_cases ht : TwinMirrors (os.map (·.1))
    · refine ⟨0, fun fuel _ => ?_⟩
      unfold identifySpacegroup2d
      rw [C68_twins h hg ht fuel]; rfl
    obtain ⟨N, s, c, t, h1, -⟩ := C68_prepared_partial h hg ht
    refine ⟨N, fun fuel hf => ?_⟩
    unfold identifySpacegroup2d
    rw [h1 fuel hf]; rfl

/-- **C68 refuted.** Also the change of coordinates prepared for the result is not the one to a normalised
basis. For the group of the mirror `(x, -y)` it maps the lattice vector `(0, 1)` to `(1/2, 0)`. -/
theorem C68_coordinates_refuted :
    IsFiniteGroup [!![1, 0; 0, 1], (!![1, 0; 0, -1] : Matrix (Fin 2) (Fin 2) ℚ)] ∧
    ∃ t, identifyPrep 20 [af2 1 0 0 1 0 0, af2 1 0 0 (-1) 0 0] = .ok (.rectangular, .primitive2d, t) ∧
      t.applyVec ⟨⟨2, 1, [0, 1]⟩⟩ = .ok ⟨⟨2, 1, [1 / 2, 0]⟩⟩ := by
  refine ⟨⟨⟨by simp, by decide +kernel, by decide +kernel⟩, by decide +kernel⟩,
    ⟨⟨⟨2, 2, [0, 1 / 2, 2, 0]⟩, ⟨⟨2, 1, [0, 0]⟩⟩⟩, ⟨⟨2, 2, [0, 1 / 2, 2, 0]⟩, ⟨⟨2, 1, [0, 0]⟩⟩⟩⟩, ?_, ?_⟩
  · decide +kernel
  · decide +kernel

/-- **C68 refuted.** The centring can be wrong: the group of the mirror `(x + y, -y)` is called primitive,
although the integer vectors are a centred lattice in the coordinates of the basis `(1, 0)`, `(-1, 2)` returned
for it, and `normalized_basis_2d` says so when it is given these coordinates. -/
theorem C68_centring_refuted :
    IsFiniteGroup [!![1, 0; 0, 1], (!![1, 1; 0, -1] : Matrix (Fin 2) (Fin 2) ℚ)] ∧
    crystalSystemAndBasis2d [⟨2, 2, [1, 0, 0, 1]⟩, ⟨2, 2, [1, 1, 0, -1]⟩] =
      .ok (.rectangular, [⟨2, 1, [1, 0]⟩, ⟨2, 1, [-1, 2]⟩]) ∧
    (![1, 0] : Fin 2 → ℚ) = (1 : ℚ) • ![1, 0] + (0 : ℚ) • ![-1, 2] ∧
    (![0, 1] : Fin 2 → ℚ) = (1 / 2 : ℚ) • ![1, 0] + (1 / 2 : ℚ) • ![-1, 2] ∧
    (∃ b, normalizedBasis2d 20 .rectangular [⟨2, 1, [1, 0]⟩, ⟨2, 1, [1 / 2, 1 / 2]⟩] = .ok (b, .centered2d)) ∧
    (∃ t, identifyPrep 20 [af2 1 0 0 1 0 0, af2 1 1 0 (-1) 0 0] = .ok (.rectangular, .primitive2d, t)) := by
  refine ⟨⟨⟨by simp, by decide +kernel, by decide +kernel⟩, by decide +kernel⟩, by decide +kernel, ?_, ?_,
    ⟨[⟨2, 1, [0, 1]⟩, ⟨2, 1, [1, 0]⟩], by decide +kernel⟩,
    ⟨⟨⟨⟨2, 2, [1 / 2, 1 / 2, 2, 0]⟩, ⟨⟨2, 1, [0, 0]⟩⟩⟩, ⟨⟨2, 2, [0, 1 / 2, 2, -1 / 2]⟩, ⟨⟨2, 1, [0, 0]⟩⟩⟩⟩, by decide +kernel⟩⟩
  · funext i; fin_cases i <;> simp
  · funext i; fin_cases i <;> simp <;> norm_num

end Systre
