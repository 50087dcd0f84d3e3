import Verif.Lemmas.PrimitiveCell
import Verif.Props.SpaceGroups

/-! # C56, C57, C65: classification of operators, crystal systems and primitive cells -/

namespace Systre
open Finder Matrix

variable {n : Nat}

/-! ## C56 -/

/-- **C56** `primitive_cell` over the rational numbers returns the unit vectors, whatever the operators are.
So it spans the lattice of the translations exactly when the shifts of all pure translations in the list are
integral. What is missing is the case of a centred cell: see `C56_centred_refuted`. -/
theorem C56_primitive_cell_partial {ops : List (AffineMap Rat)} {os : List (Op n)} (h : AreOps ops os) (hne : ops ≠ []) :
    ∃ cols, primitiveCell ops = .ok cols ∧
      List.Forall₂ (fun c (k : Fin n) => ∃ x, IsVec ⟨c⟩ x ∧ x = Pi.single k (1 : ℚ)) cols (List.finRange n) ∧
      (translationLattice os = Submodule.span ℤ {x | ∃ k : Fin n, x = Pi.single k (1 : ℚ)} ↔
        ∀ s, ((1 : Matrix (Fin n) (Fin n) ℚ), s) ∈ os → ∀ i, ∃ z : ℤ, s i = z) := by
  obtain ⟨cols, h1, h2⟩ := primitiveCell_eq h hne
  refine ⟨cols, h1, h2.imp (fun c k hc => ⟨_, hc, rfl⟩), ?_⟩
  have hint : ∀ x : Fin n → ℚ, x ∈ Submodule.span ℤ {x | ∃ k : Fin n, x = Pi.single k (1 : ℚ)} ↔ ∀ i, ∃ z : ℤ, x i = z := by
    intro x
    constructor
    · intro hx
      induction hx using Submodule.span_induction with
      | mem x hx =>
        obtain ⟨k, rfl⟩ := hx
        intro i
        by_cases hik : i = k
        · subst hik; exact ⟨1, by simp⟩
        · exact ⟨0, by simp [Pi.single_eq_of_ne hik]⟩
      | zero => exact fun i => ⟨0, by simp⟩
      | add x y _ _ hx hy =>
        intro i
        obtain ⟨a, ha⟩ := hx i; obtain ⟨b, hb⟩ := hy i
        exact ⟨a + b, by push_cast; rw [Pi.add_apply, ha, hb]⟩
      | smul z x _ hx =>
        intro i
        obtain ⟨a, ha⟩ := hx i
        exact ⟨z * a, by push_cast; rw [Pi.smul_apply, ha]; simp⟩
    · intro hx
      choose z hz using hx
      have : x = ∑ k, z k • (Pi.single k (1 : ℚ) : Fin n → ℚ) := by
        funext i
        rw [Finset.sum_apply, hz]
        simp [Pi.single_apply]
      rw [this]
      exact Submodule.sum_mem _ (fun k _ => Submodule.smul_mem _ _ (Submodule.subset_span ⟨k, rfl⟩))
  unfold translationLattice
  rw [Submodule.span_union, sup_eq_left, Submodule.span_le]
  constructor
  · intro hs s hmem
    exact (hint s).1 (hs hmem)
  · intro hs s hmem
    exact (hint s).2 (hs s hmem)

/-- The hypotheses can be met by a group with more than integer translations in it. -/
example : AreOps [af2 1 0 0 1 0 0, af2 (-1) 0 0 1 0 0] [op2 1 0 0 1 0 0, op2 (-1) 0 0 1 0 0] :=
  .cons (af2_isAff ..) (.cons (af2_isAff ..) .nil)

/-- **C56 refuted.** For the centred group with the translation `x + 1/2, y + 1/2` the answer is the unit
square, although `(1/2, 1/2)` is a translation: the cell is not primitive. -/
theorem C56_centred_refuted :
    primitiveCell [af2 1 0 0 1 0 0, af2 1 0 0 1 (1/2) (1/2)] = .ok [⟨2, 1, [1, 0]⟩, ⟨2, 1, [0, 1]⟩] ∧
    (![1/2, 1/2] : Fin 2 → ℚ) ∈ translationLattice [op2 1 0 0 1 0 0, op2 1 0 0 1 (1/2) (1/2)] ∧
    (![1/2, 1/2] : Fin 2 → ℚ) ∉ Submodule.span ℤ {x : Fin 2 → ℚ | ∃ k, x = Pi.single k 1} := by
  refine ⟨by decide +kernel, ?_, ?_⟩
  · refine Submodule.subset_span (Or.inr ?_)
    have : (1 : Matrix (Fin 2) (Fin 2) ℚ) = !![1, 0; 0, 1] := one_fin_two
    have h : ((1 : Matrix (Fin 2) (Fin 2) ℚ), (![1/2, 1/2] : Fin 2 → ℚ)) ∈ [op2 1 0 0 1 0 0, op2 1 0 0 1 (1/2) (1/2)] := by
      rw [this]
      simp [op2]
    exact h
  · intro h
    have hint : ∀ x : Fin 2 → ℚ, x ∈ Submodule.span ℤ {x : Fin 2 → ℚ | ∃ k, x = Pi.single k 1} → ∃ z : ℤ, x 0 = z := by
      intro x hx
      induction hx using Submodule.span_induction with
      | mem x hx =>
        obtain ⟨k, rfl⟩ := hx
        fin_cases k
        · exact ⟨1, by simp⟩
        · exact ⟨0, by simp⟩
      | zero => exact ⟨0, by simp⟩
      | add x y _ _ hx hy =>
        obtain ⟨a, ha⟩ := hx; obtain ⟨b, hb⟩ := hy
        exact ⟨a + b, by push_cast; rw [Pi.add_apply, ha, hb]⟩
      | smul z x _ hx =>
        obtain ⟨a, ha⟩ := hx
        exact ⟨z * a, by push_cast; rw [Pi.smul_apply, ha]; simp⟩
    obtain ⟨z, hz⟩ := hint _ h
    have h2 : (2 * z : ℚ) = 1 := by rw [← hz]; norm_num
    have h3 : (2 * z : ℤ) = 1 := by exact_mod_cast h2
    omega

/-! ## C57 -/

/-- **C57** `matrix_order(m, max)` is the least `k` from 1 to `max` with `m ^ k = 1`, and 0 if there is none. -/
theorem C57_matrix_order {m : Mat Rat} {M : Matrix (Fin n) (Fin n) ℚ} (hm : Rep m M) (max : Nat) :
    ∃ r, matrixOrder m max = .ok r ∧
      ((r = 0 ∧ ∀ j, 1 ≤ j → j ≤ max → M ^ j ≠ 1) ∨
        (1 ≤ r ∧ r ≤ max ∧ M ^ r = 1 ∧ ∀ j, 1 ≤ j → j < r → M ^ j ≠ 1)) := matrixOrder_ok hm max

/-- **C57** With the bound 6 this is the order of the matrix in all dimensions up to three: no rational matrix
of these sizes has a finite order above six. (`orderOf` is 0 for a matrix of infinite order.) -/
theorem C57_order_six (hn : n ≤ 3) {m : Mat Rat} {M : Matrix (Fin n) (Fin n) ℚ} (hm : Rep m M) :
    matrixOrder m 6 = .ok (orderOf M) := order_six hn hm

example : matrixOrder ⟨2, 2, [1, -1, 1, 0]⟩ 6 = .ok 6 ∧ matrixOrder ⟨2, 2, [1, 1, 0, 1]⟩ 6 = .ok 0 ∧
    matrixOrder ⟨3, 3, [0, 0, 1, 1, 0, 0, 0, 1, 0]⟩ 6 = .ok 3 ∧ matrixOrder ⟨2, 2, [1, -1, 1, 0]⟩ 5 = .ok 0 := by
  decide +kernel

/-- **C57** `operator_axis` returns the direction that is fixed, or inverted by a rotoinversion in an odd
dimension, with positive first non-zero coordinate, if these vectors form a line, and nothing otherwise. -/
theorem C57_operator_axis (hn : 0 < n) {m : Mat Rat} {M : Matrix (Fin n) (Fin n) ℚ} (hm : Rep m M) :
    (∃ v, operatorAxis m = .ok (some v) ∧ v.length = n ∧ IsPositive (rowVec n v) ∧
      IsAxis M (axisSign M) (rowVec n v)) ∨
    (operatorAxis m = .ok none ∧ ¬ ∃ u, IsAxis M (axisSign M) u) := operatorAxis_ok hn hm

example : operatorAxis ⟨3, 3, [0, 0, 1, 1, 0, 0, 0, 1, 0]⟩ = .ok (some [1, 1, 1]) ∧
    operatorAxis ⟨2, 2, [0, -1, -1, 0]⟩ = .ok (some [1, -1]) ∧
    operatorAxis ⟨2, 2, [-1, 0, 0, -1]⟩ = .ok none := by decide +kernel

/-- **C57** The details are found for every square matrix of size one, two or three: the order, whether the
orientation is preserved and the axis. -/
theorem C57_details (h1 : 1 ≤ n) (h3 : n ≤ 3) {m : Mat Rat} {M : Matrix (Fin n) (Fin n) ℚ} (hm : Rep m M) :
    ∃ d, OperatorDetails.from m = .ok d ∧ d.matrix = m ∧ d.dimension = n ∧ d.order = orderOf M ∧
      (d.isOrientationPreserving = true ↔ 0 ≤ M.det) ∧ operatorAxis m = .ok d.axis := by
  obtain ⟨axis, c, e1, _, e2⟩ := details_ok h1 h3 hm
  exact ⟨_, e2, rfl, rfl, rfl, by simp, e1⟩

/-- **C57** All other matrices are rejected with a panic. -/
theorem C57_details_rejects {m : Mat Rat} (h : m.nrows ≠ m.ncols ∨ m.nrows < 1 ∨ 3 < m.nrows) :
    OperatorDetails.from m = .panic := by
  unfold OperatorDetails.from
  by_cases hs : m.nrows = m.ncols
  · rw [bind_ok (rassert_true (by simpa using hs))]
    have : ¬ (1 ≤ m.nrows ∧ m.nrows ≤ 3) := by
      rcases h with h | h | h
      · exact absurd hs h
      · omega
      · omega
    have e : rassert (decide (1 ≤ m.nrows ∧ m.nrows ≤ 3)) = .panic := by
      rw [decide_eq_false this]; rfl
    rw [e]; rfl
  · have e : rassert (decide (m.nrows = m.ncols)) = .panic := by
      rw [decide_eq_false hs]; rfl
    rw [e]; rfl

example : OperatorDetails.from ⟨2, 3, [1, 0, 0, 0, 1, 0]⟩ = .panic := C57_details_rejects (Or.inl (by decide))

/-- **C57** In the plane a rotation of finite order above two is called clockwise if it turns every vector
clockwise, and otherwise it turns every vector counterclockwise. -/
theorem C57_clockwise_2d {m : Mat Rat} {M : Matrix (Fin 2) (Fin 2) ℚ} (hm : Rep m M) (ho : 2 < orderOf M) (hd : 0 ≤ M.det) :
    ∃ d, OperatorDetails.from m = .ok d ∧
      (d.isClockwise = true ∧ (∀ v : Fin 2 → ℚ, v ≠ 0 → (Matrix.of ![v, M.mulVec v]).det < 0) ∨
       d.isClockwise = false ∧ (∀ v : Fin 2 → ℚ, v ≠ 0 → 0 < (Matrix.of ![v, M.mulVec v]).det)) := by
  obtain ⟨axis, c, e1, e3, e2⟩ := details_ok (by omega) (by omega) hm
  refine ⟨_, e2, ?_⟩
  have h01 : m.get 0 1 = .ok (M 0 1) := hm.entry 0 1
  unfold clockwise at e3
  rw [if_pos rfl, if_neg (by simp [hd]), if_pos (Or.inr ho), bind_ok h01] at e3
  have e3 := Outcome.ok.inj e3
  have hfin := pow_orderOf_eq_one M
  have hdet : M.det = 1 := by
    rcases det_sq_one (by omega : 0 < orderOf M) hfin with h | h
    · exact h
    · rw [h] at hd; norm_num at hd
  have hdisc : (M 0 0 - M 1 1) ^ 2 + 4 * (M 0 1 * M 1 0) < 0 := by
    refine rot2 M hdet (by omega : 0 < orderOf M) hfin ?_ ?_
    · rintro rfl; rw [orderOf_one] at ho; omega
    · rintro rfl
      have := Nat.le_of_dvd (by omega) (orderOf_dvd_of_pow_eq_one (show (-1 : Matrix (Fin 2) (Fin 2) ℚ) ^ 2 = 1 by rw [neg_sq, one_pow]))
      omega
  have hturn : ∀ v : Fin 2 → ℚ, v ≠ 0 → 0 < M 1 0 * (Matrix.of ![v, M.mulVec v]).det := by
    intro v hv
    have hv' : v 0 ≠ 0 ∨ v 1 ≠ 0 := by
      by_contra hc; push Not at hc
      exact hv (funext fun i => by fin_cases i; exacts [hc.1, hc.2])
    have := turn2 M hdisc (v 0) (v 1) hv'
    rw [det_rows2]
    have e : M.mulVec v 0 = M 0 0 * v 0 + M 0 1 * v 1 ∧ M.mulVec v 1 = M 1 0 * v 0 + M 1 1 * v 1 := by
      simp [mulVec, dotProduct, Fin.sum_univ_two]
    rw [e.1, e.2]
    exact this
  have hprod : M 0 1 * M 1 0 < 0 := by nlinarith [sq_nonneg (M 0 0 - M 1 1)]
  simp only
  by_cases hneg : M 0 1 < 0
  · right
    refine ⟨by rw [← e3]; simp [hneg], fun v hv => ?_⟩
    have h10 : 0 < M 1 0 := by nlinarith
    exact pos_of_mul_pos_right (hturn v hv) h10.le
  · left
    refine ⟨by rw [← e3]; simp at hneg ⊢; exact hneg, fun v hv => ?_⟩
    have h10 : M 1 0 < 0 := by nlinarith
    have := hturn v hv
    by_contra hc
    push Not at hc
    nlinarith

example : ∃ d, OperatorDetails.from ⟨2, 2, [0, 1, -1, -1]⟩ = .ok d ∧ d.isClockwise = true ∧ d.order = 3 := by
  refine ⟨⟨⟨2, 2, [0, 1, -1, -1]⟩, 2, none, 3, true, true⟩, by decide +kernel, rfl, rfl⟩

/-- **C57** In space, for an operator of finite order above two with the axis `a`, the answer does not depend
on the vector chosen by the program: it is called clockwise if `a`, `v`, `M v` are right-handed for every `v`
off the axis, and otherwise they are left-handed for every such `v`. -/
theorem C57_clockwise_3d {m : Mat Rat} {M : Matrix (Fin 3) (Fin 3) ℚ} (hm : Rep m M) (ho : 2 < orderOf M) {a : List Rat}
    (ha : operatorAxis m = .ok (some a)) :
    ∃ d, OperatorDetails.from m = .ok d ∧
      (d.isClockwise = true ∧ (∀ v : Fin 3 → ℚ, (∀ c : ℚ, v ≠ c • rowVec 3 a) → 0 < (Matrix.of ![rowVec 3 a, v, M.mulVec v]).det) ∨
       d.isClockwise = false ∧ (∀ v : Fin 3 → ℚ, (∀ c : ℚ, v ≠ c • rowVec 3 a) → (Matrix.of ![rowVec 3 a, v, M.mulVec v]).det < 0)) := by
  obtain ⟨axis, c, e1, e3, e2⟩ := details_ok (by omega) (by omega) hm
  refine ⟨_, e2, ?_⟩
  have hax := e1.symm.trans ha
  have hax := Outcome.ok.inj hax
  subst hax
  have hfin := pow_orderOf_eq_one M
  rcases operatorAxis_ok (by omega) hm with ⟨v, f1, f2, -, f4⟩ | ⟨f1, -⟩
  swap
  · rw [f1] at ha; cases Outcome.ok.inj ha
  have := Outcome.ok.inj (f1.symm.trans ha)
  cases this
  rw [clockwise3 hm (Or.inr ho) f2] at e3
  have e3 := Outcome.ok.inj e3
  rw [positiveSign_finite (by omega : 0 < orderOf M) hfin rfl] at f4
  have hMa : M.mulVec (rowVec 3 a) = M.det • rowVec 3 a := (f4.2 _).2 ⟨1, (one_smul _ _).symm⟩
  have hM2 : M ^ 2 ≠ 1 := by
    intro h
    have := Nat.le_of_dvd (by omega) (orderOf_dvd_of_pow_eq_one h)
    omega
  have key := fun w (hw : ∀ c : ℚ, w ≠ c • rowVec 3 a) =>
    turn3 (by omega : 0 < orderOf M) hfin hM2 hMa f4.1 (offAxis_off f4.1) hw
  simp only
  rw [← e3]
  by_cases hs : 0 ≤ (Matrix.of ![rowVec 3 a, offAxis (rowVec 3 a), M.mulVec (offAxis (rowVec 3 a))]).det
  · left
    refine ⟨by simpa using hs, fun w hw => ?_⟩
    exact pos_of_mul_pos_right (key w hw) hs
  · right
    refine ⟨by simpa using hs, fun w hw => ?_⟩
    have := key w hw
    push Not at hs
    by_contra hc
    push Not at hc
    nlinarith

example : operatorAxis ⟨3, 3, [0, 0, 1, 1, 0, 0, 0, 1, 0]⟩ = .ok (some [1, 1, 1]) ∧
    ∃ d, OperatorDetails.from ⟨3, 3, [0, 0, 1, 1, 0, 0, 0, 1, 0]⟩ = .ok d ∧ d.isClockwise = true ∧ d.order = 3 :=
  ⟨by decide +kernel, ⟨⟨3, 3, [0, 0, 1, 1, 0, 0, 0, 1, 0]⟩, 3, some [1, 1, 1], 3, true, true⟩, by decide +kernel, rfl, rfl⟩

/-- **C57** `are_collinear` holds exactly for pairs of vectors one of which is a multiple of the other. -/
theorem C57_collinear {v w : List Rat} (hv : v.length = n) (hw : w.length = n) :
    ∃ b, areCollinear v w = .ok b ∧ (b = true ↔
      (∃ c : ℚ, rowVec n w = c • rowVec n v) ∨ (∃ c : ℚ, rowVec n v = c • rowVec n w)) := by
  refine ⟨_, areCollinear_ok hv hw, ?_⟩
  rw [decide_eq_true_eq]
  constructor
  · intro h
    by_cases hz : rowVec n v = 0
    · right; exact ⟨0, by rw [hz, zero_smul]⟩
    · left
      have : ∃ i, rowVec n v i ≠ 0 := by
        by_contra hc; push Not at hc; exact hz (funext hc)
      obtain ⟨i, hi⟩ := this
      refine ⟨rowVec n w i / rowVec n v i, funext fun j => ?_⟩
      rw [Pi.smul_apply, smul_eq_mul, div_mul_eq_mul_div, eq_div_iff hi]
      linarith [h i j]
  · rintro (⟨c, hc⟩ | ⟨c, hc⟩) i j
    · rw [hc]; simp; ring
    · rw [hc]; simp; ring

/-- **C57** `are_orthogonal` holds exactly if the standard scalar product is zero. -/
theorem C57_orthogonal {v w : List Rat} (hv : v.length = n) (hw : w.length = n) :
    areOrthogonal v w = .ok (decide (rowVec n v ⬝ᵥ rowVec n w = 0)) := by
  unfold areOrthogonal
  rw [bind_ok (dot_ok hv hw)]

/-! ## C65 -/

/-- **C65** For the matrices of a finite group, listed without repetition, `crystal_system_and_basis_2d`
returns a right-handed basis of the plane and the crystal system: hexagonal if there is a rotation of order
three, square if there is one of order four, otherwise rectangular if there is a mirror and oblique if there is
none. The first basis vector is fixed by a mirror if there is one. In a rectangular group every operator maps
both basis vectors to themselves or their opposites. In square and hexagonal groups the second basis vector is
the first one turned by an operator of order four, or of order six whose opposite is in the group. -/
theorem C65_crystal_system_2d {ops : List (Mat Rat)} {Ms : List (Matrix (Fin 2) (Fin 2) ℚ)}
    (hops : List.Forall₂ (fun m M => Rep m M) ops Ms) (hg : IsFiniteGroup Ms) :
    ∃ s x y X Y, crystalSystemAndBasis2d ops = .ok (s, [x, y]) ∧ IsVec ⟨x⟩ X ∧ IsVec ⟨y⟩ Y ∧
      0 < (Matrix.of ![X, Y]).det ∧
      (s = .hexagonal ↔ ∃ M ∈ Ms, orderOf M = 3) ∧
      (s = .square ↔ ∃ M ∈ Ms, orderOf M = 4) ∧
      (s = .rectangular ↔ (∀ M ∈ Ms, orderOf M ≤ 2) ∧ ∃ M ∈ Ms, M.det = -1) ∧
      (s = .oblique ↔ ∀ M ∈ Ms, orderOf M ≤ 2 ∧ M.det = 1) ∧
      ((∃ M ∈ Ms, M.det = -1) → ∃ M ∈ Ms, M.det = -1 ∧ M.mulVec X = X) ∧
      (s = .rectangular → ∀ M ∈ Ms, (M.mulVec X = X ∨ M.mulVec X = -X) ∧ (M.mulVec Y = Y ∨ M.mulVec Y = -Y)) ∧
      (s = .square ∨ s = .hexagonal → ∃ R : Matrix (Fin 2) (Fin 2) ℚ, Y = R.mulVec X ∧
        orderOf R = (if s = .square then 4 else 6) ∧ -R ∈ Ms) := by
  have hnt : ¬ TwinMirrors Ms := by
    rintro ⟨-, M, rest, h⟩
    have := hg.nodup.filter (fun M => decide (M.det < 0))
    rw [h] at this
    simp at this
  obtain ⟨s, x, y, X, Y, h, hx, hy, a⟩ := crystal_main hg.toIsFiniteGroupSet hnt hops
  exact ⟨s, x, y, X, Y, h, hx, hy, a.right, a.hexagonal, a.square, a.rectangular, a.oblique, a.mirror, a.axes, a.turn⟩

/-- C65 for lists with repetitions, as `identitify_spacegroup_2d` passes them on for centred groups: everything holds
unless there is no rotation of order above two and the first two mirrors in the list are equal. In that case the
system is still right, but the two vectors are parallel. -/
theorem C65_repeated {ops : List (Mat Rat)} {Ms : List (Matrix (Fin 2) (Fin 2) ℚ)}
    (hops : List.Forall₂ (fun m M => Rep m M) ops Ms) (hg : IsFiniteGroupSet Ms) :
    (¬ TwinMirrors Ms → ∃ s x y X Y, crystalSystemAndBasis2d ops = .ok (s, [x, y]) ∧ IsVec ⟨x⟩ X ∧ IsVec ⟨y⟩ Y ∧
      0 < (Matrix.of ![X, Y]).det ∧
      (s = .hexagonal ↔ ∃ M ∈ Ms, orderOf M = 3) ∧
      (s = .square ↔ ∃ M ∈ Ms, orderOf M = 4) ∧
      (s = .rectangular ↔ (∀ M ∈ Ms, orderOf M ≤ 2) ∧ ∃ M ∈ Ms, M.det = -1) ∧
      (s = .oblique ↔ ∀ M ∈ Ms, orderOf M ≤ 2 ∧ M.det = 1) ∧
      ((∃ M ∈ Ms, M.det = -1) → ∃ M ∈ Ms, M.det = -1 ∧ M.mulVec X = X) ∧
      (s = .rectangular → ∀ M ∈ Ms, (M.mulVec X = X ∨ M.mulVec X = -X) ∧ (M.mulVec Y = Y ∨ M.mulVec Y = -Y)) ∧
      (s = .square ∨ s = .hexagonal → ∃ R : Matrix (Fin 2) (Fin 2) ℚ, Y = R.mulVec X ∧
        orderOf R = (if s = .square then 4 else 6) ∧ -R ∈ Ms)) ∧
    (TwinMirrors Ms → ∃ x y X Y, crystalSystemAndBasis2d ops = .ok (.rectangular, [x, y]) ∧ IsVec ⟨x⟩ X ∧ IsVec ⟨y⟩ Y ∧
      (∃ M ∈ Ms, M.det = -1 ∧ M.mulVec X = X) ∧ X ≠ 0 ∧ Y ≠ 0 ∧ (Matrix.of ![X, Y]).det = 0) := by
  refine ⟨fun hnt => ?_, fun ht => crystal_twin hg ht hops⟩
  obtain ⟨s, x, y, X, Y, h, hx, hy, a⟩ := crystal_main hg hnt hops
  exact ⟨s, x, y, X, Y, h, hx, hy, a.right, a.hexagonal, a.square, a.rectangular, a.oblique, a.mirror, a.axes, a.turn⟩

/-- The group of order six with three mirrors and rotations of order three: the hypotheses are met. -/
def p3m1 : List (Matrix (Fin 2) (Fin 2) ℚ) :=
  [!![1, 0; 0, 1], !![0, -1; 1, -1], !![-1, 1; -1, 0], !![0, -1; -1, 0], !![-1, 1; 0, 1], !![1, 0; 1, -1]]

example : IsFiniteGroup p3m1 := by
  refine ⟨⟨by simp [p3m1], by decide +kernel, by decide +kernel⟩, by decide +kernel⟩

/-- the hypotheses of `C65_repeated` are met in both cases -/
example : IsFiniteGroupSet (p3m1 ++ p3m1) := ⟨by simp [p3m1], by decide +kernel, by decide +kernel⟩
example : IsFiniteGroupSet ([!![1, 0; 0, 1], !![1, 0; 0, 1], !![-1, 0; 0, 1], !![-1, 0; 0, 1]] :
    List (Matrix (Fin 2) (Fin 2) ℚ)) := ⟨by simp, by decide +kernel, by decide +kernel⟩
example : TwinMirrors ([!![1, 0; 0, 1], !![1, 0; 0, 1], !![-1, 0; 0, 1], !![-1, 0; 0, 1]] :
    List (Matrix (Fin 2) (Fin 2) ℚ)) := by
  refine ⟨fun M hM => orderOf_le_of_pow_eq_one (by norm_num) ?_, !![-1, 0; 0, 1], [], by decide +kernel⟩
  revert M
  decide +kernel

example : crystalSystemAndBasis2d [⟨2, 2, [1, 0, 0, 1]⟩, ⟨2, 2, [0, -1, 1, -1]⟩, ⟨2, 2, [-1, 1, -1, 0]⟩,
      ⟨2, 2, [0, -1, -1, 0]⟩, ⟨2, 2, [-1, 1, 0, 1]⟩, ⟨2, 2, [1, 0, 1, -1]⟩] =
    .ok (.hexagonal, [⟨2, 1, [1, -1]⟩, ⟨2, 1, [2, 1]⟩]) := by decide +kernel

/-- **C65 refuted** for the linear parts of a centred group, in which each of them appears twice, as
`identitify_spacegroup_2d` passes them on: here both basis vectors are the axis of the same mirror. -/
theorem C65_repeated_refuted :
    crystalSystemAndBasis2d [⟨2, 2, [1, 0, 0, 1]⟩, ⟨2, 2, [1, 0, 0, 1]⟩, ⟨2, 2, [-1, 0, 0, 1]⟩, ⟨2, 2, [-1, 0, 0, 1]⟩] =
      .ok (.rectangular, [⟨2, 1, [0, 1]⟩, ⟨2, 1, [0, 1]⟩]) := by decide +kernel

end Systre
