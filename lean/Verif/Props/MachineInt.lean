import Verif.Lemmas.MachineLattice
import Verif.Props.LinearAlgebra
import Verif.Props.Lattices

/-!
# C74: machine integers

`Machine.f (.debug w)` is the function `f` on integers of `w` bits in a build with overflow checks, where an overflow
panics; `Machine.f (.release w)` is the same in a build without them, where results wrap around. The functions of
`Verif/Model/LinearAlgebra.lean` have unbounded integers; C06-C15 and C52 say what these compute.
-/

namespace Systre
open Machine (IntKind Fits Small)

/-! ## C74 -/

/-- C74: `gcdx` on machine integers of `w` bits does not overflow, with or without checks, unless one of the numbers is
the smallest one (which has no negative). -/
theorem C74_gcdx (w : Nat) (hw : 0 < w) (a b : Int) (ha : |a| < 2 ^ (w - 1)) (hb : |b| < 2 ^ (w - 1)) :
    ∃ g r s t u, Machine.gcdx (.debug w) a b = .ok (g, r, s, t, u) ∧ Machine.gcdx (.release w) a b = .ok (g, r, s, t, u) ∧
      a * r + b * s = g ∧ a * t + b * u = 0 ∧ (r * u - s * t = 1 ∨ r * u - s * t = -1) ∧ g.natAbs = Int.gcd a b ∧
      |r| ≤ max 1 |b| ∧ |s| ≤ max 1 |a| ∧ |t| ≤ max 1 |b| ∧ |u| ≤ max 1 |a| := by
  obtain ⟨g, r, s, t, u, h1, -, h2, h3, h4, h5⟩ := Machine.gcdx_safe (N := max |a| |b|) (max_lt ha hb)
    (le_max_left _ _) (le_max_right _ _)
  obtain ⟨g', r', s', t', u', k1, k2, k3, k4, k5⟩ := C06_gcdx a b
  have h6 := Machine.ideal_gcdx a b
  rw [(Machine.le_gcdx (Machine.debug_below_ideal w) _ _).ok h1, k1] at h6
  have h7 := Outcome.ok.inj h6
  simp only [Prod.mk.injEq] at h7
  obtain ⟨rfl, rfl, rfl, rfl, rfl⟩ := h7
  exact ⟨g, r, s, t, u, h1, (Machine.le_gcdx (Machine.debug_below_release hw) _ _).ok h1, k2, k3, k4, k5, h2, h3, h4, h5⟩

example := C74_gcdx 32 (by norm_num) 2147483647 (-2147483646) (by norm_num) (by norm_num)
example : Machine.gcdx (.debug 8) 120 (-84) = .ok (-12, 2, 3, 7, 10) := by decide

/-- C74: with overflow checks, every integer function of linear_algebra.rs and `rational_lattice_basis` panics or
returns exactly what it returns for unbounded integers, and in the second case it does the same without the checks. -/
theorem C74_checked (w : Nat) (hw : 0 < w) (v : List Int) (bs : List (List Int)) (a b : Mat Int)
    (vs : List (List Rat)) :
    (Machine.extendBasis (.debug w) v bs = .panic ∨
      (Machine.extendBasis (.debug w) v bs = extendBasis v bs ∧ Machine.extendBasis (.release w) v bs = extendBasis v bs)) ∧
    (Machine.rank (.debug w) a = .panic ∨
      (Machine.rank (.debug w) a = rank a ∧ Machine.rank (.release w) a = rank a)) ∧
    (Machine.determinant (.debug w) a = .panic ∨
      (Machine.determinant (.debug w) a = determinant a ∧ Machine.determinant (.release w) a = determinant a)) ∧
    (Machine.reducedBasis (.debug w) a = .panic ∨
      (Machine.reducedBasis (.debug w) a = reducedBasis a ∧ Machine.reducedBasis (.release w) a = reducedBasis a)) ∧
    (Machine.solve (.debug w) a b = .panic ∨
      (Machine.solve (.debug w) a b = solve a b ∧ Machine.solve (.release w) a b = solve a b)) ∧
    (Machine.nullSpace (.debug w) a = .panic ∨
      (Machine.nullSpace (.debug w) a = nullSpace a ∧ Machine.nullSpace (.release w) a = nullSpace a)) ∧
    (Machine.inverse (.debug w) a = .panic ∨
      (Machine.inverse (.debug w) a = inverse a ∧ Machine.inverse (.release w) a = inverse a)) ∧
    (Machine.rationalLatticeBasis (.debug w) vs = .panic ∨
      (Machine.rationalLatticeBasis (.debug w) vs = Lattices.rationalLatticeBasis vs ∧
        Machine.rationalLatticeBasis (.release w) vs = Lattices.rationalLatticeBasis vs)) := by
  have key : ∀ {α : Type} {x y z : Outcome α}, Machine.Le x y → Machine.Le x z → x = .panic ∨ (x = y ∧ z = y) := by
    intro α x y z h h'
    rcases h with h | h
    · exact Or.inl h
    · rcases h' with h' | h'
      · exact Or.inl h'
      · exact Or.inr ⟨h, by rw [← h', h]⟩
  have d := Machine.debug_below_ideal w
  have r := Machine.debug_below_release hw
  refine ⟨key ?_ (Machine.le_extendBasis r _ _), key ?_ (Machine.le_rank r _), key ?_ (Machine.le_determinant r _),
    key ?_ (Machine.le_reducedBasis r _), key ?_ (Machine.le_solve r _ _), key ?_ (Machine.le_nullSpace r _),
    key ?_ (Machine.le_inverse r _), key ?_ (Machine.le_rational r _)⟩
  · rw [← Machine.ideal_extendBasis]; exact Machine.le_extendBasis d _ _
  · rw [← Machine.ideal_rank]; exact Machine.le_rank d _
  · rw [← Machine.ideal_determinant]; exact Machine.le_determinant d _
  · rw [← Machine.ideal_reducedBasis]; exact Machine.le_reducedBasis d _
  · rw [← Machine.ideal_solve]; exact Machine.le_solve d _ _
  · rw [← Machine.ideal_nullSpace]; exact Machine.le_nullSpace d _
  · rw [← Machine.ideal_inverse]; exact Machine.le_inverse d _
  · rw [← Machine.ideal_rational]; exact Machine.le_rational d _

example : Machine.extendBasis (.debug 32) [3, 5] [[2, 1]] = .ok [[-1, -4], [0, -7]] := by decide
example : Machine.determinant (.debug 32) ⟨4, 4, [0, 1, 0, 0, 1, 0, 0, 0, 0, 0, 2, 0, 0, 0, 5, 3]⟩ = .ok (-6) := by decide
example : Machine.solve (.debug 32) ⟨1, 2, [2, 3]⟩ ⟨1, 1, [1]⟩ = .ok (some ⟨2, 1, [2, -1]⟩) := by decide
example : Machine.solve (.debug 32) ⟨1, 1, [1]⟩ ⟨1, 1, [-2147483648]⟩ = .ok (some ⟨1, 1, [-2147483648]⟩) := by decide
example : Machine.nullSpace (.debug 32) ⟨1, 3, [2, 4, 6]⟩ = .ok (some ⟨3, 2, [1, 0, 1, 3, -1, -2]⟩) := by decide

/-- C74: one call of `extend_basis` with a basis of `n` rows and entries of absolute value at most `M` makes numbers
of at most `(2M)^n M`; if these fit there is no overflow. -/
theorem C74_extend_basis (w : Nat) (hw : 0 < w) (M : Int) (hM : 1 ≤ M) (v : List Int) (bs bs' : List (List Int))
    (hv : ∀ x ∈ v, |x| ≤ M) (hb : ∀ b ∈ bs, ∀ x ∈ b, |x| ≤ M) (hN : (2 * M) ^ bs.length * M < 2 ^ (w - 1))
    (h : extendBasis v bs = .ok bs') :
    Machine.extendBasis (.debug w) v bs = .ok bs' ∧ Machine.extendBasis (.release w) v bs = .ok bs' ∧
    ∀ b ∈ bs', ∀ x ∈ b, |x| ≤ (2 * M) ^ bs.length * M := by
  obtain ⟨h1, h2⟩ := Machine.extendBasis_safe hM bs v M hM hN hb hv bs' h
  refine ⟨h1, (Machine.le_extendBasis (Machine.debug_below_release hw) _ _).ok h1, fun b hb' x hx => ?_⟩
  refine (h2 b hb' x hx).trans (max_le ?_ (le_refl _))
  have : 1 ≤ (2 * M) ^ bs.length := one_le_pow₀ (by linarith)
  nlinarith

example : Machine.extendBasis (.debug 32) [812, -811] [[-810, 811], [0, 812]] = .ok [[-2, 0], [0, 1]] := by decide
example := C74_extend_basis 32 (by norm_num) 812 (by norm_num) [812, -811] [[-810, 811], [0, 812]] _
  (by decide) (by decide) (by norm_num) (show extendBasis [812, -811] [[-810, 811], [0, 812]] = .ok [[-2, 0], [0, 1]] by decide)

theorem rows_small {r c : Nat} {m : Mat Int} {A : Matrix (Fin r) (Fin c) Int} (hm : Rep m A) {M : Int}
    (hA : ∀ i j, |A i j| ≤ M) {rows : List (List Int)} (h : m.getRows = .ok rows) :
    rows.length = r ∧ ∀ v ∈ rows, Small M v := by
  rw [Mat.getRows_eq hm.wf] at h
  obtain rfl := Outcome.ok.inj h
  refine ⟨by simp [hm.rows], fun v hv => ?_⟩
  obtain ⟨i, hi, rfl⟩ := List.mem_map.1 hv
  rw [List.mem_range, hm.rows] at hi
  intro x hx
  obtain ⟨j, hj, rfl⟩ := List.mem_map.1 hx
  rw [List.mem_range, hm.cols] at hj
  rw [hm.ent ⟨i, hi⟩ ⟨j, hj⟩]
  exact hA _ _

/-- C74: `rank` on machine integers is the rank if the entries are small: there is no overflow as long as the bound
`Machine.growth` for the entries of the basis fits. -/
theorem C74_rank (w : Nat) (hw : 0 < w) {r c M : Nat} (hM : 1 ≤ M) {m : Mat Int} {A : Matrix (Fin r) (Fin c) Int}
    (hm : Rep m A) (hA : ∀ i j, |A i j| ≤ M) (hN : Machine.growth M r < 2 ^ (w - 1)) :
    Machine.rank (.debug w) m = .ok (A.map (Int.cast : Int → Rat)).rank ∧
    Machine.rank (.release w) m = .ok (A.map (Int.cast : Int → Rat)).rank := by
  have h := (C08_rank_int hm).1
  obtain ⟨bs, h1, h2⟩ := Outcome.bind_eq_ok.1 h
  obtain ⟨rows, h3, h4⟩ := Outcome.bind_eq_ok.1 h1
  obtain ⟨hl, hs⟩ := rows_small hm hA h3
  have h5 := Machine.extendAll_safe (w := w) hM rows [] 0 (le_refl _) (by rw [Nat.zero_add, hl]; exact hN)
    (fun b hb => absurd hb (by simp)) hs bs h4
  have h6 : Machine.rank (.debug w) m = .ok (A.map (Int.cast : Int → Rat)).rank := by
    unfold Machine.rank Machine.rowBasis
    rw [h3, Outcome.ok_bind, h5, Outcome.ok_bind]
    exact h2
  exact ⟨h6, (Machine.le_rank (Machine.debug_below_release hw) _).ok h6⟩

/-- C74: for instance up to three rows of 32 bit numbers between -42 and 42. -/
theorem C74_rank_i32 {r c : Nat} (hr : r ≤ 3) {m : Mat Int} {A : Matrix (Fin r) (Fin c) Int} (hm : Rep m A)
    (hA : ∀ i j, |A i j| ≤ 42) :
    Machine.rank (.debug 32) m = .ok (A.map (Int.cast : Int → Rat)).rank ∧
    Machine.rank (.release 32) m = .ok (A.map (Int.cast : Int → Rat)).rank := by
  refine C74_rank 32 (by norm_num) (M := 42) (by norm_num) hm hA ?_
  interval_cases r <;> decide

example : Machine.rank (.debug 32) ⟨3, 3, [42, 41, 1, 40, -42, 3, 2, 40, -2]⟩ = .ok 3 := by decide
example :=
  (C74_rank_i32 (r := 3) (c := 3) (by norm_num) (m := ⟨3, 3, [42, 41, 1, 40, -42, 3, 2, 40, -2]⟩)
    (A := !![42, 41, 1; 40, -42, 3; 2, 40, -2]) ⟨rfl, rfl, rfl, by decide, by decide⟩ (by decide)).1

/-- C74: determinants of size at most 3. -/
theorem C74_determinant (w : Nat) (hw : 0 < w) {n : Nat} (hn : n ≤ 3) {m : Mat Int} {A : Matrix (Fin n) (Fin n) Int}
    (hm : Rep m A) (M : Int) (hM : 1 ≤ M) (hA : ∀ i j, |A i j| ≤ M) (hN : 6 * M ^ 3 < 2 ^ (w - 1)) :
    Machine.determinant (.debug w) m = .ok A.det ∧ Machine.determinant (.release w) m = .ok A.det := by
  have h6 : Machine.determinant (.debug w) m = .ok A.det := by
    have h2 : ∀ x y : Int, |x| ≤ M → |y| ≤ M → |x * y| ≤ M ^ 2 := fun x y hx hy => by
      rw [abs_mul, pow_two]; exact mul_le_mul hx hy (abs_nonneg _) (by linarith)
    have h3 : ∀ x y z : Int, |x| ≤ M → |y| ≤ M → |z| ≤ M → |x * y * z| ≤ M ^ 3 := fun x y z hx hy hz => by
      rw [abs_mul, pow_succ]; exact mul_le_mul (h2 x y hx hy) hz (abs_nonneg _) (by positivity)
    have p2 : M ^ 2 ≤ M ^ 3 := pow_le_pow_right₀ hM (by norm_num)
    have m3 : ∀ x y z : Int, |x| ≤ M → |y| ≤ M → |z| ≤ M → Machine.mul3 (.debug w) x y z = .ok (x * y * z) :=
      fun x y z hx hy hz => by
        have p3 : 0 ≤ M ^ 3 := by positivity
        unfold Machine.mul3
        rw [Machine.res_of_abs hN ((h2 x y hx hy).trans (by linarith)), Outcome.ok_bind,
          Machine.res_of_abs hN ((h3 x y z hx hy hz).trans (by linarith))]
    have p3 : 0 ≤ M ^ 3 := by positivity
    unfold Machine.determinant
    rw [if_neg (by simp [hm.rows, hm.cols])]
    have e := fun i j : Fin n => hm.entry i j
    rw [hm.rows]
    match n, A, e, hA with
    | 0, A, e, hA => simp
    | 1, A, e, hA =>
      have a := e 0 0
      simp only [Fin.val_zero] at a
      simp [a]
    | 2, A, e, hA =>
      have a := e 0 0
      have b := e 0 1
      have c := e 1 0
      have d := e 1 1
      simp only [Fin.val_zero, Fin.val_one] at a b c d
      simp only [a, b, c, d, Outcome.ok_bind, Matrix.det_fin_two]
      unfold Machine.mulSubMul
      have q1 := h2 _ _ (hA 0 0) (hA 1 1)
      have q2 := h2 _ _ (hA 0 1) (hA 1 0)
      rw [Machine.res_of_abs hN (q1.trans (by linarith)), Outcome.ok_bind,
        Machine.res_of_abs hN (q2.trans (by linarith)), Outcome.ok_bind,
        Machine.res_of_abs hN ((abs_sub _ _).trans (by linarith))]
    | 3, A, e, hA =>
      have a := e 0 0
      have b := e 0 1
      have c := e 0 2
      have a1 := e 1 0
      have b1 := e 1 1
      have c1 := e 1 2
      have a2 := e 2 0
      have b2 := e 2 1
      have c2 := e 2 2
      simp only [Fin.val_zero, Fin.val_one, Fin.val_two] at a b c a1 b1 c1 a2 b2 c2
      simp only [a, b, c, a1, b1, c1, a2, b2, c2, Outcome.ok_bind, Matrix.det_fin_three]
      have q1 := h3 _ _ _ (hA 0 0) (hA 1 1) (hA 2 2)
      have q2 := h3 _ _ _ (hA 0 1) (hA 1 2) (hA 2 0)
      have q3 := h3 _ _ _ (hA 0 2) (hA 1 0) (hA 2 1)
      have q4 := h3 _ _ _ (hA 0 2) (hA 1 1) (hA 2 0)
      have q5 := h3 _ _ _ (hA 0 0) (hA 1 2) (hA 2 1)
      have q6 := h3 _ _ _ (hA 0 1) (hA 1 0) (hA 2 2)
      rw [m3 _ _ _ (hA _ _) (hA _ _) (hA _ _), Outcome.ok_bind, m3 _ _ _ (hA _ _) (hA _ _) (hA _ _), Outcome.ok_bind]
      have s1 := (abs_add_le _ _).trans (add_le_add q1 q2)
      have s2 := (abs_add_le _ _).trans (add_le_add s1 q3)
      have s3 := (abs_sub _ _).trans (add_le_add s2 q4)
      have s4 := (abs_sub _ _).trans (add_le_add s3 q5)
      have s5 := (abs_sub _ _).trans (add_le_add s4 q6)
      rw [Machine.res_of_abs hN (s1.trans (by linarith)), Outcome.ok_bind,
        m3 _ _ _ (hA _ _) (hA _ _) (hA _ _), Outcome.ok_bind,
        Machine.res_of_abs hN (s2.trans (by linarith)), Outcome.ok_bind,
        m3 _ _ _ (hA _ _) (hA _ _) (hA _ _), Outcome.ok_bind,
        Machine.res_of_abs hN (s3.trans (by linarith)), Outcome.ok_bind,
        m3 _ _ _ (hA _ _) (hA _ _) (hA _ _), Outcome.ok_bind,
        Machine.res_of_abs hN (s4.trans (by linarith)), Outcome.ok_bind,
        m3 _ _ _ (hA _ _) (hA _ _) (hA _ _), Outcome.ok_bind,
        Machine.res_of_abs hN (s5.trans (by linarith))]
      congr 1; ring
    | n + 4, A, e, hA => omega
  exact ⟨h6, (Machine.le_determinant (Machine.debug_below_release hw) _).ok h6⟩

example : Machine.determinant (.debug 32) ⟨3, 3, [700, 1, 2, 3, 700, 5, 6, 7, -700]⟩ =
    .ok (Matrix.det !![700, 1, 2; 3, 700, 5; 6, 7, -700]) :=
  (C74_determinant 32 (by norm_num) (n := 3) (by norm_num) (m := ⟨3, 3, [700, 1, 2, 3, 700, 5, 6, 7, -700]⟩)
    (A := !![700, 1, 2; 3, 700, 5; 6, 7, -700]) ⟨rfl, rfl, rfl, by decide, by decide⟩ 700 (by norm_num) (by decide) (by norm_num)).1

/-- C74, C52: `rational_lattice_basis` has no overflow if the bound `Machine.growthIn` fits. -/
theorem C74_rational_lattice {n M : Nat} {vs : List (List Rat)} (hne : vs ≠ []) (hl : ∀ v ∈ vs, v.length = n)
    {m : ℕ} (hm : 0 < m) (hm2 : m ≤ M)
    (hx : ∀ v ∈ vs, ∀ x ∈ v, (∃ z : ℤ, x * m = z) ∧ |x * m| ≤ M) (hN : Machine.growthIn n M vs.length < 2 ^ 31) :
    ∃ bs, Machine.rationalLatticeBasis (.debug 32) vs = .ok bs ∧ Machine.rationalLatticeBasis (.release 32) vs = .ok bs ∧
      bs.length = n ∧ (∀ b ∈ bs, b.length = n) ∧ Indep n bs ∧
      latticeOf n bs = Submodule.span ℤ (integerVectors n ∪ rowVec n '' {v | v ∈ vs}) := by
  have hM : M ≤ 2147483647 := by
    have := Machine.growthIn_mono n M 0 vs.length
    simp only [Machine.growthIn, Nat.zero_add] at this
    omega
  obtain ⟨bs, h1, h2⟩ := Lattices.C52_rational_lattice hne hl hm (hm2.trans hM) (fun v hv x hxv =>
    ⟨(hx v hv x hxv).1, (hx v hv x hxv).2.trans (by exact_mod_cast hM)⟩)
  have h3 := Machine.rational_safe hl hm hm2 hx (w := 32) hN h1
  exact ⟨bs, h3, (Machine.le_rational (Machine.debug_below_release (by norm_num)) _).ok h3, h2⟩

example : Machine.rationalLatticeBasis (.debug 32) [[1 / 2, 1 / 4, 3 / 4]] = .ok [[-1 / 2, -1 / 4, -3 / 4], [0, 1 / 2, 3 / 2], [0, 0, 1]] := by
  decide +kernel
example :=
  C74_rational_lattice (n := 3) (M := 127) (vs := [[1 / 2, 1 / 4, 3 / 4]]) (by simp) (by simp) (m := 4) (by norm_num) (by norm_num)
    (by
      intro v hv x hx
      obtain rfl := List.mem_singleton.1 hv
      simp only [List.mem_cons, List.not_mem_nil, or_false] at hx
      rcases hx with rfl | rfl | rfl
      · exact ⟨⟨2, by norm_num⟩, by norm_num⟩
      · exact ⟨⟨1, by norm_num⟩, by norm_num⟩
      · exact ⟨⟨3, by norm_num⟩, by norm_num⟩) (by decide)

/-- C52: with overflow checks the basis is right or the call panics, whatever the numbers are. -/
theorem C52_checked_partial {n : Nat} {vs : List (List Rat)} (hl : ∀ v ∈ vs, v.length = n) :
    Machine.rationalLatticeBasis (.debug 32) vs = .panic ∨
    ∃ bs, Machine.rationalLatticeBasis (.debug 32) vs = .ok bs ∧ Machine.rationalLatticeBasis (.release 32) vs = .ok bs ∧
      bs.length = n ∧ (∀ b ∈ bs, b.length = n) ∧ Indep n bs ∧
      latticeOf n bs = Submodule.span ℤ (integerVectors n ∪ rowVec n '' {v | v ∈ vs}) := by
  obtain ⟨-, -, -, -, -, -, -, h⟩ := C74_checked 32 (by norm_num) [] [] ⟨0, 0, []⟩ ⟨0, 0, []⟩ vs
  rcases h with h | ⟨h1, h2⟩
  · exact Or.inl h
  · cases h3 : Lattices.rationalLatticeBasis vs with
    | ok bs =>
      rw [h3] at h1 h2
      exact Or.inr ⟨bs, h1, h2, Lattices.rational_of_ok hl h3⟩
    | panic => rw [h3] at h1; exact Or.inl h1
    | diverge => exact absurd h3 (Machine.rational_not_diverge hl)

/-- C52: without overflow checks the lattice can be wrong. In this example all coordinates are fractions with
denominator 18 between 0 and 1. For every vector of the lattice that is asked for `6 (x - y + z)` is an integer; this
is not so for the vector (0, 0, 1/18) which is in the result. With checks the call panics. -/
theorem C52_overflow_refuted :
    Machine.rationalLatticeBasis (.debug 32)
      [[14/18, 15/18, 10/18], [7/18, 0, 2/18], [16/18, 1/18, 3/18], [6/18, 16/18, 4/18]] = .panic ∧
    (∃ bs, Machine.rationalLatticeBasis (.release 32)
      [[14/18, 15/18, 10/18], [7/18, 0, 2/18], [16/18, 1/18, 3/18], [6/18, 16/18, 4/18]] = .ok bs ∧ [0, 0, 1/18] ∈ bs) ∧
    rowVec 3 [0, 0, 1/18] ∉ Submodule.span ℤ (integerVectors 3 ∪ rowVec 3 ''
      {v | v ∈ [[14/18, 15/18, 10/18], [7/18, 0, 2/18], [16/18, 1/18, 3/18], [6/18, 16/18, 4/18]]}) := by
  refine ⟨by decide +kernel, ⟨[[-1/18, 10, 59/9], [0, -1/18, 3793949/18], [0, 0, 1/18]], by decide +kernel, by decide +kernel⟩, ?_⟩
  intro h
  have key : ∀ x ∈ Submodule.span ℤ (integerVectors 3 ∪ rowVec 3 ''
      {v : List Rat | v ∈ [[14/18, 15/18, 10/18], [7/18, 0, 2/18], [16/18, 1/18, 3/18], [6/18, 16/18, 4/18]]}),
      ∃ z : ℤ, 6 * (x 0 - x 1 + x 2) = z := by
    intro x hx
    induction hx using Submodule.span_induction with
    | mem x hx =>
      rcases hx with ⟨z, hz⟩ | ⟨v, hv, rfl⟩
      · exact ⟨6 * (z 0 - z 1 + z 2), by rw [hz, hz, hz]; push_cast; ring⟩
      · simp only [Set.mem_ofPred_eq, List.mem_cons, List.not_mem_nil, or_false] at hv
        rcases hv with rfl | rfl | rfl | rfl
        · exact ⟨3, by norm_num [rowVec]⟩
        · exact ⟨3, by norm_num [rowVec]⟩
        · exact ⟨6, by norm_num [rowVec]⟩
        · exact ⟨-2, by norm_num [rowVec]⟩
    | zero => exact ⟨0, by simp⟩
    | add x y _ _ hx hy =>
      obtain ⟨a, ha⟩ := hx
      obtain ⟨b, hb⟩ := hy
      exact ⟨a + b, by push_cast; rw [← ha, ← hb]; simp only [Pi.add_apply]; ring⟩
    | smul c x _ hx =>
      obtain ⟨a, ha⟩ := hx
      exact ⟨c * a, by push_cast; rw [← ha]; simp only [Pi.smul_apply, zsmul_eq_mul]; ring⟩
  obtain ⟨z, hz⟩ := key _ h
  norm_num [rowVec] at hz
  have : (3 * z : ℤ) = 1 := by
    have : (3 * z : ℚ) = 1 := by rw [← hz]; norm_num
    exact_mod_cast this
  omega

/-- C74: the smallest number. -/
theorem C74_gcdx_smallest :
    Machine.gcdx (.debug 32) (-2147483648) 1 = .panic ∧ Machine.gcdx (.release 32) (-2147483648) (-1) = .panic := by
  decide

/-- C74: without overflow checks the rank of a 2x2 matrix can be wrong, with them it panics. -/
theorem C74_release_rank :
    Machine.rank (.release 32) ⟨2, 2, [1, 65536, 65536, 0]⟩ = .ok 1 ∧
    Machine.rank (.debug 32) ⟨2, 2, [1, 65536, 65536, 0]⟩ = .panic ∧
    rank (⟨2, 2, [1, 65536, 65536, 0]⟩ : Mat Int) = .ok 2 := by
  decide

end Systre
