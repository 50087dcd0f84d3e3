import Verif.Lemmas.DirichletFamily
import Verif.Lemmas.RationalLattice
import Mathlib.LinearAlgebra.Matrix.Notation

/-!
# Properties C48–C52: lattices

The scalar product is any function that computes a positive definite symmetric bilinear form on vectors of
the right length (`IsDot`); `epsilon` is zero, which is what `Coord::epsilon` is for rationals
(types.rs:41-43). Loops: the result is the same for every sufficiently large amount of fuel, that is, the
loop ends.
-/

namespace Systre.Lattices
open Systre

variable {d : Nat} {dot : List Rat → List Rat → Rat}

/-! ### a scalar product for the examples -/

/-- the usual scalar product in the plane and in space -/
def stdDot (v w : List Rat) : Rat := rent v 0 * rent w 0 + rent v 1 * rent w 1 + rent v 2 * rent w 2

theorem stdDot_isDot : IsDot 3 stdDot := by
  refine ⟨1, Matrix.isSymm_one, ?_, ?_⟩
  · intro x hx
    obtain ⟨i, hi⟩ := Function.ne_iff.1 hx
    rw [Matrix.one_mulVec, dotProduct]
    apply Finset.sum_pos' (fun j _ => mul_self_nonneg _)
    exact ⟨i, Finset.mem_univ _, lt_of_le_of_ne (mul_self_nonneg _) (Ne.symm (mul_self_ne_zero.2 hi))⟩
  · intro v w _ _
    rw [Matrix.one_mulVec, dotProduct, Fin.sum_univ_three]
    rfl

/-- a scalar product of the plane that is not the usual one -/
def hexDot (v w : List Rat) : Rat :=
  rent v 0 * rent w 0 + rent v 1 * rent w 1 - (rent v 0 * rent w 1 + rent v 1 * rent w 0) / 2

theorem hexDot_isDot : IsDot 2 hexDot := by
  refine ⟨!![1, -1 / 2; -1 / 2, 1], by ext i j; fin_cases i <;> fin_cases j <;> rfl, ?_, ?_⟩
  · intro x hx
    have e : x ⬝ᵥ (!![1, -1 / 2; -1 / 2, 1] : Matrix (Fin 2) (Fin 2) ℚ).mulVec x =
        (x 0 - x 1 / 2) ^ 2 + 3 / 4 * x 1 ^ 2 := by
      simp [Matrix.mulVec, dotProduct, Fin.sum_univ_two]; ring
    rw [e]
    by_cases h1 : x 1 = 0
    · have h0 : x 0 ≠ 0 := by
        intro h0
        apply hx
        funext i
        fin_cases i
        · exact h0
        · exact h1
      have : 0 < x 0 ^ 2 := by positivity
      rw [h1]; simpa using this
    · positivity
  · intro v w _ _
    simp [Matrix.mulVec, dotProduct, Fin.sum_univ_two, rowVec_apply, hexDot]; ring

/-! ### C48 -/

/-- **C48** The 2d reduction ends and gives an obtuse superbase `a`, `b`, `-(a+b)` of the same lattice. -/
theorem C48_lagrange (h : IsDot d dot) {u v : List Rat} (hu : u.length = d) (hv : v.length = d)
    (hi : Indep d [u, v]) :
    ∃ N a b, (∀ fuel, N ≤ fuel → lagrangeReduced fuel u v dot 0 = .ok (a, b)) ∧ a.length = d ∧ b.length = d ∧
      latticeOf d [a, b] = latticeOf d [u, v] ∧ Indep d [a, b] ∧
      dot a b ≤ 0 ∧ 0 ≤ dot a (vAdd a b) ∧ 0 ≤ dot b (vAdd a b) :=
  lagrange_ok h hu hv hi

/-- **C48** what `dirichlet_vectors` returns in the plane -/
theorem C48_dirichlet (h : IsDot 2 dot) {u v : List Rat} (hu : u.length = 2) (hv : v.length = 2)
    (hi : Indep 2 [u, v]) :
    ∃ N a b c, (∀ fuel, N ≤ fuel → dirichletVectors fuel [u, v] dot 0 = .ok [a, b, c]) ∧
      a.length = 2 ∧ b.length = 2 ∧ c.length = 2 ∧ rowVec 2 c = rowVec 2 a + rowVec 2 b ∧
      latticeOf 2 [a, b] = latticeOf 2 [u, v] ∧ dot a b ≤ 0 ∧ 0 ≤ dot a c ∧ 0 ≤ dot b c := by
  obtain ⟨N, a, b, h1, h2, h3, h4, -, h5⟩ := lagrange_ok h hu hv hi
  refine ⟨N, a, b, vAdd a b, ?_, h2, h3, by rw [vAdd_length, h2], rv_add h2, h4, h5⟩
  intro fuel hf
  simp [dirichletVectors, h1 fuel hf, hu, hv, rassert]

theorem indep_two {u v : List Rat} (hne : ∀ s t : ℚ, s • rowVec d u + t • rowVec d v = 0 → s = 0 ∧ t = 0) :
    Indep d [u, v] := by
  rw [indep_pair, LinearIndependent.pair_iff]; exact hne

example : Indep 2 [[1, 0], [5, 1]] := by
  apply indep_two
  intro s t h
  have h0 := congrFun h 0
  have h1 := congrFun h 1
  simp [rowVec] at h0 h1
  subst h1
  simpa using h0

example : lagrangeReduced 10 [1, 0] [5, 1] hexDot 0 = .ok ([0, 1], [1, 0]) := by decide +kernel
example : latticeOf 2 [[1, 0], [5, 1]] ≠ ⊥ := by
  intro h
  have := latticeOf_mem (d := 2) (vs := [[1, 0], [5, 1]]) (v := [1, 0]) (by simp)
  rw [h, Submodule.mem_bot] at this
  have := congrFun this 0
  simp [rowVec] at this

/-! ### C49 -/

/-- **C49** The 3d reduction ends and gives an obtuse superbase of the same lattice. -/
theorem C49_selling (h : IsDot d dot) {u v w : List Rat} (hu : u.length = d) (hv : v.length = d)
    (hw : w.length = d) (hi : Indep d [u, v, w]) :
    ∃ N a b c, (∀ fuel, N ≤ fuel → sellingReduced fuel u v w dot 0 = .ok (a, b, c)) ∧
      a.length = d ∧ b.length = d ∧ c.length = d ∧ latticeOf d [a, b, c] = latticeOf d [u, v, w] ∧
      Indep d [a, b, c] ∧ dot a b ≤ 0 ∧ dot a c ≤ 0 ∧ dot b c ≤ 0 ∧
      ∀ s, s.length = d → rowVec d s = -(rowVec d a + rowVec d b + rowVec d c) →
        dot a s ≤ 0 ∧ dot b s ≤ 0 ∧ dot c s ≤ 0 := by
  obtain ⟨N, a, b, c, h1, h2, h3, h4, h5, h6, h7, h8, h9, h10, h11⟩ := selling_ok h hu hv hw
  refine ⟨N, a, b, c, h1, h2, h3, h4, h5, indep_of_lattice h5 rfl hi, h6, h7, h8, ?_⟩
  intro s hs he
  have : s = vNeg (vAdd (vAdd a b) c) := by
    refine rv_inj hs (by rw [vNeg_length, vAdd_length, vAdd_length, h2]) ?_
    rw [he, rv_neg, rv_add (by rw [vAdd_length, h2]), rv_add h2]
  subst this
  exact ⟨h9, h10, h11⟩

/-- **C49** what `dirichlet_vectors` returns in space -/
theorem C49_dirichlet (h : IsDot 3 dot) {u v w : List Rat} (hu : u.length = 3) (hv : v.length = 3)
    (hw : w.length = 3) (hi : Indep 3 [u, v, w]) :
    ∃ N a b c ab ac bc abc, (∀ fuel, N ≤ fuel →
        dirichletVectors fuel [u, v, w] dot 0 = .ok [a, b, c, ab, ac, bc, abc]) ∧
      (∀ x ∈ [a, b, c, ab, ac, bc, abc], x.length = 3) ∧
      rowVec 3 ab = rowVec 3 a + rowVec 3 b ∧ rowVec 3 ac = rowVec 3 a + rowVec 3 c ∧
      rowVec 3 bc = rowVec 3 b + rowVec 3 c ∧ rowVec 3 abc = rowVec 3 a + rowVec 3 b + rowVec 3 c ∧
      latticeOf 3 [a, b, c] = latticeOf 3 [u, v, w] ∧ Indep 3 [a, b, c] ∧
      dot a b ≤ 0 ∧ dot a c ≤ 0 ∧ dot b c ≤ 0 ∧ 0 ≤ dot a abc ∧ 0 ≤ dot b abc ∧ 0 ≤ dot c abc := by
  have := dirichlet_three (le_refl (0 : ℚ)) h hu hv hw hi
  simpa only [neg_zero] using this

example : sellingReduced 20 [1, 0, 0] [0, 1, 0] [3, 5, 1] stdDot 0 = .ok ([1, 0, 0], [0, 1, 0], [0, 0, 1]) := by
  decide +kernel

/-! ### C50 -/

/-- **C50** In dimensions 1, 2 and 3 `reduced_lattice_basis` ends with a basis of the same lattice, ordered
by length, whose first vector makes no acute angle with the others. The lengths are the successive minima of
the lattice: each vector is as short as every lattice vector outside the span of the previous ones; the first
is a shortest nonzero vector (`k = 0`). -/
theorem C50_reduced_basis (hl3 : d = 1 ∨ d = 2 ∨ d = 3) (h : IsDot d dot) {vs : List (List Rat)}
    (hvs : vs.length = d) (hvl : ∀ v ∈ vs, v.length = d) (hi : Indep d vs) :
    ∃ N a, (∀ fuel, N ≤ fuel → reducedLatticeBasis fuel vs dot 0 = .ok (some a)) ∧
      a.length = d ∧ (∀ v ∈ a, v.length = d) ∧ latticeOf d a = latticeOf d vs ∧
      a.Pairwise (fun v w => dot v v ≤ dot w w) ∧
      (∀ a0 r, a = a0 :: r → ∀ v ∈ r, dot a0 v ≤ 0) ∧
      (∀ k v, a[k]? = some v → ∀ y, y.length = d → rowVec d y ∈ latticeOf d vs →
        rowVec d y ∉ Submodule.span ℚ (rowVec d '' {w | w ∈ a.take k}) → dot v v ≤ dot y y) := by
  obtain ⟨N, a, g1, g2, g3, g4, g5, g6, g7, -⟩ := basis_eps (le_refl (0 : ℚ)) hl3 h hvs hvl hi
    (fun y _ x _ => Or.inr (abs_nonneg x))
  exact ⟨N, a, g1, g2, g3, g4, g5, g6, g7 rfl⟩

/-- **C50** in particular the first vector is a shortest nonzero vector of the lattice -/
theorem C50_shortest (hl3 : d = 1 ∨ d = 2 ∨ d = 3) (h : IsDot d dot) {vs : List (List Rat)}
    (hvs : vs.length = d) (hvl : ∀ v ∈ vs, v.length = d) (hi : Indep d vs) :
    ∃ N a0 r, (∀ fuel, N ≤ fuel → reducedLatticeBasis fuel vs dot 0 = .ok (some (a0 :: r))) ∧
      rowVec d a0 ∈ latticeOf d vs ∧ rowVec d a0 ≠ 0 ∧
      ∀ y, y.length = d → rowVec d y ∈ latticeOf d vs → rowVec d y ≠ 0 → dot a0 a0 ≤ dot y y := by
  obtain ⟨N, a, h1, h2, h3, h4, -, -, h7⟩ := C50_reduced_basis hl3 h hvs hvl hi
  cases a with
  | nil => exfalso; simp at h2; omega
  | cons a0 r =>
    refine ⟨N, a0, r, h1, ?_, ?_, ?_⟩
    · rw [← h4]; exact latticeOf_mem (by simp)
    · have := indep_of_lattice h4 (by rw [h2, hvs]) hi
      exact this.ne_zero ⟨0, by simp⟩
    · intro y hy hym hy0
      refine h7 0 a0 rfl y hy hym ?_
      have he0 : {y : List Rat | y ∈ List.take 0 (a0 :: r)} = ∅ := by ext; simp
      rw [he0, Set.image_empty, Submodule.span_empty, Submodule.mem_bot]
      exact hy0

example : reducedLatticeBasis 20 [[1, 0], [5, 1]] hexDot 0 = .ok (some [[1, 1], [-1, 0]]) := by decide +kernel

/-! ### C51 -/

/-- **C51** The shift into the Dirichlet domain: the loop ends, the shift is an integer combination of the
given vectors, and the shifted point `q` satisfies `-|v|² ≤ 2 q·v ≤ |v|²` for each of them. -/
theorem C51_dirichlet_shift (h : IsDot d dot) {p : List Rat} (hp : p.length = d) {vs : List (List Rat)}
    (hl : ∀ v ∈ vs, v.length = d) (hne : ∀ v ∈ vs, rowVec d v ≠ 0) :
    ∃ N s, (∀ fuel, N ≤ fuel → shiftForDirichletDomain fuel p vs dot 0 = .ok s) ∧ s.length = d ∧
      rowVec d s ∈ latticeOf d vs ∧
      ∀ q, q.length = d → rowVec d q = rowVec d p + rowVec d s →
        ∀ v ∈ vs, -(dot v v) ≤ 2 * dot q v ∧ 2 * dot q v ≤ dot v v := by
  obtain ⟨N, s, h1, h2, h3, h4⟩ := shift_ok h hp hl hne
  refine ⟨N, s, h1, h2, h3, ?_⟩
  intro q hq he
  have : q = vAdd p s := rv_inj hq (by rw [vAdd_length, hp]) (by rw [he, rv_add hp])
  subst this
  exact h4

example : shiftForDirichletDomain 10 [7 / 3, 9 / 2, 0] [[1, 0, 0], [0, 2, 0], [1, 2, 0]] stdDot 0 =
    .ok [-2, -4, 0] := by decide +kernel

/-! ### C52 -/

/-- **C52** `rational_lattice_basis` returns `n` vectors that generate the integer vectors together with the
given ones. `m` is any common multiple of the denominators for which all numbers fit into `i32`. -/
theorem C52_rational_lattice {n : Nat} {vs : List (List Rat)} (hne : vs ≠ []) (hl : ∀ v ∈ vs, v.length = n)
    {m : ℕ} (hm : 0 < m) (hm2 : m ≤ 2147483647)
    (hx : ∀ v ∈ vs, ∀ x ∈ v, (∃ z : ℤ, x * m = z) ∧ |x * m| ≤ 2147483647) :
    ∃ bs, rationalLatticeBasis vs = .ok bs ∧ bs.length = n ∧ (∀ b ∈ bs, b.length = n) ∧ Indep n bs ∧
      latticeOf n bs = Submodule.span ℤ (integerVectors n ∪ rowVec n '' {v | v ∈ vs}) :=
  rational_ok hne hl hm hm2 hx

/-- **C52** the empty list is not handled: the code panics (`vectors[0]`) -/
theorem C52_empty : rationalLatticeBasis [] = .panic := rfl

example : rationalLatticeBasis [[1 / 2, 1 / 2], [1 / 3, 0]] = .ok [[-1 / 6, -1 / 2], [0, 1]] := by decide +kernel

end Systre.Lattices
