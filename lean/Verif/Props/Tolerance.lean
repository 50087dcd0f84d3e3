import Verif.Props.Lattices

/-!
# Property C78: the tolerance of the lattice reductions

The public functions of `lattices.rs` take a tolerance `epsilon`. C48–C51 are about `epsilon = 0`. Here
`epsilon` is any number: what remains true for a positive tolerance, when `reduced_lattice_basis` changes the
lattice, and why a negative tolerance makes the loops run forever.
-/

namespace Systre.Lattices
open Systre

variable {d : Nat} {dot : List Rat → List Rat → Rat} {eps : ℚ}

/-- **C78** With a tolerance `eps ≥ 0` the shift into the Dirichlet domain ends, the shift is a lattice vector,
and the shifted point `q` satisfies `-|v|² ≤ 2 q·v ≤ (1 + eps) |v|²`. -/
theorem C78_shift (he : 0 ≤ eps) (h : IsDot d dot) {p : List Rat} (hp : p.length = d) {vs : List (List Rat)}
    (hl : ∀ v ∈ vs, v.length = d) (hne : ∀ v ∈ vs, rowVec d v ≠ 0) :
    ∃ N s, (∀ fuel, N ≤ fuel → shiftForDirichletDomain fuel p vs dot eps = .ok s) ∧ s.length = d ∧
      rowVec d s ∈ latticeOf d vs ∧
      ∀ q, q.length = d → rowVec d q = rowVec d p + rowVec d s →
        ∀ v ∈ vs, -(dot v v) ≤ 2 * dot q v ∧ 2 * dot q v ≤ (1 + eps) * dot v v := by
  obtain ⟨N, s, h1, h2, h3, h4⟩ := shift_ok_eps he h hp hl hne
  refine ⟨N, s, h1, h2, h3, ?_⟩
  intro q hq heq
  have : q = vAdd p s := rv_inj hq (by rw [vAdd_length, hp]) (by rw [heq, rv_add hp])
  subst this
  exact h4

/-- with a tolerance the point is not moved although it is outside the domain; with zero it is -/
example : shiftForDirichletDomain 10 [3 / 5, 0, 0] [[1, 0, 0]] stdDot (1 / 4) = .ok [0, 0, 0] ∧
    shiftForDirichletDomain 10 [3 / 5, 0, 0] [[1, 0, 0]] stdDot 0 = .ok [-1, 0, 0] := by decide +kernel

/-- **C78** With a tolerance `eps ≥ 0` `dirichlet_vectors` in the plane ends and returns `a`, `b`, `a + b` for a
basis `a`, `b` of the same lattice without an acute angle; the angles to `-(a+b)` are acute by at most
`eps / 2 · |b|²`. -/
theorem C78_dirichlet_plane (he : 0 ≤ eps) (h : IsDot 2 dot) {u v : List Rat} (hu : u.length = 2) (hv : v.length = 2)
    (hi : Indep 2 [u, v]) :
    ∃ N a b c, (∀ fuel, N ≤ fuel → dirichletVectors fuel [u, v] dot eps = .ok [a, b, c]) ∧
      a.length = 2 ∧ b.length = 2 ∧ c.length = 2 ∧ rowVec 2 c = rowVec 2 a + rowVec 2 b ∧
      latticeOf 2 [a, b] = latticeOf 2 [u, v] ∧ Indep 2 [a, b] ∧
      dot a b ≤ 0 ∧ -(eps / 2 * dot b b) ≤ dot a c ∧ 0 ≤ dot b c := by
  obtain ⟨N, a, b, h1, h2, h3, h4, h5, h6⟩ := lagrange_ok_eps he h hu hv hi
  refine ⟨N, a, b, vAdd a b, ?_, h2, h3, by rw [vAdd_length, h2], rv_add h2, h4, h5, h6⟩
  intro fuel hf
  simp [dirichletVectors, h1 fuel hf, hu, hv, rassert]

/-- with this tolerance the code stops at once at a basis that is not reduced, within the stated bound -/
example : dirichletVectors 10 [[1, 0], [11 / 10, 1 / 10]] stdDot (1 / 5) =
    .ok [[1, 0], [-11 / 10, -1 / 10], [-1 / 10, -1 / 10]] ∧
    stdDot [1, 0] [-1 / 10, -1 / 10] = -1 / 10 ∧
    -((1 / 5) / 2 * stdDot [-11 / 10, -1 / 10] [-11 / 10, -1 / 10]) = -122 / 1000 := by decide +kernel

/-- **C78** With a tolerance `eps ≥ 0` `dirichlet_vectors` in space ends and returns the sums of a basis `a`,
`b`, `c` of the same lattice; no two of `a`, `b`, `c`, `-(a+b+c)` have a scalar product above `eps`. -/
theorem C78_dirichlet_space (he : 0 ≤ eps) (h : IsDot 3 dot) {u v w : List Rat} (hu : u.length = 3)
    (hv : v.length = 3) (hw : w.length = 3) (hi : Indep 3 [u, v, w]) :
    ∃ N a b c ab ac bc abc, (∀ fuel, N ≤ fuel →
        dirichletVectors fuel [u, v, w] dot eps = .ok [a, b, c, ab, ac, bc, abc]) ∧
      (∀ x ∈ [a, b, c, ab, ac, bc, abc], x.length = 3) ∧
      rowVec 3 ab = rowVec 3 a + rowVec 3 b ∧ rowVec 3 ac = rowVec 3 a + rowVec 3 c ∧
      rowVec 3 bc = rowVec 3 b + rowVec 3 c ∧ rowVec 3 abc = rowVec 3 a + rowVec 3 b + rowVec 3 c ∧
      latticeOf 3 [a, b, c] = latticeOf 3 [u, v, w] ∧ Indep 3 [a, b, c] ∧
      dot a b ≤ eps ∧ dot a c ≤ eps ∧ dot b c ≤ eps ∧ -eps ≤ dot a abc ∧ -eps ≤ dot b abc ∧ -eps ≤ dot c abc :=
  dirichlet_three he h hu hv hw hi

/-- the tolerance is absolute: this basis is far from reduced and is accepted for `eps = 1/10` -/
example : dirichletVectors 10 [[1 / 4, 0, 0], [1 / 4, 1 / 4, 0], [0, 0, 1 / 4]] stdDot (1 / 10) =
    .ok [[1 / 4, 0, 0], [1 / 4, 1 / 4, 0], [0, 0, 1 / 4], [1 / 2, 1 / 4, 0], [1 / 4, 0, 1 / 4],
      [1 / 4, 1 / 4, 1 / 4], [1 / 2, 1 / 4, 1 / 4]] := by decide +kernel

/-- **C78** In dimensions 1 to 3, if no nonzero coordinate of a lattice vector is below the tolerance in
absolute value, `reduced_lattice_basis` ends with a basis of the same lattice, ordered by length, whose first
vector makes no acute angle with the others. -/
theorem C78_reduced_basis (he : 0 ≤ eps) (hl3 : d = 1 ∨ d = 2 ∨ d = 3) (h : IsDot d dot) {vs : List (List Rat)}
    (hvs : vs.length = d) (hvl : ∀ v ∈ vs, v.length = d) (hi : Indep d vs)
    (hz : ∀ y : List Rat, y.length = d ∧ rowVec d y ∈ latticeOf d vs → ∀ x ∈ y, x = 0 ∨ eps ≤ |x|) :
    ∃ N a, (∀ fuel, N ≤ fuel → reducedLatticeBasis fuel vs dot eps = .ok (some a)) ∧
      a.length = d ∧ (∀ v ∈ a, v.length = d) ∧ latticeOf d a = latticeOf d vs ∧
      a.Pairwise (fun v w => dot v v ≤ dot w w) ∧
      (∀ a0 r, a = a0 :: r → ∀ v ∈ r, dot a0 v ≤ 0) := by
  obtain ⟨N, a, g1, g2, g3, g4, g5, g6, -⟩ := basis_eps he hl3 h hvs hvl hi hz
  exact ⟨N, a, g1, g2, g3, g4, g5, g6⟩

/-- the hypothesis on the coordinates holds for every lattice of integer vectors and `eps ≤ 1` -/
theorem coords_integer {vs : List (List Rat)} (hl : ∀ v ∈ vs, ∀ x ∈ v, ∃ z : ℤ, x = z) (he : eps ≤ 1) :
    ∀ y : List Rat, y.length = d ∧ rowVec d y ∈ latticeOf d vs → ∀ x ∈ y, x = 0 ∨ eps ≤ |x| := by
  have key : ∀ y ∈ latticeOf d vs, ∀ i, ∃ z : ℤ, y i = z := by
    intro y hy
    unfold latticeOf at hy
    induction hy using Submodule.span_induction with
    | mem y hy =>
      obtain ⟨v, hv, rfl⟩ := hy
      intro i
      rw [rowVec_apply]
      by_cases hb : i.1 < v.length
      · rw [show rent v i.1 = v[i.1] by simp [rent, hb]]
        exact hl v hv _ (List.getElem_mem hb)
      · rw [rent_ge (by omega)]
        exact ⟨0, by simp⟩
    | zero => intro i; exact ⟨0, by simp⟩
    | add a b _ _ h1 h2 =>
      intro i
      obtain ⟨z, hz⟩ := h1 i
      obtain ⟨z', hz'⟩ := h2 i
      exact ⟨z + z', by rw [Pi.add_apply, hz, hz']; push_cast; ring⟩
    | smul c a _ h1 =>
      intro i
      obtain ⟨z, hz⟩ := h1 i
      exact ⟨c * z, by rw [Pi.smul_apply, hz, zsmul_eq_mul]; push_cast; ring⟩
  rintro y ⟨hy, hm⟩ x hx
  obtain ⟨i, hi, rfl⟩ := List.getElem_of_mem hx
  obtain ⟨z, hz⟩ := key _ hm ⟨i, by omega⟩
  rw [rowVec_apply] at hz
  have e : rent y i = y[i] := by simp [rent, hi]
  rw [show rent y ((⟨i, by omega⟩ : Fin d) : ℕ) = y[i] from e] at hz
  rw [hz]
  by_cases h0 : z = 0
  · left; rw [h0]; simp
  · right
    have : (1 : ℤ) ≤ |z| := Int.one_le_abs h0
    have : (1 : ℚ) ≤ |(z : ℚ)| := by exact_mod_cast this
    linarith

theorem indep_ex : Indep 2 [[1, 0], [5, 1]] := by
  apply indep_two
  intro s t h
  have h0 := congrFun h 0
  have h1 := congrFun h 1
  simp [rowVec] at h0 h1
  subst h1
  simpa using h0

example := C78_reduced_basis (eps := 1 / 2) (by norm_num) (Or.inr (Or.inl rfl)) hexDot_isDot (vs := [[1, 0], [5, 1]])
  rfl (by decide) indep_ex
  (coords_integer (by
    intro v hv x hx
    simp only [List.mem_cons, List.not_mem_nil, or_false] at hv
    rcases hv with rfl | rfl <;> simp only [List.mem_cons, List.not_mem_nil, or_false] at hx
    · rcases hx with rfl | rfl
      exacts [⟨1, by simp⟩, ⟨0, by simp⟩]
    · rcases hx with rfl | rfl
      exacts [⟨5, by simp⟩, ⟨1, by simp⟩]) (by norm_num))

/-! ### what the zeroing of small coordinates does -/

/-- a vector with the small coordinates replaced by zero -/
def cleaned (eps : ℚ) (w : List Rat) : List Rat := w.map (fun x => if |x| < eps then 0 else x)

theorem rent_cleaned (w : List Rat) (i : Nat) : rent (cleaned eps w) i = if |rent w i| < eps then 0 else rent w i := by
  unfold rent cleaned
  rcases h : w[i]? with _ | x <;> simp [List.getD, h]

theorem reducedLoop_some (hd : 0 < d) : ∀ (ws a : List (List Rat)), a.length < d →
    (∀ w ∈ ws, w.length = d) → (∀ v ∈ a, v.length = d) →
    ∃ res, reducedLoop dot eps d ws a = .ok res ∧ ∀ r, res = some r →
      r.length = d ∧ (∀ v ∈ r, v.length = d) ∧ Indep d r ∧
      ∀ v ∈ r, v ∈ a ∨ ∃ w ∈ ws, v = cleaned eps w ∨ v = vNeg (cleaned eps w)
  | [], a, _, _, _ => ⟨none, rfl, by simp⟩
  | w :: ws, a, ha, hw, hl => by
    have hc : (cleaned eps w).length = d := by simp [cleaned, hw w (by simp)]
    have hst : reducedLoop dot eps d (w :: ws) a = (do
        let r ← rankOf (a ++ [pick dot a (cleaned eps w)])
        if r < (a ++ [pick dot a (cleaned eps w)]).length then reducedLoop dot eps d ws a
        else if (a ++ [pick dot a (cleaned eps w)]).length ≥ d then .ok (some (a ++ [pick dot a (cleaned eps w)]))
        else reducedLoop dot eps d ws (a ++ [pick dot a (cleaned eps w)])) := by
      cases a <;> rfl
    have hp : pick dot a (cleaned eps w) = cleaned eps w ∨ pick dot a (cleaned eps w) = vNeg (cleaned eps w) := by
      unfold pick
      split
      · exact Or.inl rfl
      · split
        · exact Or.inr rfl
        · exact Or.inl rfl
    have hpl : (pick dot a (cleaned eps w)).length = d := by
      rcases hp with h | h <;> rw [h]
      · exact hc
      · rw [vNeg_length, hc]
    rw [hst]
    generalize pick dot a (cleaned eps w) = y at hp hpl
    have hal : ∀ v ∈ a ++ [y], v.length = d := by
      intro v hv
      rcases List.mem_append.1 hv with hv | hv
      · exact hl v hv
      · rw [List.mem_singleton.1 hv]; exact hpl
    obtain ⟨r, hr, hri⟩ := rankOf_ok hal
    rw [hr, Outcome.ok_bind]
    have hmem : ∀ v ∈ a ++ [y], v ∈ a ∨ ∃ z ∈ w :: ws, v = cleaned eps z ∨ v = vNeg (cleaned eps z) := by
      intro v hv
      rcases List.mem_append.1 hv with hv | hv
      · exact Or.inl hv
      · rw [List.mem_singleton.1 hv]; exact Or.inr ⟨w, by simp, hp⟩
    split
    · obtain ⟨res, h1, h2⟩ := reducedLoop_some hd ws a ha (fun z hz => hw z (by simp [hz])) hl
      refine ⟨res, h1, fun b hb => ?_⟩
      obtain ⟨g1, g2, g3, g4⟩ := h2 b hb
      refine ⟨g1, g2, g3, fun v hv => ?_⟩
      rcases g4 v hv with h | ⟨z, hz, h⟩
      · exact Or.inl h
      · exact Or.inr ⟨z, by simp [hz], h⟩
    · rename_i hlt
      have hin : Indep d (a ++ [y]) := by
        by_contra hcon
        exact hlt (hri.2 hcon)
      split
      · rename_i hge
        refine ⟨_, rfl, fun b hb => ?_⟩
        cases hb
        refine ⟨?_, hal, hin, hmem⟩
        rw [List.length_append] at hge ⊢
        simp at hge ⊢; omega
      · rename_i hge
        obtain ⟨res, h1, h2⟩ := reducedLoop_some hd ws (a ++ [y]) (by omega) (fun z hz => hw z (by simp [hz])) hal
        refine ⟨res, h1, fun b hb => ?_⟩
        obtain ⟨g1, g2, g3, g4⟩ := h2 b hb
        refine ⟨g1, g2, g3, fun v hv => ?_⟩
        rcases g4 v hv with h | ⟨z, hz, h⟩
        · exact hmem v h
        · exact Or.inr ⟨z, by simp [hz], h⟩

/-- **C78** For every tolerance `eps ≥ 0` `reduced_lattice_basis` ends. If it returns vectors, they are `d`
linearly independent vectors without nonzero coordinates below the tolerance, and each comes from a vector of
the lattice by replacing coordinates below the tolerance by zero. -/
theorem C78_zeroed (he : 0 ≤ eps) (hl3 : d = 1 ∨ d = 2 ∨ d = 3) (h : IsDot d dot) {vs : List (List Rat)}
    (hvs : vs.length = d) (hvl : ∀ v ∈ vs, v.length = d) (hi : Indep d vs) :
    ∃ N res, (∀ fuel, N ≤ fuel → reducedLatticeBasis fuel vs dot eps = .ok res) ∧
      ∀ a, res = some a → a.length = d ∧ (∀ v ∈ a, v.length = d) ∧ Indep d a ∧
        ∀ v ∈ a, (∀ i : Fin d, rowVec d v i = 0 ∨ eps ≤ |rowVec d v i|) ∧
          ∃ y ∈ latticeOf d vs, ∀ i, rowVec d v i = y i ∨ (rowVec d v i = 0 ∧ |y i| < eps) := by
  obtain ⟨N, ws, x, hdir, hx, hlat, hob, hwl, H1, H2⟩ := dirichlet_family he hl3 h hvs hvl hi
  obtain ⟨res, h1, h2⟩ := reducedLoop_some (dot := dot) (eps := eps) (d := d) (by omega)
    (ws.insertionSort (sortLe dot)) [] (by simp; omega)
    (fun w hw => hwl w ((List.mem_insertionSort _).1 hw)) (by simp)
  refine ⟨N, res, ?_, ?_⟩
  · intro fuel hf
    unfold reducedLatticeBasis
    obtain ⟨v0, vt, rfl⟩ : ∃ v0 vt, vs = v0 :: vt := by
      cases vs with
      | nil => simp at hvs; omega
      | cons a b => exact ⟨a, b, rfl⟩
    have hget : vecGet (v0 :: vt) 0 = .ok v0 := rfl
    rw [hget, hdir fuel hf]
    simp only [Outcome.ok_bind, hvl v0 (by simp)]
    exact h1
  · intro a ha
    obtain ⟨g1, g2, g3, g4⟩ := h2 a ha
    refine ⟨g1, g2, g3, fun v hv => ?_⟩
    rcases g4 v hv with hn | ⟨w, hw, hv⟩
    · simp at hn
    have hw := (List.mem_insertionSort _).1 hw
    have hwm : rowVec d w ∈ latticeOf d vs := by
      obtain ⟨e, he⟩ := H1 w hw
      rw [he, ← hlat]
      unfold subSum
      refine Submodule.sum_mem _ (fun k _ => ?_)
      split
      · exact Submodule.subset_span ⟨k, rfl⟩
      · exact Submodule.zero_mem _
    rcases hv with rfl | rfl
    · refine ⟨fun i => ?_, rowVec d w, hwm, fun i => ?_⟩
      · rw [rowVec_apply, rent_cleaned]
        split
        · exact Or.inl rfl
        · rename_i hh; exact Or.inr (not_lt.1 hh)
      · rw [rowVec_apply, rent_cleaned, rowVec_apply]
        split
        · rename_i hh; exact Or.inr ⟨rfl, hh⟩
        · exact Or.inl rfl
    · refine ⟨fun i => ?_, - rowVec d w, Submodule.neg_mem _ hwm, fun i => ?_⟩
      · rw [rv_neg, Pi.neg_apply, rowVec_apply, rent_cleaned, neg_eq_zero, abs_neg]
        split
        · exact Or.inl rfl
        · rename_i hh; exact Or.inr (not_lt.1 hh)
      · rw [rv_neg, Pi.neg_apply, Pi.neg_apply, rowVec_apply, rent_cleaned, rowVec_apply, neg_eq_zero, abs_neg, neg_inj]
        split
        · rename_i hh; exact Or.inr ⟨rfl, hh⟩
        · exact Or.inl rfl

example := C78_zeroed (eps := 1 / 2) (by norm_num) (Or.inr (Or.inl rfl)) hexDot_isDot (vs := [[1, 0], [5, 1]])
  rfl (by decide) indep_ex

/-- **C78** The condition on the coordinates is needed for the lattice to be the same. The small coordinate of the first vector is
dropped, and `[1, 1/10]` is no integer combination of the result. -/
theorem C78_lattice_changes : ∃ a, reducedLatticeBasis 10 [[1, 1 / 10], [0, 1]] stdDot (1 / 5) = .ok (some a) ∧
    latticeOf 2 a ≠ latticeOf 2 [[1, 1 / 10], [0, 1]] := by
  refine ⟨[[0, 1], [-1, 0]], by decide +kernel, ?_⟩
  intro h
  have hm : rowVec 2 [1, 1 / 10] ∈ latticeOf 2 [[1, 1 / 10], [0, 1]] := latticeOf_mem (by simp)
  rw [← h, latticeOf_pair, Submodule.mem_span_pair] at hm
  obtain ⟨p, q, hpq⟩ := hm
  have h1 := congrFun hpq 1
  simp [rowVec, rent] at h1
  have h2 : (10 * p : ℤ) = 1 := by
    have : (10 * p : ℚ) = 1 := by rw [h1]; norm_num
    exact_mod_cast this
  omega

/-- **C78** It is also needed for a basis to be found. With a tolerance above all coordinates every vector
becomes zero. -/
theorem C78_none : reducedLatticeBasis 10 [[1, 0], [0, 1]] stdDot 2 = .ok none := by decide +kernel

/-! ### negative tolerances -/

/-- **C78** A negative tolerance: the reduction in the plane never ends for two perpendicular vectors of the
same length. -/
theorem C78_negative_plane (he : eps < 0) {u v : List Rat} (huv : dot u v = 0) (hvu : dot v u = 0)
    (hn : dot u u = dot v v) (hp : 0 < dot u u) (hu : u.length = 2) (hv : v.length = 2) (fuel : Nat) :
    dirichletVectors fuel [u, v] dot eps = .diverge := by
  have hr : rround 0 = 0 := by decide +kernel
  have hs : ∀ a b : List Rat, a.length = b.length → vSub b (vMul a (rround 0)) = b := by
    intro a b hab
    rw [hr]
    unfold vSub vMul
    apply List.ext_getElem
    · simp [rowFn]
    · intro i h1 h2
      simp [rowFn, rent, List.getD, h2, hab]
  have key : ∀ fuel (a b : List Rat), dot a b = 0 → dot b a = 0 → dot a a = dot b b → 0 < dot a a →
      a.length = b.length → lagrangeLoop dot (1 - eps) fuel a b = .diverge := by
    intro fuel
    induction fuel with
    | zero => intros; rfl
    | succ n ih =>
      intro a b h1 h2 h3 h4 h5
      unfold lagrangeLoop
      rw [if_pos (by rw [h3] at h4 ⊢; nlinarith)]
      have : rdiv (dot a b) (dot a a) = .ok 0 := by
        unfold rdiv
        rw [if_neg h4.ne', h1, zero_div]
      rw [this, Outcome.ok_bind]
      simp only
      rw [hs a b h5]
      exact ih b a h2 h1 h3.symm (h3 ▸ h4) h5.symm
  have hlag : lagrangeReduced fuel u v dot eps = .diverge := by
    unfold lagrangeReduced
    rw [if_neg (by rw [hn]; exact lt_irrefl _)]
    simp only
    rw [key fuel u v huv hvu hn hp (hu.trans hv.symm)]
    rfl
  simp [dirichletVectors, hu, hv, rassert, hlag, Bind.bind, Outcome.bind]

example (fuel : Nat) : dirichletVectors fuel [[1, 0], [0, 1]] stdDot (-1 / 1000) = .diverge :=
  C78_negative_plane (eps := -1 / 1000) (dot := stdDot) (u := [1, 0]) (v := [0, 1]) (by norm_num) (by decide +kernel) (by decide +kernel) (by decide +kernel) (by decide +kernel)
    rfl rfl fuel

/-- **C78** A negative tolerance: the shift never ends for a point just inside the domain. -/
theorem C78_negative_shift {p v : List Rat} (hl : p.length = v.length) (hv : 0 < dot v v)
    (h1 : (1 + eps) * dot v v < 2 * dot p v) (h0 : 0 ≤ dot p v) (h2 : 2 * dot p v < dot v v) (fuel : Nat) :
    shiftForDirichletDomain fuel p [v] dot eps = .diverge := by
  have hr : rround (dot p v / dot v v) = 0 := by
    have h3 : 0 ≤ dot p v / dot v v := div_nonneg h0 hv.le
    have h4 : dot p v / dot v v < 1 / 2 := by rw [div_lt_iff₀ hv]; linarith
    generalize dot p v / dot v v = q at h3 h4
    have hnum : 0 ≤ q.num := Rat.num_nonneg.2 h3
    have hlt : q.num < q.den := by
      have : q < 1 := by linarith
      exact Rat.lt_one_iff_num_lt_denom.2 this
    have ht : q.num.tdiv q.den = 0 := Int.tdiv_eq_zero_of_lt hnum hlt
    unfold rround
    simp only [ht, Int.cast_zero, sub_zero]
    rw [if_neg (by rw [abs_of_nonneg h3]; linarith)]
  have hz : vAdd p (List.replicate p.length 0) = p := by
    unfold vAdd
    apply List.ext_getElem
    · simp [rowFn]
    · intro i h1 h2
      simp [rowFn, rent, List.getD, h2]
  have hs : vSub (List.replicate p.length 0) (vMul v 0) = List.replicate p.length 0 := by
    unfold vSub vMul
    apply List.ext_getElem
    · simp [rowFn]
    · intro i h1 h2
      have h3 : i < p.length := by simpa using h2
      simp [rowFn, rent, List.getD, h3, ← hl]
  unfold shiftForDirichletDomain
  induction fuel with
  | zero => rfl
  | succ n ih =>
    unfold shiftLoop
    have hq : rdiv (dot p v) (dot v v) = .ok (dot p v / dot v v) := by
      unfold rdiv; rw [if_neg hv.ne']
    have ht : dot p v / dot v v + dot p v / dot v v > 1 + eps := by
      rw [← add_div, gt_iff_lt, lt_div_iff₀ hv]; linarith
    simp only [shiftPass, hz, hq, Outcome.ok_bind, hr, hs]
    rw [if_pos (Or.inr ht), Outcome.ok_bind]
    simpa using ih

example (fuel : Nat) : shiftForDirichletDomain fuel [4995 / 10000, 0] [[1, 0]] stdDot (-1 / 100) = .diverge :=
  C78_negative_shift (eps := -1 / 100) (dot := stdDot) (p := [4995 / 10000, 0]) (v := [1, 0]) rfl
    (by decide +kernel) (by decide +kernel) (by decide +kernel) (by decide +kernel) fuel

/-- the four vectors at the start of each of the ten passes over the cubic lattice -/
def cubicCycle : Fin 10 → Quad := ![
  ![[1, 0, 0], [0, 1, 0], [0, 0, 1], [-1, -1, -1]],
  ![[0, 1, 0], [1, -1, 0], [0, 0, 1], [-1, 0, -1]],
  ![[0, -1, 0], [1, 0, 0], [-1, 0, 1], [0, 1, -1]],
  ![[1, 0, 0], [-1, -1, 0], [0, 1, 1], [0, 0, -1]],
  ![[-1, -1, 0], [0, 1, 0], [0, 0, 1], [1, 0, -1]],
  ![[0, 1, 0], [1, 0, 0], [0, 0, 1], [-1, -1, -1]],
  ![[1, 0, 0], [-1, 1, 0], [0, 0, 1], [0, -1, -1]],
  ![[-1, 0, 0], [0, 1, 0], [0, -1, 1], [1, 0, -1]],
  ![[0, 1, 0], [-1, -1, 0], [1, 0, 1], [0, 0, -1]],
  ![[-1, -1, 0], [1, 0, 0], [0, 0, 1], [0, 1, -1]]]

/-- **C78** A negative tolerance: the reduction in space never ends for the cubic lattice. -/
theorem C78_negative_space (fuel : Nat) :
    dirichletVectors fuel [[1, 0, 0], [0, 1, 0], [0, 0, 1]] stdDot (-1 / 2) = .diverge := by
  have hstep : ∀ k : Fin 10, sellingPass stdDot (-1 / 2) sellingPairs (cubicCycle k) false = (cubicCycle (k + 1), true) := by
    decide +kernel
  have key : ∀ fuel (k : Fin 10), sellingLoop stdDot (-1 / 2) fuel (cubicCycle k) = .diverge := by
    intro fuel
    induction fuel with
    | zero => intro k; rfl
    | succ n ih =>
      intro k
      unfold sellingLoop
      rw [hstep k]
      exact ih (k + 1)
  have h0 : (![[1, 0, 0], [0, 1, 0], [0, 0, 1], vNeg (vAdd (vAdd [1, 0, 0] [0, 1, 0]) [0, 0, 1])] : Quad) = cubicCycle 0 := by
    decide +kernel
  have hsel : sellingReduced fuel [1, 0, 0] [0, 1, 0] [0, 0, 1] stdDot (-1 / 2) = .diverge := by
    unfold sellingReduced
    simp only [h0, key fuel 0]
    rfl
  simp [dirichletVectors, rassert, hsel, Bind.bind, Outcome.bind]

end Systre.Lattices
