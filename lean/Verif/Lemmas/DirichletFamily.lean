import Verif.Lemmas.ReducedBasis

/-! Helper lemmas: what `dirichlet_vectors` returns for a tolerance that is zero or positive, and
`reduced_lattice_basis` for lattices that have no small nonzero coordinates. -/

namespace Systre.Lattices
open Systre

variable {d : Nat} {dot : List Rat → List Rat → Rat} {eps : ℚ}

/-- what `dirichlet_vectors` returns in space -/
theorem dirichlet_three (heps : 0 ≤ eps) (h : IsDot 3 dot) {u v w : List Rat} (hu : u.length = 3) (hv : v.length = 3)
    (hw : w.length = 3) (hi : Indep 3 [u, v, w]) :
    ∃ N a b c ab ac bc abc, (∀ fuel, N ≤ fuel →
        dirichletVectors fuel [u, v, w] dot eps = .ok [a, b, c, ab, ac, bc, abc]) ∧
      (∀ x ∈ [a, b, c, ab, ac, bc, abc], x.length = 3) ∧
      rowVec 3 ab = rowVec 3 a + rowVec 3 b ∧ rowVec 3 ac = rowVec 3 a + rowVec 3 c ∧
      rowVec 3 bc = rowVec 3 b + rowVec 3 c ∧ rowVec 3 abc = rowVec 3 a + rowVec 3 b + rowVec 3 c ∧
      latticeOf 3 [a, b, c] = latticeOf 3 [u, v, w] ∧ Indep 3 [a, b, c] ∧
      dot a b ≤ eps ∧ dot a c ≤ eps ∧ dot b c ≤ eps ∧ -eps ≤ dot a abc ∧ -eps ≤ dot b abc ∧ -eps ≤ dot c abc := by
  obtain ⟨B, hB, hd⟩ := isDot_form h
  obtain ⟨N, a, b, c, h1, h2, h3, h4, h5, h6, h7, h8, h9, h10, h11⟩ := selling_ok_eps heps h hu hv hw
  have hl : ∀ x ∈ [a, b, c, vAdd a b, vAdd a c, vAdd b c, vAdd (vAdd a b) c], x.length = 3 := by
    intro x hx
    simp only [List.mem_cons, List.not_mem_nil, or_false] at hx
    rcases hx with rfl | rfl | rfl | rfl | rfl | rfl | rfl <;> simp [vAdd_length, *]
  have hneg : ∀ x, x.length = 3 → dot x (vNeg (vAdd (vAdd a b) c)) = - dot x (vAdd (vAdd a b) c) := by
    intro x hx
    rw [hd _ _ hx (by simp [vNeg_length, vAdd_length, h2]), hd _ _ hx (by simp [vAdd_length, h2]), rv_neg, map_neg]
  rw [hneg _ h2] at h9
  rw [hneg _ h3] at h10
  rw [hneg _ h4] at h11
  refine ⟨N, a, b, c, vAdd a b, vAdd a c, vAdd b c, vAdd (vAdd a b) c, ?_, hl, rv_add h2, rv_add h2, rv_add h3, ?_, h5,
    indep_of_lattice h5 rfl hi, h6, h7, h8, by linarith, by linarith, by linarith⟩
  · intro fuel hf
    simp [dirichletVectors, h1 fuel hf, hu, hv, hw, rassert]
  · rw [rv_add (by rw [vAdd_length, h2]), rv_add h2]

theorem dirichlet_family (heps : 0 ≤ eps) (hl3 : d = 1 ∨ d = 2 ∨ d = 3) (h : IsDot d dot) {vs : List (List Rat)}
    (hvs : vs.length = d) (hvl : ∀ v ∈ vs, v.length = d) (hi : Indep d vs) :
    ∃ (N : Nat) (ws : List (List Rat)) (x : Fin d → Fin d → ℚ),
      (∀ fuel, N ≤ fuel → dirichletVectors fuel vs dot eps = .ok ws) ∧
      LinearIndependent ℚ x ∧ Submodule.span ℤ (Set.range x) = latticeOf d vs ∧
      (eps = 0 → ∀ B : (Fin d → ℚ) →ₗ[ℚ] (Fin d → ℚ) →ₗ[ℚ] ℚ, PosForm B →
        (∀ v w, v.length = d → w.length = d → dot v w = B (rowVec d v) (rowVec d w)) →
        (∀ i j, i ≠ j → B (x i) (x j) ≤ 0) ∧ (∀ i, 0 ≤ B (x i) (∑ k, x k))) ∧
      (∀ w ∈ ws, w.length = d) ∧
      (∀ w ∈ ws, ∃ e : Fin d → Bool, rowVec d w = subSum e x) ∧
      (∀ e : Fin d → Bool, (∃ i, e i = true) → ∃ w ∈ ws, rowVec d w = subSum e x) := by
  rcases hl3 with rfl | rfl | rfl
  · obtain ⟨u, rfl⟩ : ∃ u, vs = [u] := by
      match vs, hvs with
      | [u], _ => exact ⟨u, rfl⟩
    have hu := hvl u (by simp)
    have hi' : LinearIndependent ℚ (fun _ : Fin 1 => rowVec 1 u) := by
      have h' : LinearIndependent ℚ (fun i : Fin 1 => rowVec 1 [u][i.1]) := hi
      have e : (fun i : Fin 1 => rowVec 1 [u][i.1]) = fun _ => rowVec 1 u := by
        funext i; fin_cases i; rfl
      rwa [e] at h'
    refine ⟨0, [u], (fun _ => rowVec 1 u), ?_, hi', ?_, ?_, (by simpa using hu), ?_, ?_⟩
    · intro fuel _
      simp [dirichletVectors, rassert, hu]
    · unfold latticeOf
      congr 1
      ext y
      simp
    · rintro rfl B hB hd
      refine ⟨fun i j hij => absurd (Subsingleton.elim i j) hij, fun i => ?_⟩
      simpa using hB.nonneg (rowVec 1 u)
    · intro w hw
      simp at hw
      subst hw
      exact ⟨fun _ => true, by simp [subSum]⟩
    · rintro e ⟨i, hi⟩
      refine ⟨u, by simp, ?_⟩
      have : i = 0 := Subsingleton.elim _ _
      subst this
      simp [subSum, hi]
  · obtain ⟨u, v, rfl⟩ : ∃ u v, vs = [u, v] := by
      match vs, hvs with
      | [u, v], _ => exact ⟨u, v, rfl⟩
    obtain ⟨N, a, b, h1, h2, h3, h4, h5, h6, h7, h8⟩ := lagrange_ok_eps heps h (hvl u (by simp)) (hvl v (by simp)) hi
    have hl : ∀ w ∈ [a, b, vAdd a b], w.length = 2 := by
      intro w hw
      simp only [List.mem_cons, List.not_mem_nil, or_false] at hw
      rcases hw with rfl | rfl | rfl <;> simp [vAdd_length, *]
    refine ⟨N, [a, b, vAdd a b], ![rowVec 2 a, rowVec 2 b], ?_, (indep_pair a b).1 h5, ?_, ?_, hl, ?_, ?_⟩
    · intro fuel hf
      simp [dirichletVectors, h1 fuel hf, hvl u (by simp), hvl v (by simp), rassert]
    · rw [← h4, latticeOf_pair]
      congr 1
      ext y
      simp [eq_comm, or_comm]
    · rintro rfl B hB hd
      have h7' : 0 ≤ B (rowVec 2 a) (rowVec 2 a + rowVec 2 b) := by
        rw [zero_div, zero_mul, neg_zero] at h7
        rwa [hd _ _ h2 (by rw [vAdd_length, h2]), rv_add h2] at h7
      have h8' : 0 ≤ B (rowVec 2 b) (rowVec 2 a + rowVec 2 b) := by
        rwa [hd _ _ h3 (by rw [vAdd_length, h2]), rv_add h2] at h8
      have h6' : B (rowVec 2 a) (rowVec 2 b) ≤ 0 := by rwa [hd _ _ h2 h3] at h6
      constructor
      · intro i j hij
        fin_cases i <;> fin_cases j
        · exact absurd rfl hij
        · exact h6'
        · show B (rowVec 2 b) (rowVec 2 a) ≤ 0
          rw [hB.symm]; exact h6'
        · exact absurd rfl hij
      · intro i
        rw [Fin.sum_univ_two]
        fin_cases i
        · exact h7'
        · exact h8'
    · intro w hw
      simp only [List.mem_cons, List.not_mem_nil, or_false] at hw
      rcases hw with rfl | rfl | rfl
      · exact ⟨![true, false], by simp [subSum]⟩
      · exact ⟨![false, true], by simp [subSum]⟩
      · exact ⟨![true, true], by simp [subSum, rv_add h2]⟩
    · rintro e ⟨i, hi⟩
      unfold subSum
      rw [Fin.sum_univ_two]
      rcases h0 : e 0 with _ | _ <;> rcases h1 : e 1 with _ | _
      · exfalso; fin_cases i <;> simp_all
      · exact ⟨b, by simp, by simp⟩
      · exact ⟨a, by simp, by simp⟩
      · exact ⟨vAdd a b, by simp, by simp [rv_add h2]⟩
  · obtain ⟨u, v, w, rfl⟩ : ∃ u v w, vs = [u, v, w] := by
      match vs, hvs with
      | [u, v, w], _ => exact ⟨u, v, w, rfl⟩
    obtain ⟨N, a, b, c, ab, ac, bc, abc, g0, gl, gab, gac, gbc, gabc, glat, gi, o1, o2, o3, o4, o5, o6⟩ :=
      dirichlet_three heps h (hvl u (by simp)) (hvl v (by simp)) (hvl w (by simp)) hi
    have ha := gl a (by simp)
    have hb := gl b (by simp)
    have hc := gl c (by simp)
    have habc := gl abc (by simp)
    refine ⟨N, [a, b, c, ab, ac, bc, abc], ![rowVec 3 a, rowVec 3 b, rowVec 3 c], g0,
      (indep_three a b c).1 gi, ?_, ?_, gl, ?_, ?_⟩
    · rw [← glat, latticeOf_three]
    · rintro rfl B hB hd
      rw [hd _ _ ha hb] at o1
      rw [hd _ _ ha hc] at o2
      rw [hd _ _ hb hc] at o3
      rw [neg_zero] at o4 o5 o6
      rw [hd _ _ ha habc, gabc] at o4
      rw [hd _ _ hb habc, gabc] at o5
      rw [hd _ _ hc habc, gabc] at o6
      constructor
      · intro i j hij
        fin_cases i <;> fin_cases j <;> first
          | exact absurd rfl hij
          | assumption
          | (rw [hB.symm]; assumption)
      · intro i
        rw [Fin.sum_univ_three]
        fin_cases i
        exacts [o4, o5, o6]
    · intro y hy
      simp only [List.mem_cons, List.not_mem_nil, or_false] at hy
      unfold subSum
      rcases hy with rfl | rfl | rfl | rfl | rfl | rfl | rfl
      · exact ⟨![true, false, false], by simp [Fin.sum_univ_three]⟩
      · exact ⟨![false, true, false], by simp [Fin.sum_univ_three]⟩
      · exact ⟨![false, false, true], by simp [Fin.sum_univ_three]⟩
      · exact ⟨![true, true, false], by simp [Fin.sum_univ_three, gab]⟩
      · exact ⟨![true, false, true], by simp [Fin.sum_univ_three, gac]⟩
      · exact ⟨![false, true, true], by simp [Fin.sum_univ_three, gbc]⟩
      · exact ⟨![true, true, true], by simp [Fin.sum_univ_three, gabc]⟩
    · rintro e ⟨i, hi⟩
      unfold subSum
      rw [Fin.sum_univ_three]
      rcases h0 : e 0 with _ | _ <;> rcases h1 : e 1 with _ | _ <;> rcases h2 : e 2 with _ | _
      · exfalso; fin_cases i <;> simp_all
      · exact ⟨c, by simp, by simp⟩
      · exact ⟨b, by simp, by simp⟩
      · exact ⟨bc, by simp, by simp [gbc]⟩
      · exact ⟨a, by simp, by simp⟩
      · exact ⟨ac, by simp, by simp [gac]⟩
      · exact ⟨ab, by simp, by simp [gab]⟩
      · exact ⟨abc, by simp, by simp [gabc]⟩


theorem clean_eps {w : List Rat} (h : ∀ x ∈ w, x = 0 ∨ eps ≤ |x|) :
    w.map (fun x => if |x| < eps then 0 else x) = w := by
  conv_rhs => rw [← List.map_id w]
  apply List.map_congr_left
  intro x hx
  rcases h x hx with rfl | h
  · simp
  · rw [if_neg (not_lt.2 h)]; rfl

theorem reducedLoop_eps : ∀ (ws a : List (List Rat)), (∀ w ∈ ws, ∀ x ∈ w, x = 0 ∨ eps ≤ |x|) →
    reducedLoop dot eps d ws a = reducedLoop dot 0 d ws a
  | [], _, _ => rfl
  | w :: ws, a, h => by
    simp only [reducedLoop]
    rw [clean_eps (h w (by simp)), clean_zero]
    have ih := fun a => reducedLoop_eps ws a (fun y hy => h y (by simp [hy]))
    simp only [ih]

/-- `reduced_lattice_basis` with a tolerance that no nonzero coordinate of a lattice vector falls below. -/
theorem basis_eps (heps : 0 ≤ eps) (hl3 : d = 1 ∨ d = 2 ∨ d = 3) (h : IsDot d dot) {vs : List (List Rat)}
    (hvs : vs.length = d) (hvl : ∀ v ∈ vs, v.length = d) (hi : Indep d vs)
    (hz : ∀ y : List Rat, y.length = d ∧ rowVec d y ∈ latticeOf d vs → ∀ x ∈ y, x = 0 ∨ eps ≤ |x|) :
    ∃ N a, (∀ fuel, N ≤ fuel → reducedLatticeBasis fuel vs dot eps = .ok (some a)) ∧
      a.length = d ∧ (∀ v ∈ a, v.length = d) ∧ latticeOf d a = latticeOf d vs ∧
      a.Pairwise (fun v w => dot v v ≤ dot w w) ∧
      (∀ a0 r, a = a0 :: r → ∀ v ∈ r, dot a0 v ≤ 0) ∧
      (eps = 0 → ∀ k v, a[k]? = some v → ∀ y, y.length = d → rowVec d y ∈ latticeOf d vs →
        rowVec d y ∉ Submodule.span ℚ (rowVec d '' {w | w ∈ a.take k}) → dot v v ≤ dot y y) ∧
      (eps = 0 → ∀ k v, a[k]? = some v → ∀ y, y.length = d → rowVec d y ∈ latticeOf d vs →
        rowVec d y ∉ Submodule.span ℚ (rowVec d '' {w | w ∈ a.take k}) → sortLe dot v y) := by
  obtain ⟨N, ws, x, hdir, hx, hlat, hob, hwl, H1, H2⟩ := dirichlet_family heps hl3 h hvs hvl hi
  obtain ⟨B, hB, hd⟩ := isDot_form h
  obtain ⟨a, g1, g2, g3, g4, g5, g6, g7, g8⟩ := reduced_core hB hd hl3 x hx ws hwl H1 H2
  refine ⟨N, a, ?_, g2, g3, by rw [g4, hlat], ?_, ?_, ?_, ?_⟩
  · intro fuel hf
    unfold reducedLatticeBasis
    obtain ⟨v0, vt, rfl⟩ : ∃ v0 vt, vs = v0 :: vt := by
      cases vs with
      | nil => simp at hvs; omega
      | cons a b => exact ⟨a, b, rfl⟩
    have hget : vecGet (v0 :: vt) 0 = .ok v0 := rfl
    rw [hget, hdir fuel hf]
    simp only [Outcome.ok_bind, hvl v0 (by simp)]
    rw [reducedLoop_eps]
    · exact g1
    · intro w hw
      have hw := (List.mem_insertionSort _).1 hw
      refine hz w ⟨hwl w hw, ?_⟩
      obtain ⟨e, he⟩ := H1 w hw
      rw [he, ← hlat]
      unfold subSum
      refine Submodule.sum_mem _ (fun k _ => ?_)
      split
      · exact Submodule.subset_span ⟨k, rfl⟩
      · exact Submodule.zero_mem _
  · refine g5.imp_of_mem ?_
    intro v w hv hw h
    rwa [hd v v (g3 v hv) (g3 v hv), hd w w (g3 w hw) (g3 w hw)]
  · intro a0 r har
    have ha0 := g3 a0 (by rw [har]; simp)
    intro v hv
    rw [hd _ _ ha0 (g3 v (by rw [har]; simp [hv]))]
    exact g6 a0 r har v hv
  · intro he k v hk y hy hym hyW
    have hv := g3 v (List.mem_of_getElem? hk)
    rw [hd _ _ hv hv, hd _ _ hy hy]
    exact g7 (hob he B hB hd).1 (hob he B hB hd).2 k v hk _ (by rw [hlat]; exact hym) hyW
  · intro he k v hk y hy hym hyW
    exact g8 (hob he B hB hd).1 (hob he B hB hd).2 k v hk y hy (by rw [hlat]; exact hym) hyW

end Systre.Lattices
