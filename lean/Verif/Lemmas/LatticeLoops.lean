import Verif.Lemmas.Lattices
import Mathlib.Tactic.FinCases
import Mathlib.Data.Rat.Floor
import Mathlib.Algebra.Order.Archimedean.Basic

/-! Helper lemmas: the loops of the lattice reductions terminate. -/

namespace Systre.Lattices
open Systre Submodule

variable {d : Nat} {dot : List Rat → List Rat → Rat} {B : (Fin d → ℚ) →ₗ[ℚ] (Fin d → ℚ) →ₗ[ℚ] ℚ}

/-! ### the Dirichlet shift -/

theorem norm_sub_smul (hB : PosForm B) (q v : Fin d → ℚ) (n : ℚ) (hv : B v v ≠ 0) :
    B (q - n • v) (q - n • v) = B q q - n * (2 * (B q v / B v v) - n) * B v v := by
  simp only [map_sub, map_smul, LinearMap.sub_apply, LinearMap.smul_apply, smul_eq_mul]
  rw [hB.symm v q]
  field_simp
  ring

theorem shiftPass_ok {eps : ℚ} (he : 0 ≤ eps) (hB : PosForm B)
    (hd : ∀ v w, v.length = d → w.length = d → dot v w = B (rowVec d v) (rowVec d w))
    {p : List Rat} (hp : p.length = d) (L : Submodule ℤ (Fin d → ℚ)) :
    ∀ (vs : List (List Rat)) (s : List Rat) (pr : Bool), s.length = d → (∀ v ∈ vs, v.length = d) →
      (∀ v ∈ vs, rowVec d v ≠ 0) → (∀ v ∈ vs, rowVec d v ∈ L) → rowVec d s ∈ L →
      ∃ s' pr', shiftPass p dot eps vs s pr = .ok (s', pr') ∧ s'.length = d ∧ rowVec d s' ∈ L ∧
        (pr = true → pr' = true) ∧
        (pr' = false → s' = s ∧ ∀ v ∈ vs, -(B (rowVec d v) (rowVec d v)) ≤
            2 * B (rowVec d p + rowVec d s) (rowVec d v) ∧
            2 * B (rowVec d p + rowVec d s) (rowVec d v) ≤ (1 + eps) * B (rowVec d v) (rowVec d v)) ∧
        B (rowVec d p + rowVec d s') (rowVec d p + rowVec d s') ≤
          B (rowVec d p + rowVec d s) (rowVec d p + rowVec d s) ∧
        (pr' = true → pr = false → B (rowVec d p + rowVec d s') (rowVec d p + rowVec d s') <
          B (rowVec d p + rowVec d s) (rowVec d p + rowVec d s)) := by
  intro vs
  induction vs with
  | nil =>
    intro s pr hs _ _ _ hL
    exact ⟨s, pr, rfl, hs, hL, fun h => h, fun _ => ⟨rfl, by simp⟩, le_rfl, by simp_all⟩
  | cons v vs ih =>
    intro s pr hs hl hne hv hL
    have hvl := hl v (by simp)
    have hpos := hB.pos _ (hne v (by simp))
    have hdq : dot (vAdd p s) v = B (rowVec d p + rowVec d s) (rowVec d v) := by
      rw [hd _ _ (by rw [vAdd_length, hp]) hvl, rv_add hp]
    have hdv := hd v v hvl hvl
    unfold shiftPass rdiv
    rw [hdv, if_neg hpos.ne', hdq]
    simp only [Outcome.ok_bind]
    set t := B (rowVec d p + rowVec d s) (rowVec d v) / B (rowVec d v) (rowVec d v) with ht
    split
    · rename_i h
      have h : t + t < -1 ∨ t + t > 1 := h.imp_right (fun h => by linarith)
      obtain ⟨z, hz, -⟩ := rround_spec t
      have hrv : rowVec d (vSub s (vMul v (rround t))) = rowVec d s - rround t • rowVec d v := by
        rw [rv_sub hs, rv_mul _ hvl]
      have hL' : rowVec d (vSub s (vMul v (rround t))) ∈ L := by
        rw [hrv, hz, Int.cast_smul_eq_zsmul]
        exact sub_mem hL (smul_mem _ _ (hv v (by simp)))
      obtain ⟨s', pr', h1, h2, h3, h4, h5, h6, -⟩ := ih (vSub s (vMul v (rround t))) true
        (by rw [vSub_length, hs]) (fun x hx => hl x (by simp [hx])) (fun x hx => hne x (by simp [hx]))
        (fun x hx => hv x (by simp [hx])) hL'
      have hpr := h4 rfl
      subst hpr
      have hlt : B (rowVec d p + rowVec d s') (rowVec d p + rowVec d s') <
          B (rowVec d p + rowVec d s) (rowVec d p + rowVec d s) := by
        refine lt_of_le_of_lt h6 ?_
        rw [hrv, ← add_sub_assoc, norm_sub_smul hB _ _ _ hpos.ne', ← ht]
        have := mul_pos (rround_step h) hpos
        linarith
      exact ⟨s', true, h1, h2, h3, fun _ => rfl, by simp, hlt.le, fun _ _ => hlt⟩
    · rename_i h
      push Not at h
      obtain ⟨s', pr', h1, h2, h3, h4, h5, h6, h7⟩ := ih s pr hs
        (fun x hx => hl x (by simp [hx])) (fun x hx => hne x (by simp [hx]))
        (fun x hx => hv x (by simp [hx])) hL
      refine ⟨s', pr', h1, h2, h3, h4, fun hf => ⟨(h5 hf).1, ?_⟩, h6, h7⟩
      intro x hx
      rcases List.mem_cons.1 hx with rfl | hx
      · have e : B (rowVec d p + rowVec d s) (rowVec d x) = t * B (rowVec d x) (rowVec d x) := by
          rw [ht, div_mul_cancel₀ _ hpos.ne']
        rw [e]
        constructor <;> nlinarith
      · exact (h5 hf).2 x hx

theorem shiftLoop_ok {eps : ℚ} (he : 0 ≤ eps) (hB : PosForm B)
    (hd : ∀ v w, v.length = d → w.length = d → dot v w = B (rowVec d v) (rowVec d w))
    {p : List Rat} (hp : p.length = d) {vs : List (List Rat)} (hl : ∀ v ∈ vs, v.length = d)
    (hne : ∀ v ∈ vs, rowVec d v ≠ 0) {D : ℕ} (hD : 0 < D)
    (hz : ∀ x ∈ latticeOf d vs, ∃ z : ℤ, (D : ℚ) * B (rowVec d p + x) (rowVec d p + x) = z) :
    ∀ (m : ℕ) (s : List Rat), s.length = d → rowVec d s ∈ latticeOf d vs →
      (D : ℚ) * B (rowVec d p + rowVec d s) (rowVec d p + rowVec d s) ≤ m →
      ∃ s', (∀ fuel, m < fuel → shiftLoop p vs dot eps fuel s = .ok s') ∧ s'.length = d ∧
        rowVec d s' ∈ latticeOf d vs ∧
        ∀ v ∈ vs, -(B (rowVec d v) (rowVec d v)) ≤ 2 * B (rowVec d p + rowVec d s') (rowVec d v) ∧
            2 * B (rowVec d p + rowVec d s') (rowVec d v) ≤ (1 + eps) * B (rowVec d v) (rowVec d v) := by
  intro m
  induction m with
  | zero =>
    intro s hs hL hm
    obtain ⟨s', pr', h1, h2, h3, h4, h5, h6, h7⟩ := shiftPass_ok he hB hd hp (latticeOf d vs) vs s false hs hl hne
      (fun v hv => latticeOf_mem hv) hL
    cases pr' with
    | true =>
      exfalso
      have h := h7 rfl rfl
      have h0 := hB.nonneg (rowVec d p + rowVec d s')
      have hD' : (0 : ℚ) < D := by exact_mod_cast hD
      have := mul_pos hD' (lt_of_le_of_lt h0 h)
      simp only [Nat.cast_zero] at hm
      linarith
    | false =>
      obtain ⟨rfl, h8⟩ := h5 rfl
      refine ⟨s', ?_, h2, h3, h8⟩
      intro fuel hf
      obtain ⟨f, rfl⟩ : ∃ f, fuel = f + 1 := ⟨fuel - 1, by omega⟩
      simp [shiftLoop, h1]
  | succ m ih =>
    intro s hs hL hm
    obtain ⟨s', pr', h1, h2, h3, h4, h5, h6, h7⟩ := shiftPass_ok he hB hd hp (latticeOf d vs) vs s false hs hl hne
      (fun v hv => latticeOf_mem hv) hL
    cases pr' with
    | true =>
      have h := h7 rfl rfl
      have hD' : (0 : ℚ) < D := by exact_mod_cast hD
      have hlt := lt_of_lt_of_le (mul_lt_mul_of_pos_left h hD') hm
      obtain ⟨n, hn⟩ := norm_nat hB (hz _ h3)
      rw [hn] at hlt
      have : n ≤ m := by
        have : n < m + 1 := by exact_mod_cast hlt
        omega
      obtain ⟨s'', g1, g2, g3, g4⟩ := ih s' h2 h3 (by rw [hn]; exact_mod_cast this)
      refine ⟨s'', ?_, g2, g3, g4⟩
      intro fuel hf
      obtain ⟨f, rfl⟩ : ∃ f, fuel = f + 1 := ⟨fuel - 1, by omega⟩
      simp only [shiftLoop, h1, Outcome.ok_bind, if_true]
      exact g1 f (by omega)
    | false =>
      obtain ⟨rfl, h8⟩ := h5 rfl
      refine ⟨s', ?_, h2, h3, h8⟩
      intro fuel hf
      obtain ⟨f, rfl⟩ : ∃ f, fuel = f + 1 := ⟨fuel - 1, by omega⟩
      simp [shiftLoop, h1]

theorem exists_nat_ge' (q : ℚ) : ∃ m : ℕ, q ≤ m := exists_nat_ge q

theorem shift_ok_eps {eps : ℚ} (he : 0 ≤ eps) (h : IsDot d dot) {p : List Rat} (hp : p.length = d) {vs : List (List Rat)}
    (hl : ∀ v ∈ vs, v.length = d) (hne : ∀ v ∈ vs, rowVec d v ≠ 0) :
    ∃ N s, (∀ fuel, N ≤ fuel → shiftForDirichletDomain fuel p vs dot eps = .ok s) ∧ s.length = d ∧
      rowVec d s ∈ latticeOf d vs ∧
      ∀ v ∈ vs, -(dot v v) ≤ 2 * dot (vAdd p s) v ∧ 2 * dot (vAdd p s) v ≤ (1 + eps) * dot v v := by
  classical
  obtain ⟨B, hB, hd⟩ := isDot_form h
  obtain ⟨S, hS⟩ := latticeOf_finset d vs
  obtain ⟨D, hD, hz⟩ := form_denom B (insert (rowVec d p) S)
  have hz' : ∀ x ∈ latticeOf d vs, ∃ z : ℤ, (D : ℚ) * B (rowVec d p + x) (rowVec d p + x) = z := by
    intro x hx
    rw [hS] at hx
    have : rowVec d p + x ∈ span ℤ ((insert (rowVec d p) S : Finset _) : Set (Fin d → ℚ)) := by
      apply add_mem
      · exact subset_span (by simp)
      · exact span_mono (by simp) hx
    exact hz _ this _ this
  obtain ⟨m, hm⟩ := exists_nat_ge' ((D : ℚ) * B (rowVec d p + rowVec d (List.replicate p.length 0))
    (rowVec d p + rowVec d (List.replicate p.length 0)))
  obtain ⟨s, h1, h2, h3, h4⟩ := shiftLoop_ok he hB hd hp hl hne hD hz' m (List.replicate p.length 0)
    (by simp [hp]) (by rw [rv_zero]; exact zero_mem _) hm
  refine ⟨m + 1, s, fun fuel hf => h1 fuel (by omega), h2, h3, fun v hv => ?_⟩
  rw [hd (vAdd p s) v (by rw [vAdd_length, hp]) (hl v hv), hd v v (hl v hv) (hl v hv), rv_add hp]
  exact h4 v hv

theorem shift_ok (h : IsDot d dot) {p : List Rat} (hp : p.length = d) {vs : List (List Rat)}
    (hl : ∀ v ∈ vs, v.length = d) (hne : ∀ v ∈ vs, rowVec d v ≠ 0) :
    ∃ N s, (∀ fuel, N ≤ fuel → shiftForDirichletDomain fuel p vs dot 0 = .ok s) ∧ s.length = d ∧
      rowVec d s ∈ latticeOf d vs ∧
      ∀ v ∈ vs, -(dot v v) ≤ 2 * dot (vAdd p s) v ∧ 2 * dot (vAdd p s) v ≤ dot v v := by
  have := shift_ok_eps (le_refl (0 : ℚ)) h hp hl hne
  simpa only [add_zero, one_mul] using this

/-! ### Lagrange reduction -/

theorem lagrangeLoop_ok {eps : ℚ} (heps : 0 ≤ eps) (hB : PosForm B)
    (hd : ∀ v w, v.length = d → w.length = d → dot v w = B (rowVec d v) (rowVec d w))
    {L : Submodule ℤ (Fin d → ℚ)} {D : ℕ} (hD : 0 < D)
    (hz : ∀ x ∈ L, ∃ z : ℤ, (D : ℚ) * B x x = z) :
    ∀ (m : ℕ) (u v : List Rat), u.length = d → v.length = d →
      span ℤ {rowVec d u, rowVec d v} = L →
      LinearIndependent ℚ ![rowVec d u, rowVec d v] →
      (B (rowVec d u) (rowVec d u) ≤ B (rowVec d v) (rowVec d v) ∨
        2 * |B (rowVec d u) (rowVec d v)| ≤ B (rowVec d v) (rowVec d v)) →
      (D : ℚ) * B (rowVec d v) (rowVec d v) ≤ m →
      ∃ a b, (∀ fuel, m < fuel → lagrangeLoop dot (1 - eps) fuel u v = .ok (a, b)) ∧ a.length = d ∧ b.length = d ∧
        span ℤ {rowVec d a, rowVec d b} = L ∧ LinearIndependent ℚ ![rowVec d a, rowVec d b] ∧
        |B (rowVec d a) (rowVec d b)| ≤ B (rowVec d a) (rowVec d a) + eps / 2 * B (rowVec d b) (rowVec d b) ∧
        |B (rowVec d a) (rowVec d b)| ≤ B (rowVec d b) (rowVec d b) := by
  intro m
  induction m using Nat.strong_induction_on with
  | _ m ih =>
  intro u v hu hv hL hli hinv hm
  have hune : rowVec d u ≠ 0 := hli.ne_zero 0
  have hpos := hB.pos _ hune
  by_cases hlt' : B (rowVec d u) (rowVec d u) < B (rowVec d v) (rowVec d v) * (1 - eps)
  · -- a step
    have hlt : B (rowVec d u) (rowVec d u) < B (rowVec d v) (rowVec d v) := by
      have := mul_nonneg (hB.nonneg (rowVec d v)) heps
      linarith
    set q := B (rowVec d u) (rowVec d v) / B (rowVec d u) (rowVec d u) with hq
    obtain ⟨z, hzq, hz1⟩ := rround_spec q
    set w := vSub v (vMul u (rround q)) with hw
    have hwl : w.length = d := by rw [hw, vSub_length, hv]
    have hwr : rowVec d w = rowVec d v - z • rowVec d u := by
      rw [hw, rv_sub hv, rv_mul _ hu, hzq, Int.cast_smul_eq_zsmul]
    have hL' : span ℤ {rowVec d w, rowVec d u} = L := by
      rw [← hL, hwr]
      apply le_antisymm
      · rw [span_le]
        rintro x (rfl | rfl)
        · exact sub_mem (subset_span (by simp)) (smul_mem _ _ (subset_span (by simp)))
        · exact subset_span (by simp)
      · rw [span_le]
        rintro x (rfl | rfl)
        · exact subset_span (by simp)
        · have h1 : rowVec d v - z • rowVec d u ∈ span ℤ {rowVec d v - z • rowVec d u, rowVec d u} :=
            subset_span (by simp)
          have h2 : rowVec d u ∈ span ℤ {rowVec d v - z • rowVec d u, rowVec d u} := subset_span (by simp)
          have := add_mem h1 (smul_mem _ z h2)
          rwa [sub_add_cancel] at this
    have hli' : LinearIndependent ℚ ![rowVec d w, rowVec d u] := by
      rw [LinearIndependent.pair_iff] at hli ⊢
      intro s t hst
      rw [hwr, ← Int.cast_smul_eq_zsmul ℚ, smul_sub, smul_smul] at hst
      have := hli (t - s * z) s (by rw [← hst, sub_smul]; abel)
      obtain ⟨h1, h2⟩ := this
      subst h2
      exact ⟨rfl, by simpa using h1⟩
    have hinv' : 2 * |B (rowVec d w) (rowVec d u)| ≤ B (rowVec d u) (rowVec d u) := by
      have e : B (rowVec d w) (rowVec d u) = (q - z) * B (rowVec d u) (rowVec d u) := by
        rw [hwr, ← Int.cast_smul_eq_zsmul ℚ, map_sub, map_smul, LinearMap.sub_apply, LinearMap.smul_apply,
          smul_eq_mul, hB.symm, sub_mul, hq, div_mul_cancel₀ _ hpos.ne']
      rw [e, abs_mul, abs_of_pos hpos]
      nlinarith
    have hD' : (0 : ℚ) < D := by exact_mod_cast hD
    have hul : rowVec d u ∈ L := by rw [← hL]; exact subset_span (by simp)
    obtain ⟨n, hn⟩ := norm_nat hB (hz _ hul)
    have hnm : n < m := by
      have := lt_of_lt_of_le (mul_lt_mul_of_pos_left hlt hD') hm
      rw [hn] at this; exact_mod_cast this
    obtain ⟨a, b, g1, g2⟩ := ih n hnm w u hwl hu hL' hli' (Or.inr hinv') hn.le
    refine ⟨a, b, ?_, g2⟩
    intro fuel hf
    obtain ⟨f, rfl⟩ : ∃ f, fuel = f + 1 := ⟨fuel - 1, by omega⟩
    unfold lagrangeLoop
    rw [hd u u hu hu, hd v v hv hv, hd u v hu hv, if_pos hlt']
    unfold rdiv
    rw [if_neg hpos.ne']
    exact g1 f (by omega)
  · refine ⟨u, v, ?_, hu, hv, hL, hli, ?_, ?_⟩
    · intro fuel hf
      obtain ⟨f, rfl⟩ : ∃ f, fuel = f + 1 := ⟨fuel - 1, by omega⟩
      unfold lagrangeLoop
      rw [hd u u hu hu, hd v v hv hv, if_neg hlt']
    all_goals
      have h1 := hB.nonneg (rowVec d u - rowVec d v)
      have h2 := hB.nonneg (rowVec d u + rowVec d v)
      simp only [map_sub, map_add, LinearMap.sub_apply, LinearMap.add_apply] at h1 h2
      rw [hB.symm (rowVec d v) (rowVec d u)] at h1 h2
      push Not at hlt'
      rcases hinv with h | h
      · rw [abs_le]; constructor <;> linarith
      · first
          | (rw [abs_le]; constructor <;> linarith)
          | (have := abs_nonneg (B (rowVec d u) (rowVec d v)); linarith)

theorem span_pair_neg (x y : Fin d → ℚ) : span ℤ {x, -y} = span ℤ {x, y} := by
  apply le_antisymm
  · rw [span_le]
    rintro z (rfl | rfl)
    · exact subset_span (by simp)
    · exact neg_mem (subset_span (by simp))
  · rw [span_le]
    rintro z (rfl | rfl)
    · exact subset_span (by simp)
    · have : -z ∈ span ℤ {x, -z} := subset_span (by simp)
      simpa using neg_mem this

theorem latticeOf_pair (u v : List Rat) : latticeOf d [u, v] = span ℤ {rowVec d u, rowVec d v} := by
  unfold latticeOf
  congr 1
  ext x
  simp [eq_comm]

theorem indep_pair (u v : List Rat) :
    Indep d [u, v] ↔ LinearIndependent ℚ ![rowVec d u, rowVec d v] := by
  unfold Indep
  have : (fun i : Fin 2 => rowVec d [u, v][i.1]) = ![rowVec d u, rowVec d v] := by
    funext i
    fin_cases i <;> rfl
  show LinearIndependent ℚ (fun i : Fin 2 => rowVec d [u, v][i.1]) ↔ _
  rw [this]

theorem lagrange_ok_eps {eps : ℚ} (heps : 0 ≤ eps) (h : IsDot d dot) {u v : List Rat} (hu : u.length = d) (hv : v.length = d)
    (hi : Indep d [u, v]) :
    ∃ N a b, (∀ fuel, N ≤ fuel → lagrangeReduced fuel u v dot eps = .ok (a, b)) ∧ a.length = d ∧ b.length = d ∧
      latticeOf d [a, b] = latticeOf d [u, v] ∧ Indep d [a, b] ∧
      dot a b ≤ 0 ∧ -(eps / 2 * dot b b) ≤ dot a (vAdd a b) ∧ 0 ≤ dot b (vAdd a b) := by
  obtain ⟨B, hB, hd⟩ := isDot_form h
  obtain ⟨S, hS⟩ := latticeOf_finset d [u, v]
  obtain ⟨D, hD, hz⟩ := form_denom B S
  rw [indep_pair] at hi
  have main : ∀ u' v' : List Rat, u'.length = d → v'.length = d →
      span ℤ {rowVec d u', rowVec d v'} = latticeOf d [u, v] →
      LinearIndependent ℚ ![rowVec d u', rowVec d v'] →
      B (rowVec d u') (rowVec d u') ≤ B (rowVec d v') (rowVec d v') →
      ∃ N a b, (∀ fuel, N ≤ fuel → (do
        let (u, v) ← lagrangeLoop dot (1 - eps) fuel u' v'
        Outcome.ok (if 0 < dot u v then (u, vNeg v) else (u, v))) = .ok (a, b)) ∧ a.length = d ∧ b.length = d ∧
      latticeOf d [a, b] = latticeOf d [u, v] ∧ Indep d [a, b] ∧
      dot a b ≤ 0 ∧ -(eps / 2 * dot b b) ≤ dot a (vAdd a b) ∧ 0 ≤ dot b (vAdd a b) := by
    intro u' v' hu' hv' hL hli hle
    obtain ⟨m, hm⟩ := exists_nat_ge' ((D : ℚ) * B (rowVec d v') (rowVec d v'))
    obtain ⟨a, b, g1, g2, g3, g4, g5, g6, g7⟩ := lagrangeLoop_ok heps hB hd hD (L := latticeOf d [u, v])
      (fun x hx => hz x (hS ▸ hx) x (hS ▸ hx)) m u' v' hu' hv' hL hli (Or.inl hle) hm
    rw [abs_le] at g6 g7
    by_cases hp : 0 < B (rowVec d a) (rowVec d b)
    · refine ⟨m + 1, a, vNeg b, ?_, g2, by rw [vNeg_length, g3], ?_, ?_, ?_, ?_, ?_⟩
      · intro fuel hf
        rw [g1 fuel (by omega)]
        simp only [Outcome.ok_bind]
        rw [hd a b g2 g3, if_pos hp]
      · rw [latticeOf_pair, rv_neg, span_pair_neg, g4]
      · rw [indep_pair, rv_neg]
        rw [LinearIndependent.pair_iff] at g5 ⊢
        intro s t hst
        have := g5 s (-t) (by rw [← hst]; simp)
        exact ⟨this.1, by simpa using this.2⟩
      · rw [hd _ _ g2 (by rw [vNeg_length, g3]), rv_neg, map_neg]; linarith
      · rw [hd _ _ g2 (by rw [vAdd_length, g2]), hd _ _ (by rw [vNeg_length, g3]) (by rw [vNeg_length, g3]), rv_add g2,
          rv_neg]
        simp only [map_add, map_neg, LinearMap.neg_apply, neg_neg]
        linarith
      · rw [hd _ _ (by rw [vNeg_length, g3]) (by rw [vAdd_length, g2]), rv_add g2, rv_neg, map_add, map_neg,
          map_neg, LinearMap.neg_apply, LinearMap.neg_apply, hB.symm (rowVec d b) (rowVec d a)]; linarith
    · refine ⟨m + 1, a, b, ?_, g2, g3, ?_, ?_, ?_, ?_, ?_⟩
      · intro fuel hf
        rw [g1 fuel (by omega)]
        simp only [Outcome.ok_bind]
        rw [hd a b g2 g3, if_neg hp]
      · rw [latticeOf_pair, g4]
      · rw [indep_pair]; exact g5
      · rw [hd _ _ g2 g3]; linarith
      · rw [hd _ _ g2 (by rw [vAdd_length, g2]), hd _ _ g3 g3, rv_add g2, map_add]; linarith
      · rw [hd _ _ g3 (by rw [vAdd_length, g2]), rv_add g2, map_add, hB.symm (rowVec d b) (rowVec d a)]
        linarith
  unfold lagrangeReduced
  by_cases hs : dot v v < dot u u
  · simp only [if_pos hs]
    rw [hd v v hv hv, hd u u hu hu] at hs
    refine main v u hv hu ?_ ?_ hs.le
    · rw [latticeOf_pair, Set.pair_comm]
    · exact LinearIndependent.pair_symm_iff.1 hi
  · simp only [if_neg hs]
    rw [hd v v hv hv, hd u u hu hu] at hs
    exact main u v hu hv (by rw [latticeOf_pair]) hi (not_lt.1 hs)

theorem lagrange_ok (h : IsDot d dot) {u v : List Rat} (hu : u.length = d) (hv : v.length = d)
    (hi : Indep d [u, v]) :
    ∃ N a b, (∀ fuel, N ≤ fuel → lagrangeReduced fuel u v dot 0 = .ok (a, b)) ∧ a.length = d ∧ b.length = d ∧
      latticeOf d [a, b] = latticeOf d [u, v] ∧ Indep d [a, b] ∧
      dot a b ≤ 0 ∧ 0 ≤ dot a (vAdd a b) ∧ 0 ≤ dot b (vAdd a b) := by
  have := lagrange_ok_eps (le_refl (0 : ℚ)) h hu hv hi
  simpa only [zero_div, zero_mul, neg_zero] using this

/-! ### Selling reduction -/

/-- the update at the level of vectors -/
def upd {V : Type} [AddCommGroup V] (x : Fin 4 → V) (i j : Fin 4) : Fin 4 → V :=
  fun k => if k = i then - x i else if k = j then x j else x k + x i

/-- the rows of four lists -/
def qv (d : Nat) (vs : Quad) : Fin 4 → Fin d → ℚ := fun k => rowVec d (vs k)

theorem qv_update {vs : Quad} (h : ∀ k, (vs k).length = d) (i j : Fin 4) :
    qv d (sellingUpdate vs i j) = upd (qv d vs) i j := by
  funext k
  unfold qv sellingUpdate upd
  split
  · rw [rv_neg]
  · split
    · rfl
    · rw [rv_add (h k)]

theorem update_length {vs : Quad} (h : ∀ k, (vs k).length = d) (i j k : Fin 4) :
    (sellingUpdate vs i j k).length = d := by
  unfold sellingUpdate
  split
  · rw [vNeg_length, h]
  · split
    · rw [h]
    · rw [vAdd_length, h]

section upd
variable {V : Type} [AddCommGroup V]

theorem upd_sum (x : Fin 4 → V) (hx : ∑ k, x k = 0) {i j : Fin 4} (hij : i ≠ j) : ∑ k, upd x i j k = 0 := by
  have h : ∑ k, upd x i j k = ∑ k, x k + (x i - x i) := by
    rw [Fin.sum_univ_four, Fin.sum_univ_four]
    fin_cases i <;> fin_cases j <;> first | exact absurd rfl hij | (simp [upd]; abel_nf; done) | (simp [upd]; abel)
  rw [h, hx]; simp

theorem upd_span (x : Fin 4 → V) {i j : Fin 4} (hij : i ≠ j) :
    span ℤ (Set.range (upd x i j)) = span ℤ (Set.range x) := by
  have hx : ∀ k, x k ∈ span ℤ (Set.range x) := fun k => subset_span ⟨k, rfl⟩
  have hu : ∀ k, upd x i j k ∈ span ℤ (Set.range (upd x i j)) := fun k => subset_span ⟨k, rfl⟩
  apply le_antisymm
  · rw [span_le]
    rintro _ ⟨k, rfl⟩
    show upd x i j k ∈ span ℤ (Set.range x)
    unfold upd
    split
    · exact neg_mem (hx i)
    · split
      · exact hx j
      · exact add_mem (hx k) (hx i)
  · have hi : x i ∈ span ℤ (Set.range (upd x i j)) := by
      have := hu i
      rw [upd, if_pos rfl] at this
      simpa using neg_mem this
    rw [span_le]
    rintro _ ⟨k, rfl⟩
    show x k ∈ span ℤ (Set.range (upd x i j))
    by_cases h1 : k = i
    · subst h1; exact hi
    · by_cases h2 : k = j
      · subst h2
        have := hu k
        rwa [upd, if_neg h1, if_pos rfl] at this
      · have := hu k
        rw [upd, if_neg h1, if_neg h2] at this
        simpa using sub_mem this hi

theorem upd_norm [Module ℚ V] {B : V →ₗ[ℚ] V →ₗ[ℚ] ℚ} (hB : PosForm B) (x : Fin 4 → V) (hx : ∑ k, x k = 0)
    {i j : Fin 4} (hij : i ≠ j) :
    ∑ k, B (upd x i j k) (upd x i j k) = ∑ k, B (x k) (x k) - 2 * B (x i) (x j) := by
  have h : ∑ k, B (upd x i j k) (upd x i j k) =
      ∑ k, B (x k) (x k) + 2 * B (x i) (∑ k, x k) - 2 * B (x i) (x j) := by
    rw [map_sum, Fin.sum_univ_four, Fin.sum_univ_four, Fin.sum_univ_four]
    have s01 := hB.symm (x 1) (x 0)
    have s02 := hB.symm (x 2) (x 0)
    have s03 := hB.symm (x 3) (x 0)
    have s12 := hB.symm (x 2) (x 1)
    have s13 := hB.symm (x 3) (x 1)
    have s23 := hB.symm (x 3) (x 2)
    fin_cases i <;> fin_cases j <;> first
      | exact absurd rfl hij
      | (simp only [upd, map_add, map_neg, LinearMap.add_apply, LinearMap.neg_apply, Fin.zero_eta, Fin.mk_one,
          Fin.isValue, Fin.reduceFinMk, Fin.reduceEq, if_true, if_false, one_ne_zero, zero_ne_one, reduceIte]
         linarith)
  rw [h, hx]; simp
end upd

theorem sellingPass_ok {eps : ℚ} (heps : 0 ≤ eps) (hB : PosForm B)
    (hd : ∀ v w, v.length = d → w.length = d → dot v w = B (rowVec d v) (rowVec d w)) :
    ∀ (ps : List (Fin 4 × Fin 4)) (vs : Quad) (ch : Bool), (∀ p ∈ ps, p.1 ≠ p.2) →
      (∀ k, (vs k).length = d) → ∑ k, qv d vs k = 0 →
      (∀ k, ((sellingPass dot eps ps vs ch).1 k).length = d) ∧
      ∑ k, qv d (sellingPass dot eps ps vs ch).1 k = 0 ∧
      span ℤ (Set.range (qv d (sellingPass dot eps ps vs ch).1)) = span ℤ (Set.range (qv d vs)) ∧
      (ch = true → (sellingPass dot eps ps vs ch).2 = true) ∧
      ((sellingPass dot eps ps vs ch).2 = false → (sellingPass dot eps ps vs ch).1 = vs ∧
        ∀ p ∈ ps, B (qv d vs p.1) (qv d vs p.2) ≤ eps) ∧
      ∑ k, B (qv d (sellingPass dot eps ps vs ch).1 k) (qv d (sellingPass dot eps ps vs ch).1 k) ≤
        ∑ k, B (qv d vs k) (qv d vs k) ∧
      ((sellingPass dot eps ps vs ch).2 = true → ch = false →
        ∑ k, B (qv d (sellingPass dot eps ps vs ch).1 k) (qv d (sellingPass dot eps ps vs ch).1 k) <
        ∑ k, B (qv d vs k) (qv d vs k)) := by
  intro ps
  induction ps with
  | nil =>
    intro vs ch _ hl hs
    exact ⟨hl, hs, rfl, fun h => h, fun _ => ⟨rfl, by simp⟩, le_rfl, by simp [sellingPass]⟩
  | cons p ps ih =>
    obtain ⟨i, j⟩ := p
    intro vs ch hne hl hs
    have hij : i ≠ j := hne (i, j) (by simp)
    have hne' : ∀ p ∈ ps, p.1 ≠ p.2 := fun p hp => hne p (by simp [hp])
    have hdot : dot (vs i) (vs j) = B (qv d vs i) (qv d vs j) := hd _ _ (hl i) (hl j)
    unfold sellingPass
    rw [hdot]
    by_cases h : B (qv d vs i) (qv d vs j) > eps
    · simp only [if_pos h]
      obtain ⟨g1, g2, g3, g4, g5, g6, -⟩ := ih (sellingUpdate vs i j) true hne'
        (fun k => update_length hl i j k) (by rw [qv_update hl]; exact upd_sum _ hs hij)
      have e := upd_norm hB (qv d vs) hs hij
      have hlt : ∑ k, B (qv d (sellingPass dot eps ps (sellingUpdate vs i j) true).1 k)
          (qv d (sellingPass dot eps ps (sellingUpdate vs i j) true).1 k) < ∑ k, B (qv d vs k) (qv d vs k) := by
        refine lt_of_le_of_lt g6 ?_
        rw [qv_update hl, e]; linarith
      refine ⟨g1, g2, ?_, fun _ => g4 rfl, ?_, hlt.le, fun _ _ => hlt⟩
      · rw [g3, qv_update hl, upd_span _ hij]
      · intro hf; rw [g4 rfl] at hf; cases hf
    · simp only [if_neg h]
      obtain ⟨g1, g2, g3, g4, g5, g6, g7⟩ := ih vs ch hne' hl hs
      refine ⟨g1, g2, g3, g4, fun hf => ⟨(g5 hf).1, ?_⟩, g6, g7⟩
      intro p hp
      rcases List.mem_cons.1 hp with rfl | hp
      · exact not_lt.1 h
      · exact (g5 hf).2 p hp

theorem sellingLoop_ok {eps : ℚ} (heps : 0 ≤ eps) (hB : PosForm B)
    (hd : ∀ v w, v.length = d → w.length = d → dot v w = B (rowVec d v) (rowVec d w))
    {L : Submodule ℤ (Fin d → ℚ)} {D : ℕ} (hD : 0 < D)
    (hz : ∀ x ∈ L, ∃ z : ℤ, (D : ℚ) * B x x = z) :
    ∀ (m : ℕ) (vs : Quad), (∀ k, (vs k).length = d) → ∑ k, qv d vs k = 0 →
      span ℤ (Set.range (qv d vs)) = L → (D : ℚ) * ∑ k, B (qv d vs k) (qv d vs k) ≤ m →
      ∃ ws : Quad, (∀ fuel, m < fuel → sellingLoop dot eps fuel vs = .ok ws) ∧ (∀ k, (ws k).length = d) ∧
        ∑ k, qv d ws k = 0 ∧ span ℤ (Set.range (qv d ws)) = L ∧
        ∀ p ∈ sellingPairs, B (qv d ws p.1) (qv d ws p.2) ≤ eps := by
  intro m
  induction m using Nat.strong_induction_on with
  | _ m ih =>
  intro vs hl hs hL hm
  obtain ⟨g1, g2, g3, g4, g5, g6, g7⟩ := sellingPass_ok heps hB hd sellingPairs vs false (by decide) hl hs
  rcases hp : sellingPass dot eps sellingPairs vs false with ⟨ws, ch⟩
  rw [hp] at g1 g2 g3 g4 g5 g6 g7
  simp only at g1 g2 g3 g4 g5 g6 g7
  cases ch with
  | false =>
    obtain ⟨rfl, h5⟩ := g5 rfl
    refine ⟨ws, ?_, hl, hs, hL, h5⟩
    intro fuel hf
    obtain ⟨f, rfl⟩ : ∃ f, fuel = f + 1 := ⟨fuel - 1, by omega⟩
    simp [sellingLoop, hp]
  | true =>
    have hlt := g7 rfl trivial
    have hD' : (0 : ℚ) < D := by exact_mod_cast hD
    have hn : ∃ n : ℕ, (D : ℚ) * ∑ k, B (qv d ws k) (qv d ws k) = n := by
      have : ∀ k, ∃ n : ℕ, (D : ℚ) * B (qv d ws k) (qv d ws k) = n := by
        intro k
        apply norm_nat hB
        apply hz
        rw [← hL, ← g3]; exact subset_span ⟨k, rfl⟩
      choose f hf using this
      refine ⟨∑ k, f k, ?_⟩
      rw [Finset.mul_sum]; push_cast
      exact Finset.sum_congr rfl (fun k _ => hf k)
    obtain ⟨n, hn⟩ := hn
    have hnm : n < m := by
      have := lt_of_lt_of_le (mul_lt_mul_of_pos_left hlt hD') hm
      rw [hn] at this; exact_mod_cast this
    obtain ⟨zs, k1, k2⟩ := ih n hnm ws g1 g2 (by rw [g3, hL]) hn.le
    refine ⟨zs, ?_, k2⟩
    intro fuel hf
    obtain ⟨f, rfl⟩ : ∃ f, fuel = f + 1 := ⟨fuel - 1, by omega⟩
    simp only [sellingLoop, hp]
    exact k1 f (by omega)

/-! ### lists of three -/

theorem latticeOf_three (u v w : List Rat) :
    latticeOf d [u, v, w] = span ℤ (Set.range ![rowVec d u, rowVec d v, rowVec d w]) := by
  unfold latticeOf
  congr 1
  ext x
  simp only [Set.mem_image, Set.mem_range, Fin.exists_fin_succ, List.mem_cons, List.not_mem_nil, or_false,
    Set.mem_ofPred_eq]
  simp [eq_comm, or_assoc]

theorem indep_three (u v w : List Rat) :
    Indep d [u, v, w] ↔ LinearIndependent ℚ ![rowVec d u, rowVec d v, rowVec d w] := by
  unfold Indep
  have : (fun i : Fin 3 => rowVec d [u, v, w][i.1]) = ![rowVec d u, rowVec d v, rowVec d w] := by
    funext i
    fin_cases i <;> rfl
  show LinearIndependent ℚ (fun i : Fin 3 => rowVec d [u, v, w][i.1]) ↔ _
  rw [this]

theorem range_indep (vs : List (List Rat)) :
    Set.range (fun i : Fin vs.length => rowVec d vs[i.1]) = rowVec d '' {v | v ∈ vs} := by
  ext x
  constructor
  · rintro ⟨i, rfl⟩; exact ⟨_, List.getElem_mem i.2, rfl⟩
  · rintro ⟨v, hv, rfl⟩
    obtain ⟨i, hi, rfl⟩ := List.getElem_of_mem hv
    exact ⟨⟨i, hi⟩, rfl⟩

theorem span_of_lattice {vs ws : List (List Rat)} (h : latticeOf d vs = latticeOf d ws) :
    span ℚ (rowVec d '' {v | v ∈ vs}) = span ℚ (rowVec d '' {v | v ∈ ws}) := by
  have := congrArg (fun L : Submodule ℤ (Fin d → ℚ) => span ℚ (L : Set (Fin d → ℚ))) h
  unfold latticeOf at this
  rwa [span_span_of_tower, span_span_of_tower] at this

theorem indep_iff_finrank (vs : List (List Rat)) :
    Indep d vs ↔ vs.length = Module.finrank ℚ (span ℚ (rowVec d '' {v | v ∈ vs})) := by
  unfold Indep
  rw [linearIndependent_iff_card_eq_finrank_span, Set.finrank, range_indep, Fintype.card_fin]

theorem indep_of_lattice {vs ws : List (List Rat)} (h : latticeOf d vs = latticeOf d ws)
    (hl : vs.length = ws.length) (hi : Indep d ws) : Indep d vs := by
  rw [indep_iff_finrank] at hi ⊢
  rw [span_of_lattice h, hl, hi]

theorem span_four {V : Type} [AddCommGroup V] (x : Fin 4 → V) (h : ∑ k, x k = 0) :
    span ℤ (Set.range x) = span ℤ (Set.range ![x 0, x 1, x 2]) := by
  rw [Fin.sum_univ_four] at h
  apply le_antisymm
  · rw [span_le]
    have h0 : x 0 ∈ span ℤ (Set.range ![x 0, x 1, x 2]) := subset_span ⟨0, rfl⟩
    have h1 : x 1 ∈ span ℤ (Set.range ![x 0, x 1, x 2]) := subset_span ⟨1, rfl⟩
    have h2 : x 2 ∈ span ℤ (Set.range ![x 0, x 1, x 2]) := subset_span ⟨2, rfl⟩
    have h3 : x 3 ∈ span ℤ (Set.range ![x 0, x 1, x 2]) := by
      rw [add_comm, ← eq_neg_iff_add_eq_zero] at h
      rw [h]
      exact neg_mem (add_mem (add_mem h0 h1) h2)
    rintro _ ⟨k, rfl⟩
    fin_cases k
    exacts [h0, h1, h2, h3]
  · rw [span_le]
    rintro _ ⟨k, rfl⟩
    fin_cases k
    exacts [subset_span ⟨0, rfl⟩, subset_span ⟨1, rfl⟩, subset_span ⟨2, rfl⟩]

theorem selling_ok_eps {eps : ℚ} (heps : 0 ≤ eps) (h : IsDot d dot) {u v w : List Rat} (hu : u.length = d) (hv : v.length = d)
    (hw : w.length = d) :
    ∃ N a b c, (∀ fuel, N ≤ fuel → sellingReduced fuel u v w dot eps = .ok (a, b, c)) ∧
      a.length = d ∧ b.length = d ∧ c.length = d ∧ latticeOf d [a, b, c] = latticeOf d [u, v, w] ∧
      dot a b ≤ eps ∧ dot a c ≤ eps ∧ dot b c ≤ eps ∧
      dot a (vNeg (vAdd (vAdd a b) c)) ≤ eps ∧ dot b (vNeg (vAdd (vAdd a b) c)) ≤ eps ∧
      dot c (vNeg (vAdd (vAdd a b) c)) ≤ eps := by
  obtain ⟨B, hB, hd⟩ := isDot_form h
  obtain ⟨S, hS⟩ := latticeOf_finset d [u, v, w]
  obtain ⟨D, hD, hz⟩ := form_denom B S
  set q : Quad := ![u, v, w, vNeg (vAdd (vAdd u v) w)] with hq
  have hl : ∀ k, (q k).length = d := by
    intro k
    fin_cases k
    exacts [hu, hv, hw, by show (vNeg (vAdd (vAdd u v) w)).length = d; rw [vNeg_length, vAdd_length, vAdd_length, hu]]
  have hs : ∑ k, qv d q k = 0 := by
    rw [Fin.sum_univ_four]
    show rowVec d u + rowVec d v + rowVec d w + rowVec d (vNeg (vAdd (vAdd u v) w)) = 0
    rw [rv_neg, rv_add (by rw [vAdd_length, hu]), rv_add hu, add_neg_cancel]
  have hL : span ℤ (Set.range (qv d q)) = latticeOf d [u, v, w] := by
    rw [span_four _ hs, latticeOf_three]; rfl
  obtain ⟨m, hm⟩ := exists_nat_ge' ((D : ℚ) * ∑ k, B (qv d q k) (qv d q k))
  obtain ⟨ws, g1, g2, g3, g4, g5⟩ := sellingLoop_ok heps hB hd hD (L := latticeOf d [u, v, w])
    (fun x hx => hz x (hS ▸ hx) x (hS ▸ hx)) m q hl hs hL hm
  have e3 : rowVec d (vNeg (vAdd (vAdd (ws 0) (ws 1)) (ws 2))) = qv d ws 3 := by
    rw [Fin.sum_univ_four] at g3
    rw [rv_neg, rv_add (by rw [vAdd_length, g2]), rv_add (g2 0)]
    exact neg_eq_of_add_eq_zero_right g3
  have l3 : (vNeg (vAdd (vAdd (ws 0) (ws 1)) (ws 2))).length = d := by
    rw [vNeg_length, vAdd_length, vAdd_length, g2]
  refine ⟨m + 1, ws 0, ws 1, ws 2, ?_, g2 0, g2 1, g2 2, ?_, ?_, ?_, ?_, ?_, ?_, ?_⟩
  · intro fuel hf
    unfold sellingReduced
    simp only
    rw [← hq, g1 fuel (by omega)]
    rfl
  · rw [← g4, span_four _ g3, latticeOf_three]; rfl
  · rw [hd _ _ (g2 0) (g2 1)]; exact g5 (0, 1) (by decide)
  · rw [hd _ _ (g2 0) (g2 2)]; exact g5 (0, 2) (by decide)
  · rw [hd _ _ (g2 1) (g2 2)]; exact g5 (1, 2) (by decide)
  · rw [hd _ _ (g2 0) l3, e3]; exact g5 (0, 3) (by decide)
  · rw [hd _ _ (g2 1) l3, e3]; exact g5 (1, 3) (by decide)
  · rw [hd _ _ (g2 2) l3, e3]; exact g5 (2, 3) (by decide)

theorem selling_ok (h : IsDot d dot) {u v w : List Rat} (hu : u.length = d) (hv : v.length = d)
    (hw : w.length = d) :
    ∃ N a b c, (∀ fuel, N ≤ fuel → sellingReduced fuel u v w dot 0 = .ok (a, b, c)) ∧
      a.length = d ∧ b.length = d ∧ c.length = d ∧ latticeOf d [a, b, c] = latticeOf d [u, v, w] ∧
      dot a b ≤ 0 ∧ dot a c ≤ 0 ∧ dot b c ≤ 0 ∧
      dot a (vNeg (vAdd (vAdd a b) c)) ≤ 0 ∧ dot b (vNeg (vAdd (vAdd a b) c)) ≤ 0 ∧
      dot c (vNeg (vAdd (vAdd a b) c)) ≤ 0 :=
  selling_ok_eps (le_refl (0 : ℚ)) h hu hv hw

end Systre.Lattices
