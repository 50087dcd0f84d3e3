import Verif.Lemmas.LatticeLoops
import Mathlib.LinearAlgebra.Matrix.NonsingularInverse
import Mathlib.LinearAlgebra.Matrix.ToLinearEquiv

/-! Helper lemmas: obtuse superbases and short vectors. -/

namespace Systre.Lattices
open Systre Submodule

section super
variable {V : Type} [AddCommGroup V] [Module ℚ V] {B : V →ₗ[ℚ] V →ₗ[ℚ] ℚ} {n : Nat}

/-- Selling's formula -/
theorem selling_formula (hB : PosForm B) (x : Fin n → V) (h0 : ∑ k, x k = 0) (c : Fin n → ℚ) :
    B (∑ k, c k • x k) (∑ k, c k • x k) = -(1 / 2) * ∑ i, ∑ j, (c i - c j) ^ 2 * B (x i) (x j) := by
  have e1 : B (∑ k, c k • x k) (∑ k, c k • x k) = ∑ i, ∑ j, c i * c j * B (x i) (x j) := by
    simp only [map_sum, map_smul, LinearMap.sum_apply, LinearMap.smul_apply, smul_eq_mul, Finset.mul_sum]
    rw [Finset.sum_comm]
    refine Finset.sum_congr rfl (fun i _ => Finset.sum_congr rfl (fun j _ => ?_))
    ring
  have e2 : ∑ i, ∑ j, c i ^ 2 * B (x i) (x j) = 0 := by
    apply Finset.sum_eq_zero
    intro i _
    rw [← Finset.mul_sum, ← map_sum, h0, map_zero, mul_zero]
  have e3 : ∑ i, ∑ j, c j ^ 2 * B (x i) (x j) = 0 := by
    rw [Finset.sum_comm]
    apply Finset.sum_eq_zero
    intro i _
    rw [← Finset.mul_sum]
    have : ∑ k, B (x k) (x i) = 0 := by
      rw [← LinearMap.sum_apply, ← map_sum, h0, map_zero, LinearMap.zero_apply]
    rw [this, mul_zero]
  have e4 : ∑ i, ∑ j, (c i - c j) ^ 2 * B (x i) (x j) =
      ∑ i, ∑ j, c i ^ 2 * B (x i) (x j) + ∑ i, ∑ j, c j ^ 2 * B (x i) (x j) -
        2 * ∑ i, ∑ j, c i * c j * B (x i) (x j) := by
    rw [Finset.mul_sum, ← Finset.sum_add_distrib, ← Finset.sum_sub_distrib]
    refine Finset.sum_congr rfl (fun i _ => ?_)
    rw [Finset.mul_sum, ← Finset.sum_add_distrib, ← Finset.sum_sub_distrib]
    refine Finset.sum_congr rfl (fun j _ => ?_)
    ring
  rw [e1, e4, e2, e3]; ring

/-- a partial sum of an obtuse superbase is at most as long as a given lattice vector -/
theorem level_sum (x : Fin n → V) (h0 : ∑ k, x k = 0) (c : Fin n → ℤ) :
    ∃ (m : ℤ) (N : ℕ), ∑ k, c k • x k =
      ∑ t ∈ Finset.range N, ∑ k ∈ Finset.univ.filter (fun k => m + t < c k), x k := by
  classical
  obtain ⟨m, hm⟩ : ∃ m, ∀ k, m ≤ c k := by
    obtain ⟨m, hm⟩ := (Set.finite_range c).bddBelow
    exact ⟨m, fun k => hm ⟨k, rfl⟩⟩
  obtain ⟨M, hM⟩ : ∃ m, ∀ k, c k ≤ m := by
    obtain ⟨m, hm⟩ := (Set.finite_range c).bddAbove
    exact ⟨m, fun k => hm ⟨k, rfl⟩⟩
  refine ⟨m, (M - m).toNat, ?_⟩
  have e1 : ∑ k, c k • x k = ∑ k, (c k - m) • x k := by
    simp only [sub_smul, Finset.sum_sub_distrib]
    rw [← Finset.smul_sum, h0, smul_zero, sub_zero]
  rw [e1]
  simp only [Finset.sum_filter]
  rw [Finset.sum_comm]
  refine Finset.sum_congr rfl (fun k _ => ?_)
  rw [← Finset.sum_filter, Finset.sum_const]
  have hf : Finset.filter (fun t : ℕ => m + (t : ℤ) < c k) (Finset.range (M - m).toNat) =
      Finset.range (c k - m).toNat := by
    ext t
    have := hm k
    have := hM k
    simp only [Finset.mem_filter, Finset.mem_range]
    omega
  rw [hf, Finset.card_range, ← natCast_zsmul, Int.toNat_of_nonneg (by have := hm k; omega)]

theorem level_short (hB : PosForm B) (x : Fin n → V) (h0 : ∑ k, x k = 0)
    (hob : ∀ i j, i ≠ j → B (x i) (x j) ≤ 0) (c : Fin n → ℤ) (t : ℤ) :
    B (∑ k ∈ Finset.univ.filter (fun k => t < c k), x k) (∑ k ∈ Finset.univ.filter (fun k => t < c k), x k) ≤
      B (∑ k, c k • x k) (∑ k, c k • x k) := by
  classical
  have e1 : ∑ k ∈ Finset.univ.filter (fun k => t < c k), x k =
      ∑ k, (if t < c k then (1 : ℚ) else 0) • x k := by
    rw [Finset.sum_filter]
    exact Finset.sum_congr rfl (fun k _ => by split <;> simp)
  have e2 : ∑ k, c k • x k = ∑ k, (c k : ℚ) • x k :=
    Finset.sum_congr rfl (fun k _ => (Int.cast_smul_eq_zsmul ℚ _ _).symm)
  rw [e1, e2, selling_formula hB x h0, selling_formula hB x h0]
  have : ∑ i, ∑ j, ((c i : ℚ) - c j) ^ 2 * B (x i) (x j) ≤
      ∑ i, ∑ j, ((if t < c i then (1 : ℚ) else 0) - (if t < c j then (1 : ℚ) else 0)) ^ 2 * B (x i) (x j) := by
    refine Finset.sum_le_sum (fun i _ => Finset.sum_le_sum (fun j _ => ?_))
    by_cases hij : i = j
    · subst hij; simp
    · apply mul_le_mul_of_nonpos_right _ (hob i j hij)
      by_cases hcc : c i = c j
      · rw [hcc]; simp
      · have h1 : (1 : ℚ) ≤ ((c i : ℚ) - c j) ^ 2 := by
          have : (1 : ℤ) ≤ (c i - c j) ^ 2 := by
            have : c i - c j ≠ 0 := sub_ne_zero.2 hcc
            have := pow_pos (abs_pos.2 this) 2
            rw [sq_abs] at this; omega
          exact_mod_cast this
        refine le_trans ?_ h1
        split <;> split <;> norm_num
  linarith

/-- an element of the lattice of an obtuse superbase outside `W`: some partial sum outside `W` is as short -/
theorem short_subset (hB : PosForm B) (x : Fin n → V) (h0 : ∑ k, x k = 0)
    (hob : ∀ i j, i ≠ j → B (x i) (x j) ≤ 0) (c : Fin n → ℤ) (W : Submodule ℚ V)
    (hc : ∑ k, c k • x k ∉ W) :
    ∃ S : Finset (Fin n), ∑ k ∈ S, x k ∉ W ∧
      B (∑ k ∈ S, x k) (∑ k ∈ S, x k) ≤ B (∑ k, c k • x k) (∑ k, c k • x k) := by
  obtain ⟨m, N, h⟩ := level_sum x h0 c
  have : ∃ t ∈ Finset.range N, ∑ k ∈ Finset.univ.filter (fun k => m + (t : ℤ) < c k), x k ∉ W := by
    by_contra hcon
    push Not at hcon
    exact hc (by rw [h]; exact sum_mem hcon)
  obtain ⟨t, -, ht⟩ := this
  exact ⟨_, ht, level_short hB x h0 hob c _⟩

/-- a shortest element outside `W` of the lattice of an obtuse superbase is a partial sum, up to sign -/
theorem shortest_exact (hB : PosForm B) (x : Fin n → V) (h0 : ∑ k, x k = 0)
    (hob : ∀ i j, i ≠ j → B (x i) (x j) ≤ 0) (c : Fin n → ℤ) (W : Submodule ℚ V)
    (hc : ∑ k, c k • x k ∉ W)
    (hmin : ∀ c' : Fin n → ℤ, ∑ k, c' k • x k ∉ W →
      B (∑ k, c k • x k) (∑ k, c k • x k) ≤ B (∑ k, c' k • x k) (∑ k, c' k • x k)) :
    ∃ S : Finset (Fin n), ∑ k, c k • x k = ∑ k ∈ S, x k ∨ ∑ k, c k • x k = - ∑ k ∈ S, x k := by
  classical
  set y := ∑ k, c k • x k with hy
  set p := ∑ k, (c k - c k / 2) • x k with hp
  set q := ∑ k, (c k / 2) • x k with hq
  set s := ∑ k ∈ Finset.univ.filter (fun k => c k % 2 = 1), x k with hs
  have hypq : y = p + q := by
    rw [hy, hp, hq, ← Finset.sum_add_distrib]
    refine Finset.sum_congr rfl (fun k _ => ?_)
    rw [← add_smul]; congr 1; omega
  have hspq : s = p - q := by
    rw [hs, hp, hq, ← Finset.sum_sub_distrib, Finset.sum_filter]
    refine Finset.sum_congr rfl (fun k _ => ?_)
    rw [← sub_smul]
    rcases Int.emod_two_eq_zero_or_one (c k) with h | h
    · rw [if_neg (by omega), show c k - c k / 2 - c k / 2 = 0 by omega, zero_smul]
    · rw [if_pos h, show c k - c k / 2 - c k / 2 = 1 by omega, one_smul]
  have hsy : B s s ≤ B y y := by
    have e1 : s = ∑ k, (if c k % 2 = 1 then (1 : ℚ) else 0) • x k := by
      rw [hs, Finset.sum_filter]
      exact Finset.sum_congr rfl (fun k _ => by split <;> simp)
    have e2 : y = ∑ k, (c k : ℚ) • x k :=
      Finset.sum_congr rfl (fun k _ => (Int.cast_smul_eq_zsmul ℚ _ _).symm)
    rw [e1, e2, selling_formula hB x h0, selling_formula hB x h0]
    have : ∑ i, ∑ j, ((c i : ℚ) - c j) ^ 2 * B (x i) (x j) ≤
        ∑ i, ∑ j, ((if c i % 2 = 1 then (1 : ℚ) else 0) - (if c j % 2 = 1 then (1 : ℚ) else 0)) ^ 2 *
          B (x i) (x j) := by
      refine Finset.sum_le_sum (fun i _ => Finset.sum_le_sum (fun j _ => ?_))
      by_cases hij : i = j
      · subst hij; simp
      · apply mul_le_mul_of_nonpos_right _ (hob i j hij)
        by_cases hcc : c i = c j
        · rw [hcc]; simp
        · have h1 : (1 : ℚ) ≤ ((c i : ℚ) - c j) ^ 2 := by
            have : (1 : ℤ) ≤ (c i - c j) ^ 2 := by
              have : c i - c j ≠ 0 := sub_ne_zero.2 hcc
              have := pow_pos (abs_pos.2 this) 2
              rw [sq_abs] at this; omega
            exact_mod_cast this
          refine le_trans ?_ h1
          split <;> split <;> norm_num
    linarith
  have hpar : B y y + B s s = 2 * B p p + 2 * B q q := by
    rw [hypq, hspq]
    simp only [map_add, map_sub, LinearMap.add_apply, LinearMap.sub_apply]
    ring
  refine ⟨Finset.univ.filter (fun k => c k % 2 = 1), ?_⟩
  rw [← hs]
  by_cases hq0 : q = 0
  · left; rw [hypq, hspq, hq0]; simp
  by_cases hp0 : p = 0
  · right; rw [hypq, hspq, hp0]; simp
  exfalso
  have hpp := hB.pos p hp0
  have hqp := hB.pos q hq0
  apply hc
  rw [hypq]
  refine add_mem ?_ ?_
  · by_contra hn
    have := hmin _ hn
    linarith
  · by_contra hn
    have := hmin _ hn
    linarith

end super

section coeff
variable {V : Type} [AddCommGroup V] [Module ℚ V] {n : Nat}

/-- vectors given by integer coefficients -/
def comb (C : Matrix (Fin n) (Fin n) ℤ) (x : Fin n → V) : Fin n → V := fun i => ∑ k, C i k • x k

theorem comb_mul (C D : Matrix (Fin n) (Fin n) ℤ) (x : Fin n → V) : comb C (comb D x) = comb (C * D) x := by
  funext i
  simp only [comb, Matrix.mul_apply, Finset.smul_sum, Finset.sum_smul, smul_smul]
  rw [Finset.sum_comm]

theorem comb_span_le (C : Matrix (Fin n) (Fin n) ℤ) (x : Fin n → V) :
    span ℤ (Set.range (comb C x)) ≤ span ℤ (Set.range x) := by
  rw [span_le]
  rintro _ ⟨i, rfl⟩
  exact sum_mem (fun k _ => smul_mem _ _ (subset_span ⟨k, rfl⟩))

theorem comb_span {C : Matrix (Fin n) (Fin n) ℤ} (x : Fin n → V) (hC : C.det = 1 ∨ C.det = -1) :
    span ℤ (Set.range (comb C x)) = span ℤ (Set.range x) := by
  apply le_antisymm (comb_span_le C x)
  have hu : IsUnit C.det := by rw [Int.isUnit_iff]; exact hC
  have : comb C⁻¹ (comb C x) = x := by
    rw [comb_mul, Matrix.nonsing_inv_mul _ hu]
    funext i
    simp [comb, Matrix.one_apply, ite_smul]
  conv_lhs => rw [← this]
  exact comb_span_le _ _

theorem comb_li {C : Matrix (Fin n) (Fin n) ℤ} {x : Fin n → V} (hx : LinearIndependent ℚ x) (hC : C.det ≠ 0) :
    LinearIndependent ℚ (comb C x) := by
  rw [Fintype.linearIndependent_iff]
  intro g hg
  have e : ∑ i, g i • comb C x i = ∑ k, (Matrix.vecMul g (C.map (Int.cast : ℤ → ℚ))) k • x k := by
    simp only [comb, Finset.smul_sum, Matrix.vecMul, dotProduct, Finset.sum_smul, Matrix.map_apply]
    rw [Finset.sum_comm]
    refine Finset.sum_congr rfl (fun i _ => Finset.sum_congr rfl (fun j _ => ?_))
    rw [← Int.cast_smul_eq_zsmul ℚ, smul_smul]
  rw [e] at hg
  have h0 := Fintype.linearIndependent_iff.1 hx _ hg
  have hd : (C.map (Int.cast : ℤ → ℚ)).det ≠ 0 := by
    have : (C.map (Int.cast : ℤ → ℚ)).det = (C.det : ℚ) := by
      rw [show C.map (Int.cast : ℤ → ℚ) = (Int.castRingHom ℚ).mapMatrix C from rfl, ← RingHom.map_det]; rfl
    rw [this]; exact_mod_cast hC
  have := Matrix.eq_zero_of_vecMul_eq_zero hd (v := g) (funext h0)
  intro i; rw [this]; rfl

theorem comb_det {C : Matrix (Fin n) (Fin n) ℤ} {x : Fin n → V} (h : LinearIndependent ℚ (comb C x)) :
    C.det ≠ 0 := by
  intro h0
  obtain ⟨v, hv, hv0⟩ := Matrix.exists_vecMul_eq_zero_iff.2 h0
  apply hv
  have e : ∑ i, (v i : ℚ) • comb C x i = ∑ k, (Matrix.vecMul v C) k • x k := by
    simp only [comb, Finset.smul_sum, Matrix.vecMul, dotProduct, Finset.sum_smul]
    rw [Finset.sum_comm]
    refine Finset.sum_congr rfl (fun i _ => Finset.sum_congr rfl (fun j _ => ?_))
    rw [Int.cast_smul_eq_zsmul, smul_smul]
  rw [hv0] at e
  have := Fintype.linearIndependent_iff.1 h (fun i => (v i : ℚ)) (by rw [e]; simp)
  funext i
  exact_mod_cast this i

end coeff

/-! ### lists of vectors -/

variable {d : Nat}

theorem indep_append {a : List (List Rat)} {w : List Rat} (ha : Indep d a) :
    Indep d (a ++ [w]) ↔ rowVec d w ∉ span ℚ (rowVec d '' {v | v ∈ a}) := by
  have hset : rowVec d '' {v | v ∈ a ++ [w]} = insert (rowVec d w) (rowVec d '' {v | v ∈ a}) := by
    ext x
    simp only [Set.mem_image, Set.mem_insert_iff, List.mem_append, List.mem_singleton, Set.mem_ofPred_eq]
    constructor
    · rintro ⟨y, h | h, rfl⟩
      · exact Or.inr ⟨y, h, rfl⟩
      · subst h; exact Or.inl rfl
    · rintro (rfl | ⟨y, h, rfl⟩)
      · exact ⟨w, Or.inr rfl, rfl⟩
      · exact ⟨y, Or.inl h, rfl⟩
  constructor
  · intro h hm
    have h1 := (indep_iff_finrank _).1 ha
    have h2 := (indep_iff_finrank _).1 h
    rw [hset, span_insert_eq_span hm, List.length_append] at h2
    simp at h2; omega
  · intro hm
    unfold Indep
    have hlen : (a ++ [w]).length = a.length + 1 := by simp
    rw [← linearIndependent_equiv (finCongr hlen.symm)]
    have : (fun i : Fin (a ++ [w]).length => rowVec d (a ++ [w])[i.1]) ∘ (finCongr hlen.symm) =
        Fin.snoc (fun i : Fin a.length => rowVec d a[i.1]) (rowVec d w) := by
      funext i
      refine Fin.lastCases ?_ (fun i => ?_) i
      · simp
      · simp
    rw [this, linearIndependent_finSnoc, range_indep]
    exact ⟨ha, hm⟩

theorem rankOf_ok {a : List (List Rat)} (hl : ∀ v ∈ a, v.length = d) :
    ∃ r, rankOf a = .ok r ∧ (r < a.length ↔ ¬ Indep d a) := by
  obtain ⟨bs, h1, h2, -, h3, h4⟩ := gen_extend d a hl
  refine ⟨bs.length, ?_, ?_⟩
  · unfold rankOf; rw [h1]; rfl
  · have h5 := (indep_iff_finrank bs).1 h4
    rw [indep_iff_finrank, h5, h3]
    have hle : Module.finrank ℚ (span ℚ (rowVec d '' {v | v ∈ a})) ≤ a.length := by
      rw [← range_indep]
      exact (finrank_range_le_card _).trans (by simp)
    omega

end Systre.Lattices
