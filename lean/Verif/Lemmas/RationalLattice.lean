import Verif.Lemmas.LatticeLoops
import Verif.Lemmas.NullSpace

/-! Helper lemmas: `rational_lattice_basis`. -/

namespace Systre.Lattices
open Systre Submodule

theorem commonDenom_aux (xs : List Rat) : ∀ c : ℕ, 0 < c →
    ∃ r : ℕ, 0 < r ∧ xs.foldl (fun c (x : ℚ) => c * ((x.den : Int) / (Int.gcd c x.den : Int))) (c : Int) = r ∧
      c ∣ r ∧ (∀ x ∈ xs, x.den ∣ r) ∧ ∀ m : ℕ, c ∣ m → (∀ x ∈ xs, x.den ∣ m) → r ∣ m := by
  induction xs with
  | nil => intro c hc; exact ⟨c, hc, rfl, dvd_rfl, by simp, fun m h _ => h⟩
  | cons x xs ih =>
    intro c hc
    have e : (c : Int) * ((x.den : Int) / (Int.gcd c x.den : Int)) = (Nat.lcm c x.den : ℕ) := by
      rw [Int.gcd_natCast_natCast, Nat.lcm, Nat.mul_div_assoc _ (Nat.gcd_dvd_right _ _)]
      push_cast; rfl
    have hl : 0 < Nat.lcm c x.den := Nat.lcm_pos hc x.den_pos
    obtain ⟨r, h1, h2, h3, h4, h5⟩ := ih _ hl
    refine ⟨r, h1, ?_, (Nat.dvd_lcm_left _ _).trans h3, ?_, ?_⟩
    · rw [List.foldl_cons, e, h2]
    · intro y hy
      rcases List.mem_cons.1 hy with rfl | hy
      · exact (Nat.dvd_lcm_right _ _).trans h3
      · exact h4 y hy
    · intro m hm hx
      exact h5 m (Nat.lcm_dvd hm (hx x (by simp))) (fun y hy => hx y (by simp [hy]))

theorem commonDenom_ok (vs : List (List Rat)) : ∃ r : ℕ, 0 < r ∧ commonDenom vs = r ∧
    (∀ v ∈ vs, ∀ x ∈ v, x.den ∣ r) ∧ ∀ m : ℕ, (∀ v ∈ vs, ∀ x ∈ v, x.den ∣ m) → r ∣ m := by
  obtain ⟨r, h1, h2, -, h4, h5⟩ := commonDenom_aux vs.flatten 1 one_pos
  refine ⟨r, h1, by simpa [commonDenom] using h2, ?_, ?_⟩
  · intro v hv x hx
    exact h4 x (List.mem_flatten.2 ⟨v, hv, hx⟩)
  · intro m hm
    refine h5 m (one_dvd _) (fun x hx => ?_)
    obtain ⟨v, hv, hx⟩ := List.mem_flatten.1 hx
    exact hm v hv x hx

theorem den_dvd_of_int {x : ℚ} {m : ℕ} (h : ∃ z : ℤ, x * m = z) : x.den ∣ m := by
  obtain ⟨z, hz⟩ := h
  have hd : (x.den : ℚ) ≠ 0 := by exact_mod_cast x.den_nz
  have h1 : (x.num : ℚ) * m = z * x.den := by
    have := Rat.num_div_den x
    rw [div_eq_iff hd] at this
    rw [this]
    rw [← hz]; ring
  have h2 : x.num * (m : ℤ) = z * x.den := by exact_mod_cast h1
  have h3 : (x.den : ℤ) ∣ x.num * m := ⟨z, by rw [h2, mul_comm]⟩
  have h4 : IsCoprime (x.den : ℤ) x.num := by
    rw [Int.isCoprime_iff_gcd_eq_one, Int.gcd_comm]
    exact x.reduced
  have := h4.dvd_of_dvd_mul_left h3
  exact_mod_cast this

theorem int_of_den_dvd {x : ℚ} {m : ℕ} (h : x.den ∣ m) : (x * m).den = 1 := by
  obtain ⟨k, rfl⟩ := h
  have hd : (x.den : ℚ) ≠ 0 := by exact_mod_cast x.den_nz
  have : x * ((x.den * k : ℕ) : ℚ) = ((x.num * k : ℤ) : ℚ) := by
    have := Rat.num_div_den x
    rw [div_eq_iff hd] at this
    push_cast
    rw [← mul_assoc, ← this]
  rw [this]; rfl

theorem num_of_den_one {x : ℚ} (h : x.den = 1) : x = (x.num : ℚ) := by
  have := Rat.num_div_den x
  rw [h] at this
  simpa using this.symm

/-- division of an integer vector -/
def scaleDown (n : Nat) (c : ℚ) : (Fin n → ℤ) →ₗ[ℤ] (Fin n → ℚ) where
  toFun z := fun i => (z i : ℚ) / c
  map_add' a b := by funext i; simp [add_div]
  map_smul' a b := by funext i; simp [mul_div_assoc]

theorem rv_scale {n : Nat} (c : ℚ) (b : List Int) :
    rowVec n (b.map (fun (x : ℤ) => (x : ℚ) / c)) = scaleDown n c (rowVec n b) := by
  funext i
  simp only [rowVec, scaleDown, LinearMap.coe_mk, AddHom.coe_mk, List.getD_eq_getElem?_getD, List.getElem?_map]
  cases b[i.1]? <;> simp

theorem mem_append_image {n : Nat} {T : Type} [Zero T] (a b : List (List T)) :
    rowVec n '' {x | x ∈ a ++ b} = rowVec n '' {x | x ∈ a} ∪ rowVec n '' {x | x ∈ b} := by
  rw [← Set.image_union]
  congr 1
  ext; simp

theorem ok_of_omap {α β : Type} {f : α → Outcome β} {l : List α} : ∀ {l' : List β}, omap f l = .ok l' →
    ∀ a ∈ l, ∃ b, f a = .ok b := by
  induction l with
  | nil => intro l' h a ha; exact absurd ha (by simp)
  | cons a l ih =>
    intro l' h a' ha
    simp only [omap] at h
    cases h1 : f a with
    | ok b0 =>
      rw [h1] at h
      cases h2 : omap f l with
      | ok bs =>
        rcases List.mem_cons.1 ha with rfl | ha
        · exact ⟨b0, h1⟩
        · exact ih h2 a' ha
      | panic => simp only [h2] at h; cases h
      | diverge => simp only [h2] at h; cases h
    | panic => rw [h1] at h; cases h
    | diverge => rw [h1] at h; cases h

theorem rational_core {n : Nat} {vs : List (List Rat)} (hne : vs ≠ []) (hl : ∀ v ∈ vs, v.length = n)
    (hm : commonDenom vs ≤ 2147483647)
    (hx : ∀ v ∈ vs, ∀ x ∈ v, -2147483648 ≤ x * commonDenom vs ∧ x * commonDenom vs ≤ 2147483647) :
    ∃ bs, rationalLatticeBasis vs = .ok bs ∧ bs.length = n ∧ (∀ b ∈ bs, b.length = n) ∧ Indep n bs ∧
      latticeOf n bs = span ℤ (integerVectors n ∪ rowVec n '' {v | v ∈ vs}) := by
  obtain ⟨cd, hc0, hc1, hc2, hc3⟩ := commonDenom_ok vs
  rw [hc1] at hm
  simp only [hc1] at hx
  have hcq : (0 : ℚ) < cd := by exact_mod_cast hc0
  have hcz : ((cd : ℤ) : ℚ) = (cd : ℚ) := by push_cast; rfl
  have htoi : toI32 (cd : ℤ) = some (cd : ℤ) := by
    unfold toI32; rw [if_pos (by omega)]
  set units := (List.range n).map (fun k => (List.replicate n (0 : Int)).set k (cd : ℤ)) with hunits
  set ints := vs.map (fun d => d.map (fun x => (x * (cd : ℚ)).num)) with hints
  have hul : ∀ v ∈ units, v.length = n := by
    intro v hv
    rw [hunits, List.mem_map] at hv
    obtain ⟨k, -, rfl⟩ := hv
    simp
  have hil : ∀ v ∈ ints, v.length = n := by
    intro v hv
    rw [hints, List.mem_map] at hv
    obtain ⟨w, hw, rfl⟩ := hv
    simp [hl w hw]
  obtain ⟨b0, h1, h2, h3, -, -⟩ := extendAll_ok n units [] (Ech.nil _) hul
  obtain ⟨b1, g1, g2, g3, -, -⟩ := extendAll_ok n ints b0 h2 hil
  have hbl : ∀ b ∈ b1, b.length = n := fun b hb => (g2.row b hb).1
  have hsp : span ℤ (rowVec n '' {b | b ∈ b1}) = span ℤ (rowVec n '' {b | b ∈ units ++ ints}) := by
    refine (rspan_eq_iff hbl ?_).1 ?_
    · intro b hb
      rcases List.mem_append.1 hb with hb | hb
      · exact hul b hb
      · exact hil b hb
    · rw [g3, h3, rspan_nil, sup_bot_eq, sup_comm]
      unfold rspan
      rw [← span_union]
      congr 1
      ext f
      constructor
      · rintro (⟨b, hb, rfl⟩ | ⟨b, hb, rfl⟩)
        · exact ⟨b, by simp [hb], rfl⟩
        · exact ⟨b, by simp [hb], rfl⟩
      · rintro ⟨b, hb, rfl⟩
        rcases List.mem_append.1 hb with hb | hb
        · exact Or.inl ⟨b, hb, rfl⟩
        · exact Or.inr ⟨b, hb, rfl⟩
  have hli : LinearIndependent ℤ (fun i : Fin b1.length => rowVec n b1[i.1]) := (li_vecN hbl).1 g2.li
  set bs := b1.map (fun b => b.map (fun (x : ℤ) => (x : ℚ) / ((cd : ℤ) : ℚ))) with hbs
  -- the computation
  have hcomp : rationalLatticeBasis vs = .ok bs := by
    unfold rationalLatticeBasis
    obtain ⟨v0, vt, rfl⟩ : ∃ v0 vt, vs = v0 :: vt := by
      cases vs with
      | nil => exact absurd rfl hne
      | cons a b => exact ⟨a, b, rfl⟩
    have hv0 := hl v0 (by simp)
    have hget : vecGet (v0 :: vt) 0 = .ok v0 := rfl
    have hu : unwrap (some (cd : ℤ)) = .ok (cd : ℤ) := rfl
    rw [hget, hc1, htoi, hu]
    simp only [Outcome.ok_bind, hv0]
    rw [← hunits, h1]
    simp only [Outcome.ok_bind]
    have hom : omap (fun d => omap (fun x => unwrap (rToI32 (x * ((cd : ℤ) : ℚ)))) d) (v0 :: vt) = .ok ints := by
      rw [hints]
      refine omap_ok ?_
      intro v hv
      refine omap_ok ?_
      intro x hxv
      obtain ⟨hx1, hx2⟩ := hx v hv x hxv
      have hd1 := int_of_den_dvd (hc2 v hv x hxv)
      rw [hcz, num_of_den_one hd1] at hx1 hx2
      have hr1 : (-2147483648 : ℤ) ≤ (x * (cd : ℚ)).num := by exact_mod_cast hx1
      have hr2 : (x * (cd : ℚ)).num ≤ 2147483647 := by exact_mod_cast hx2
      rw [hcz]
      unfold rToI32 toI32
      rw [if_pos hd1, if_pos (by omega)]
      rfl
    rw [hom]
    simp only [Outcome.ok_bind]
    rw [g1]
    rfl
  -- the lattice
  have hset : rowVec n '' {b | b ∈ bs} = scaleDown n cd '' (rowVec n '' {b | b ∈ b1}) := by
    ext y
    constructor
    · rintro ⟨b, hb, rfl⟩
      rw [Set.mem_ofPred_eq, hbs, List.mem_map] at hb
      obtain ⟨c, hc, rfl⟩ := hb
      rw [hcz, rv_scale]
      exact ⟨_, ⟨c, hc, rfl⟩, rfl⟩
    · rintro ⟨_, ⟨c, hc, rfl⟩, rfl⟩
      refine ⟨c.map (fun (x : ℤ) => (x : ℚ) / ((cd : ℤ) : ℚ)), ?_, by rw [hcz, rv_scale]⟩
      rw [Set.mem_ofPred_eq, hbs]
      exact List.mem_map_of_mem hc
  have hunit : ∀ (i : Fin n), scaleDown n cd (rowVec n ((List.replicate n (0 : Int)).set i.1 (cd : ℤ))) =
      Pi.single i 1 := by
    intro i
    funext j
    simp only [scaleDown, LinearMap.coe_mk, AddHom.coe_mk, rowVec, List.getD_eq_getElem?_getD]
    rw [List.getElem?_set]
    by_cases h : i = j
    · subst h
      simp [hcq.ne']
    · have h' : i.1 ≠ j.1 := fun h'' => h (Fin.ext h'')
      rw [if_neg h', Pi.single_eq_of_ne (Ne.symm h)]
      simp
  have hvec : ∀ v ∈ vs, scaleDown n cd (rowVec n (v.map (fun x => (x * (cd : ℚ)).num))) = rowVec n v := by
    intro v hv
    rw [← rv_scale, List.map_map]
    congr 1
    conv_rhs => rw [← List.map_id v]
    apply List.map_congr_left
    intro x hxv
    simp only [Function.comp]
    rw [← num_of_den_one (int_of_den_dvd (hc2 v hv x hxv)), mul_div_cancel_right₀ _ hcq.ne']
    rfl
  have hlat : latticeOf n bs = span ℤ (integerVectors n ∪ rowVec n '' {v | v ∈ vs}) := by
    unfold latticeOf
    rw [hset, ← map_span, hsp, map_span, mem_append_image, Set.image_union]
    apply le_antisymm
    · rw [span_le]
      rintro y (⟨_, ⟨b, hb, rfl⟩, rfl⟩ | ⟨_, ⟨b, hb, rfl⟩, rfl⟩)
      · rw [Set.mem_ofPred_eq, hunits, List.mem_map] at hb
        obtain ⟨k, hk, rfl⟩ := hb
        have hk' : k < n := List.mem_range.1 hk
        apply subset_span
        left
        rw [hunit ⟨k, hk'⟩]
        exact ⟨Pi.single ⟨k, hk'⟩ 1, fun i => by
          by_cases h : i = ⟨k, hk'⟩
          · subst h; simp
          · rw [Pi.single_eq_of_ne h, Pi.single_eq_of_ne h]; simp⟩
      · rw [Set.mem_ofPred_eq, hints, List.mem_map] at hb
        obtain ⟨v, hv, rfl⟩ := hb
        rw [hvec v hv]
        exact subset_span (Or.inr ⟨v, hv, rfl⟩)
    · rw [span_le]
      rintro y (⟨z, hz⟩ | ⟨v, hv, rfl⟩)
      · have : y = ∑ i, z i • (Pi.single i 1 : Fin n → ℚ) := by
          funext j
          rw [Finset.sum_apply, Finset.sum_eq_single j]
          · simp [hz j]
          · intro b _ hb
            simp [Pi.single_eq_of_ne (Ne.symm hb)]
          · simp
        rw [this]
        refine sum_mem (fun i _ => smul_mem _ _ (subset_span (Or.inl ?_)))
        refine ⟨_, ⟨(List.replicate n (0 : Int)).set i.1 (cd : ℤ), ?_, rfl⟩, hunit i⟩
        rw [Set.mem_ofPred_eq, hunits]
        exact List.mem_map.2 ⟨i.1, List.mem_range.2 i.2, rfl⟩
      · refine subset_span (Or.inr ⟨_, ⟨v.map (fun x => (x * (cd : ℚ)).num), ?_, rfl⟩, hvec v hv⟩)
        rw [Set.mem_ofPred_eq, hints]
        exact List.mem_map.2 ⟨v, hv, rfl⟩
  have hbsl : bs.length = b1.length := by rw [hbs, List.length_map]
  have htop : span ℚ (rowVec n '' {b | b ∈ bs}) = ⊤ := by
    have h1 : span ℚ ((latticeOf n bs : Submodule ℤ (Fin n → ℚ)) : Set (Fin n → ℚ)) =
        span ℚ (rowVec n '' {b | b ∈ bs}) := span_span_of_tower _ _ _
    rw [← h1, hlat, eq_top_iff]
    intro y _
    have : y = ∑ i, y i • (Pi.single i 1 : Fin n → ℚ) := by
      funext j
      rw [Finset.sum_apply, Finset.sum_eq_single j]
      · simp
      · intro b _ hb
        simp [Pi.single_eq_of_ne (Ne.symm hb)]
      · simp
    rw [this]
    refine sum_mem (fun i _ => smul_mem _ _ (subset_span (subset_span (Or.inl ?_))))
    exact ⟨Pi.single i 1, fun k => by
      by_cases h : k = i
      · subst h; simp
      · rw [Pi.single_eq_of_ne h, Pi.single_eq_of_ne h]; simp⟩
  have hle : b1.length ≤ n := by
    have := hli.fintype_card_le_finrank
    simpa using this
  have hge : n ≤ bs.length := by
    have h1 : Module.finrank ℚ (span ℚ (rowVec n '' {b | b ∈ bs})) ≤ bs.length := by
      rw [← range_indep]
      exact (finrank_range_le_card _).trans (by simp)
    rw [htop, finrank_top, Module.finrank_fintype_fun_eq_card, Fintype.card_fin] at h1
    exact h1
  have hlen : bs.length = n := by omega
  refine ⟨bs, hcomp, hlen, ?_, ?_, hlat⟩
  · intro b hb
    rw [hbs, List.mem_map] at hb
    obtain ⟨c, hc, rfl⟩ := hb
    rw [List.length_map, hbl c hc]
  · rw [indep_iff_finrank, htop, finrank_top, Module.finrank_fintype_fun_eq_card, Fintype.card_fin, hlen]

theorem rational_ok {n : Nat} {vs : List (List Rat)} (hne : vs ≠ []) (hl : ∀ v ∈ vs, v.length = n)
    {m : ℕ} (hm : 0 < m) (hm2 : m ≤ 2147483647)
    (hx : ∀ v ∈ vs, ∀ x ∈ v, (∃ z : ℤ, x * m = z) ∧ |x * m| ≤ 2147483647) :
    ∃ bs, rationalLatticeBasis vs = .ok bs ∧ bs.length = n ∧ (∀ b ∈ bs, b.length = n) ∧ Indep n bs ∧
      latticeOf n bs = span ℤ (integerVectors n ∪ rowVec n '' {v | v ∈ vs}) := by
  obtain ⟨cd, hc0, hc1, hc2, hc3⟩ := commonDenom_ok vs
  have hcm : cd ∣ m := hc3 m (fun v hv x hxv => den_dvd_of_int (hx v hv x hxv).1)
  have hcle := Nat.le_of_dvd hm hcm
  have hcq : (0 : ℚ) < cd := by exact_mod_cast hc0
  refine rational_core hne hl (by rw [hc1]; omega) (fun v hv x hxv => ?_)
  have habs : |x * cd| ≤ 2147483647 := by
    refine le_trans ?_ (hx v hv x hxv).2
    rw [abs_mul, abs_mul, abs_of_pos hcq, abs_of_pos (by exact_mod_cast hm : (0 : ℚ) < m)]
    exact mul_le_mul_of_nonneg_left (by exact_mod_cast hcle) (abs_nonneg _)
  rw [abs_le] at habs
  rw [hc1, Int.cast_natCast]
  exact ⟨by linarith [habs.1], habs.2⟩

/-- When `rational_lattice_basis` returns, the result is right. -/
theorem rational_of_ok {n : Nat} {vs : List (List Rat)} (hl : ∀ v ∈ vs, v.length = n) {bs : List (List Rat)}
    (h : rationalLatticeBasis vs = .ok bs) : bs.length = n ∧ (∀ b ∈ bs, b.length = n) ∧ Indep n bs ∧
      latticeOf n bs = span ℤ (integerVectors n ∪ rowVec n '' {v | v ∈ vs}) := by
  have h0 := h
  obtain ⟨cd, hc0, hc1, hc2, hc3⟩ := commonDenom_ok vs
  unfold rationalLatticeBasis at h
  obtain ⟨v0, h1, h2⟩ := Outcome.bind_eq_ok.1 h
  obtain ⟨cd', h3, h4⟩ := Outcome.bind_eq_ok.1 h2
  obtain ⟨b0, h5, h6⟩ := Outcome.bind_eq_ok.1 h4
  obtain ⟨ints, h7, h8⟩ := Outcome.bind_eq_ok.1 h6
  have hne : vs ≠ [] := by
    rintro rfl
    simp [vecGet] at h1
  have hcd : cd' = (cd : Int) ∧ (cd : Int) ≤ 2147483647 := by
    rw [hc1] at h3
    unfold toI32 at h3
    split at h3
    · rename_i hh
      exact ⟨(Outcome.ok.inj h3).symm, hh.2⟩
    · exact absurd h3 (by simp [unwrap])
  obtain ⟨rfl, hcl⟩ := hcd
  obtain ⟨bs', k1, k2⟩ := rational_core hne hl (by rw [hc1]; exact hcl) (fun v hv x hxv => by
    obtain ⟨ys, y1⟩ := ok_of_omap h7 v hv
    obtain ⟨y, y2⟩ := ok_of_omap y1 x hxv
    have hden := int_of_den_dvd (hc2 v hv x hxv)
    rw [hc1]
    have e : (((cd : ℕ) : ℤ) : ℚ) = (cd : ℚ) := by push_cast; rfl
    rw [e] at y2 ⊢
    unfold rToI32 toI32 at y2
    rw [if_pos hden] at y2
    split at y2
    · rename_i hh
      rw [num_of_den_one hden]
      exact ⟨by exact_mod_cast hh.1, by exact_mod_cast hh.2⟩
    · exact absurd y2 (by simp [unwrap]))
  rw [h0] at k1
  obtain rfl := Outcome.ok.inj k1
  exact k2

end Systre.Lattices
