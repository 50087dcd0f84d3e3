import Verif.Lemmas.ConfigSpace
import Mathlib.LinearAlgebra.Matrix.Notation
import Mathlib.Data.Fintype.Card
import Mathlib.LinearAlgebra.Matrix.Determinant.Basic

/-! # C53–C56: groups of affine maps, configuration spaces -/

namespace Systre
open SpaceGroups

variable {n : Nat}

/-! Two-dimensional operators for the examples. -/

/-- the map `(x, y) ↦ (a x + b y + s, c x + d y + t)` as a program value -/
def af2 (a b c d s t : Rat) : AffineMap Rat := ⟨⟨2, 2, [a, b, c, d]⟩, ⟨⟨2, 1, [s, t]⟩⟩⟩
/-- the same map as a matrix and a vector -/
def op2 (a b c d s t : Rat) : Op 2 := (!![a, b; c, d], ![s, t])

theorem af2_isAff (a b c d s t : Rat) : IsAff (af2 a b c d s t) (op2 a b c d s t).1 (op2 a b c d s t).2 := by
  refine ⟨⟨rfl, rfl, rfl, by simp, ?_⟩, rfl, rfl, rfl, by simp, ?_⟩
  · intro i j; fin_cases i <;> fin_cases j <;> rfl
  · intro i j; fin_cases i <;> fin_cases j <;> rfl

/-! ## C53 -/

/-- **C53** Whenever `generate` returns, its first element is the identity, no element is repeated, all
shift coordinates are strictly between -1 and 1, the result is closed under composition with a generator on
the right modulo integer translations, every element is a composition of generators up to an integer
translation, and every composition of generators, of any length, is represented. No coset modulo integer
translations is represented more than `2 ^ n` times. What is missing is that every coset is represented
exactly once: see `C53_cosets_refuted`. -/
theorem C53_generate_partial {gens : List (AffineMap Rat)} {gs : List (Op n)} (hg : AreOps gens gs) (hne : gens ≠ [])
    {fuel : Nat} {l : List (AffineMap Rat)} (h : generate fuel gens = .ok l) :
    ∃ os : List (Op n), AreOps l os ∧ l.Nodup ∧ os.head? = some Op.one ∧ (∀ p ∈ os, ∀ i, |p.2 i| < 1) ∧
      (∀ p ∈ os, ∀ g ∈ gs, ∃ q ∈ os, SameModZ q (p.comp g)) ∧
      (∀ p ∈ os, ∃ w : List (Op n), (∀ g ∈ w, g ∈ gs) ∧ SameModZ p (Op.prod w)) ∧
      (∀ w : List (Op n), (∀ g ∈ w, g ∈ gs) → ∃ p ∈ os, SameModZ p (Op.prod w)) ∧
      (∀ (p : Op n) (c : List (Op n)), c.Sublist os → (∀ q ∈ c, SameModZ q p) → c.length ≤ 2 ^ n) := by
  rw [generate_eq hg hne] at h
  split at h
  · next os hos =>
    have h := Outcome.ok.inj h
    subst h
    obtain ⟨h1, h2, h3⟩ := bLoop_spec opStep gs Op.one fuel 0 _ _ os (bInv_start _ _ _) hos
    have habs : ∀ p ∈ os, ∀ i, |p.2 i| < 1 := fun p hp => reach_abs ((h3 p).1 hp)
    refine ⟨os, areOps_toAff os, h2.map toAff_inj, h1, habs, ?_, ?_, ?_, ?_⟩
    · intro p hp g hg
      exact ⟨opStep p g, (h3 _).2 (.step ((h3 p).1 hp) hg), opStep_same p g⟩
    · intro p hp; exact reach_word ((h3 p).1 hp)
    · intro w hw
      obtain ⟨p, hp, hp'⟩ := word_reach w hw
      exact ⟨p, (h3 p).2 hp, hp'⟩
    · intro p c hc hcp
      have hnd : (c.map (fun q : Op n => fun i => decide (0 < q.2 i))).Nodup := by
        refine List.Nodup.map_on ?_ (h2.sublist hc)
        intro q hq r hr he
        have hqr := (hcp q hq).trans (hcp r hr).symm
        refine Prod.ext hqr.1 (funext fun i => ?_)
        have h4 : (0 < q.2 i ↔ 0 < r.2 i) := by simpa using congrFun he i
        rw [← rem1_of_abs_lt (habs q (hc.subset hq) i), ← rem1_of_abs_lt (habs r (hc.subset hr) i)]
        exact (rem1_eq_iff _ _).2 ⟨hqr.2 i, Or.inr h4⟩
      have := hnd.length_le_card
      simpa using this
  · exact absurd h (by simp)

/-- **C53** `generate` terminates exactly when the generators have finitely many compositions modulo integer
translations; then the result does not depend on the fuel. It never panics. -/
theorem C53_terminates {gens : List (AffineMap Rat)} {gs : List (Op n)} (hg : AreOps gens gs) (hne : gens ≠ []) :
    ((∃ L : List (Op n), ∀ w : List (Op n), (∀ g ∈ w, g ∈ gs) → ∃ q ∈ L, SameModZ (Op.prod w) q) ↔
      ∃ (N : Nat) (l : List (AffineMap Rat)), ∀ fuel, N ≤ fuel → generate fuel gens = .ok l) ∧
    (∀ fuel, generate fuel gens ≠ .panic) ∧
    (∀ fuel l, generate fuel gens = .ok l → ∀ fuel' l', generate fuel' gens = .ok l' → l = l') := by
  have hmono : ∀ (fuel k i : Nat) (seen result l : List (Op n)), bLoop opStep gs fuel i seen result = some l →
      bLoop opStep gs (fuel + k) i seen result = some l := by
    intro fuel
    induction fuel with
    | zero => intro k i seen result l h; simp [bLoop] at h
    | succ fuel ih =>
      intro k i seen result l h
      rw [show fuel + 1 + k = (fuel + k) + 1 by omega]
      unfold bLoop at h ⊢
      split at h
      · next hn => exact h
      · next a ha => exact ih k _ _ _ l h
  have hok : ∀ fuel l, generate fuel gens = .ok l →
      ∃ os : List (Op n), bLoop opStep gs fuel 0 [Op.one] [Op.one] = some os ∧ l = os.map toAff := by
    intro fuel l h
    rw [generate_eq hg hne] at h
    split at h
    · next os hos => exact ⟨os, hos, (Outcome.ok.inj h).symm⟩
    · exact absurd h (by simp)
  refine ⟨⟨?_, ?_⟩, ?_, ?_⟩
  · rintro ⟨L, hL⟩
    have hf := reach_finite L hL
    obtain ⟨os, hos⟩ := bLoop_terminates opStep gs Op.one hf.toFinset.toList (fun y hy => by
      rw [Finset.mem_toList, Set.Finite.mem_toFinset]; exact hy) (hf.toFinset.toList.length + 1) 0 _ _
      (bInv_start _ _ _) (by omega)
    refine ⟨hf.toFinset.toList.length + 1, os.map toAff, fun fuel hfu => ?_⟩
    rw [generate_eq hg hne]
    have := hmono _ (fuel - (hf.toFinset.toList.length + 1)) _ _ _ _ hos
    rw [Nat.add_sub_cancel' hfu] at this
    rw [this]
  · rintro ⟨N, l, hl⟩
    obtain ⟨os, -, -, -, -, -, -, h, -⟩ := C53_generate_partial hg hne (hl N le_rfl)
    refine ⟨os, fun w hw => ?_⟩
    obtain ⟨p, hp, h'⟩ := h w hw
    exact ⟨p, hp, h'.symm⟩
  · intro fuel h
    rw [generate_eq hg hne] at h
    split at h <;> exact absurd h (by simp)
  · intro fuel l h fuel' l' h'
    obtain ⟨os, h1, rfl⟩ := hok _ _ h
    obtain ⟨os', h2, rfl⟩ := hok _ _ h'
    have h3 := hmono _ fuel' _ _ _ _ h1
    have h4 := hmono _ fuel _ _ _ _ h2
    rw [Nat.add_comm fuel' fuel, h3, Option.some.injEq] at h4
    rw [h4]

/-- **C53** If the generators have invertible integer linear parts, as crystallographic operators have, the
result is a group modulo integer translations: it has the product and the inverse of its elements. -/
theorem C53_group {gens : List (AffineMap Rat)} {gs : List (Op n)} (hg : AreOps gens gs) (hne : gens ≠ [])
    (hint : ∀ g ∈ gs, IsIntegral g.1) (hdet : ∀ g ∈ gs, g.1.det ≠ 0)
    {fuel : Nat} {l : List (AffineMap Rat)} (h : generate fuel gens = .ok l) :
    ∃ os : List (Op n), AreOps l os ∧ (∀ g ∈ gs, ∃ p ∈ os, SameModZ p g) ∧
      (∀ p ∈ os, ∀ q ∈ os, ∃ r ∈ os, SameModZ r (p.comp q)) ∧
      (∀ p ∈ os, ∃ q ∈ os, SameModZ (q.comp p) Op.one ∧ SameModZ (p.comp q) Op.one) := by
  obtain ⟨os, h1, -, h2, -, h4, h5, h6, -⟩ := C53_generate_partial hg hne h
  have hpi : ∀ p ∈ os, IsIntegral p.1 := by
    intro p hp
    obtain ⟨w, hw, hp⟩ := h5 p hp
    rw [hp.1]
    exact isIntegral_prod w (fun g hg => hint g (hw g hg))
  have hone : Op.one ∈ os := List.mem_of_mem_head? (by rw [h2]; rfl)
  have hleft : ∀ p ∈ os, ∃ q ∈ os, SameModZ (q.comp p) Op.one := by
    intro p hp
    obtain ⟨w, hw, hpw⟩ := h5 p hp
    obtain ⟨q, hq, hqw⟩ := right_surj_word os gs hdet h4 w hw Op.one hone
    exact ⟨q, hq, (SameModZ.comp_left (hpi q hq) hpw).trans hqw⟩
  refine ⟨os, h1, ?_, ?_, ?_⟩
  · intro g hg
    obtain ⟨p, hp, h⟩ := h6 [g] (by simpa using hg)
    exact ⟨p, hp, by simpa [Op.prod, Op.one_comp] using h⟩
  · intro p hp q hq
    obtain ⟨w, hw, hpw⟩ := h5 p hp
    obtain ⟨v, hv, hqv⟩ := h5 q hq
    obtain ⟨r, hr, h⟩ := h6 (w ++ v) (by
      intro g hg
      rcases List.mem_append.1 hg with hg | hg
      · exact hw g hg
      · exact hv g hg)
    refine ⟨r, hr, h.trans ?_⟩
    rw [Op.prod_append]
    exact ((SameModZ.comp_left (hpi p hp) hqv).trans (hpw.comp_right _)).symm
  · intro p hp
    obtain ⟨q, hq, hqp⟩ := hleft p hp
    obtain ⟨r, hr, hrq⟩ := hleft q hq
    refine ⟨q, hq, hqp, ?_⟩
    -- `r ≡ r (q p) = (r q) p ≡ p`, so `p q ≡ r q ≡ 1`
    have e1 : SameModZ r p := by
      have a := SameModZ.comp_left (hpi r hr) hqp
      rw [Op.comp_one, ← Op.comp_assoc] at a
      have b := hrq.comp_right p
      rw [Op.one_comp] at b
      exact a.symm.trans b
    exact (e1.symm.comp_right q).trans hrq

/-- **C53** For symmorphic groups (integer matrices, integer shifts) every coset is represented exactly
once. -/
theorem C53_symmorphic {gens : List (AffineMap Rat)} {gs : List (Op n)} (hg : AreOps gens gs) (hne : gens ≠ [])
    (hint : ∀ g ∈ gs, IsIntegral g.1 ∧ ∀ i, ∃ z : ℤ, g.2 i = z)
    {fuel : Nat} {l : List (AffineMap Rat)} (h : generate fuel gens = .ok l) :
    ∃ os : List (Op n), AreOps l os ∧ ∀ w : List (Op n), (∀ g ∈ w, g ∈ gs) →
      (∃ p ∈ os, SameModZ p (Op.prod w) ∧ ∀ q ∈ os, SameModZ q (Op.prod w) → q = p) := by
  obtain ⟨os, h1, -, h2, h3, h4, h5, h6, -⟩ := C53_generate_partial hg hne h
  refine ⟨os, h1, fun w hw => ?_⟩
  have hz : ∀ p ∈ os, p.2 = 0 := by
    intro p hp
    have hw' : ∀ w : List (Op n), (∀ g ∈ w, g ∈ gs) → IsIntegral (Op.prod w).1 ∧ ∀ i, ∃ z : ℤ, (Op.prod w).2 i = z := by
      intro w hw
      refine ⟨isIntegral_prod w (fun g hg => (hint g (hw g hg)).1), ?_⟩
      induction w using List.reverseRecOn with
      | nil => intro i; exact ⟨0, by simp [Op.prod, Op.one]⟩
      | append_singleton w g ih =>
        intro i
        have hgi := hint g (hw g (by simp))
        have hwi := isIntegral_prod w (fun x hx => (hint x (hw x (by simp [hx]))).1)
        obtain ⟨z, hz⟩ := ih (fun x hx => hw x (by simp [hx])) i
        choose a ha using hwi
        choose t ht using hgi.2
        refine ⟨(∑ j, a i j * t j) + z, ?_⟩
        rw [Op.prod_snoc]
        simp only [Op.comp, Pi.add_apply, Matrix.mulVec, dotProduct, hz]
        push_cast
        congr 1
        exact Finset.sum_congr rfl fun j _ => by rw [ha, ht]
    obtain ⟨v, hv, hpv⟩ := h5 p hp
    funext i
    obtain ⟨z, hz⟩ := hpv.2 i
    obtain ⟨y, hy⟩ := (hw' v hv).2 i
    have e : p.2 i = ((z + y : ℤ) : ℚ) := by push_cast; rw [← hz, ← hy]; ring
    have ha := h3 p hp i
    rw [e] at ha ⊢
    have ha' : |z + y| < 1 := by exact_mod_cast ha
    rw [Int.abs_lt_one_iff.1 ha']
    rfl
  obtain ⟨p, hp, hpw⟩ := h6 w hw
  refine ⟨p, hp, hpw, fun q hq hqw => ?_⟩
  exact Prod.ext (hqw.1.trans hpw.1.symm) ((hz q hq).trans (hz p hp).symm)

/-- **C53** Two different returned elements of one coset have, in some coordinate, shifts of opposite signs
that differ by exactly one; the other coordinates are equal or also of this kind. So a coset is repeated
only through shifts of different signs. -/
theorem C53_copies {gens : List (AffineMap Rat)} {gs : List (Op n)} (hg : AreOps gens gs) (hne : gens ≠ [])
    {fuel : Nat} {l : List (AffineMap Rat)} (h : generate fuel gens = .ok l) :
    ∃ os : List (Op n), AreOps l os ∧ ∀ p ∈ os, ∀ q ∈ os, SameModZ p q →
      (∀ i, p.2 i = q.2 i ∨ (p.2 i = q.2 i + 1 ∧ 0 < p.2 i ∧ q.2 i < 0) ∨ (q.2 i = p.2 i + 1 ∧ 0 < q.2 i ∧ p.2 i < 0)) ∧
      (p ≠ q → ∃ i, p.2 i * q.2 i < 0) := by
  obtain ⟨os, h1, -, -, h3, -⟩ := C53_generate_partial hg hne h
  refine ⟨os, h1, fun p hp q hq hpq => ?_⟩
  have key : ∀ i, p.2 i = q.2 i ∨ (p.2 i = q.2 i + 1 ∧ 0 < p.2 i ∧ q.2 i < 0) ∨
      (q.2 i = p.2 i + 1 ∧ 0 < q.2 i ∧ p.2 i < 0) := by
    intro i
    obtain ⟨z, hz⟩ := hpq.2 i
    have a := abs_lt.1 (h3 p hp i)
    have b := abs_lt.1 (h3 q hq i)
    have z1 : z < 2 := by
      have : (z : ℚ) < 2 := by rw [← hz]; linarith
      exact_mod_cast this
    have z2 : -2 < z := by
      have : (-2 : ℚ) < z := by rw [← hz]; linarith
      exact_mod_cast this
    obtain rfl | rfl | rfl : z = -1 ∨ z = 0 ∨ z = 1 := by omega
    · push_cast at hz
      exact Or.inr (Or.inr ⟨by linarith, by linarith, by linarith⟩)
    · push_cast at hz
      exact Or.inl (by linarith)
    · push_cast at hz
      exact Or.inr (Or.inl ⟨by linarith, by linarith, by linarith⟩)
  refine ⟨key, fun hne => ?_⟩
  by_contra hcon
  push Not at hcon
  refine hne (Prod.ext hpq.1 (funext fun i => ?_))
  rcases key i with hk | ⟨-, hk, hk'⟩ | ⟨-, hk, hk'⟩
  · exact hk
  · exact absurd (hcon i) (not_le.2 (mul_neg_of_pos_of_neg hk hk'))
  · exact absurd (hcon i) (not_le.2 (mul_neg_of_neg_of_pos hk' hk))

/-- **C53** If no generator has a negative entry, in its matrix or in its shift (for example translations, also
together with permutations of the coordinates), every coset is represented exactly once. -/
theorem C53_nonnegative {gens : List (AffineMap Rat)} {gs : List (Op n)} (hg : AreOps gens gs) (hne : gens ≠ [])
    (hpos : ∀ g ∈ gs, (∀ i j, 0 ≤ g.1 i j) ∧ ∀ i, 0 ≤ g.2 i)
    {fuel : Nat} {l : List (AffineMap Rat)} (h : generate fuel gens = .ok l) :
    ∃ os : List (Op n), AreOps l os ∧ ∀ w : List (Op n), (∀ g ∈ w, g ∈ gs) →
      (∃ p ∈ os, SameModZ p (Op.prod w) ∧ ∀ q ∈ os, SameModZ q (Op.prod w) → q = p) := by
  obtain ⟨os', a1, -, -, -, -, -, a6, -⟩ := C53_generate_partial hg hne h
  obtain ⟨os, b1, b2⟩ := C53_copies hg hne h
  obtain rfl : os' = os := toAff_inj.list_map (a1.eq.symm.trans b1.eq)
  refine ⟨os', a1, fun w hw => ?_⟩
  have hnn : ∀ p ∈ os', ∀ i, 0 ≤ p.2 i := by
    have h' := h
    rw [generate_eq hg hne] at h'
    split at h'
    · next os2 hos =>
      have h' := Outcome.ok.inj h'
      subst h'
      obtain rfl : os' = os2 := toAff_inj.list_map (a1.eq.symm.trans (areOps_toAff os2).eq)
      obtain ⟨-, -, h3⟩ := bLoop_spec opStep gs Op.one fuel 0 _ _ os' (bInv_start _ _ _) hos
      have : ∀ p, BReach opStep gs Op.one p → (∀ i j, 0 ≤ p.1 i j) ∧ ∀ i, 0 ≤ p.2 i := by
        intro p hp
        induction hp with
        | start =>
          refine ⟨fun i j => ?_, fun i => by simp [Op.one]⟩
          simp only [Op.one, Matrix.one_apply]
          split <;> norm_num
        | @step p g _ hg ih =>
          refine ⟨fun i j => ?_, fun i => rem1_nonneg ?_⟩
          · exact Finset.sum_nonneg fun k _ => mul_nonneg (ih.1 i k) ((hpos g hg).1 k j)
          · exact add_nonneg (Finset.sum_nonneg fun k _ => mul_nonneg (ih.1 i k) ((hpos g hg).2 k)) (ih.2 i)
      exact fun p hp => (this p ((h3 p).1 hp)).2
    · exact absurd h' (by simp)
  obtain ⟨p, hp, hpw⟩ := a6 w hw
  refine ⟨p, hp, hpw, fun q hq hqw => ?_⟩
  by_contra hqp
  obtain ⟨i, hi⟩ := (b2 q hq p hp (hqw.trans hpw.symm)).2 hqp
  exact absurd (mul_nonneg (hnn q hq i) (hnn p hp i)) (not_le.2 hi)

/-- the hypothesis of the theorem above is met: a centring translation and the exchange of the two coordinates -/
example : (do let l ← generate 9 [af2 0 1 1 0 0 0, af2 1 0 0 1 (1/2) (1/2)]; .ok l.length : Outcome Nat) = .ok 4 := by
  decide +kernel
example : ∀ g ∈ [op2 0 1 1 0 0 0, op2 1 0 0 1 (1/2) (1/2)], (∀ i j, 0 ≤ g.1 i j) ∧ ∀ i, 0 ≤ g.2 i := by
  intro g hg
  simp only [List.mem_cons, List.not_mem_nil, or_false] at hg
  rcases hg with rfl | rfl <;>
    exact ⟨fun i j => by fin_cases i <;> fin_cases j <;> norm_num [op2], fun i => by fin_cases i <;> norm_num [op2]⟩

/-- **C53** In general a coset can be returned more than once: for a mirror and a centring translation (the
plane group cm) the result has six elements for four cosets, because `mod_z` keeps signs. -/
theorem C53_cosets_refuted :
    ∃ (gens l : List (AffineMap Rat)) (gs os : List (Op 2)) (fuel : Nat), AreOps gens gs ∧ gens ≠ [] ∧
      (∀ g ∈ gs, IsIntegral g.1 ∧ g.1.det ≠ 0) ∧ generate fuel gens = .ok l ∧ AreOps l os ∧
      ∃ p ∈ os, ∃ q ∈ os, p ≠ q ∧ SameModZ p q := by
  refine ⟨[af2 (-1) 0 0 1 0 0, af2 1 0 0 1 (1/2) (1/2)],
    [af2 1 0 0 1 0 0, af2 (-1) 0 0 1 0 0, af2 1 0 0 1 (1/2) (1/2), af2 (-1) 0 0 1 (-1/2) (1/2),
      af2 (-1) 0 0 1 (1/2) (1/2), af2 1 0 0 1 (-1/2) (1/2)],
    [op2 (-1) 0 0 1 0 0, op2 1 0 0 1 (1/2) (1/2)],
    [op2 1 0 0 1 0 0, op2 (-1) 0 0 1 0 0, op2 1 0 0 1 (1/2) (1/2), op2 (-1) 0 0 1 (-1/2) (1/2),
      op2 (-1) 0 0 1 (1/2) (1/2), op2 1 0 0 1 (-1/2) (1/2)], 7, ?_, by simp, ?_, by decide +kernel, ?_,
    op2 1 0 0 1 (1/2) (1/2), by simp, op2 1 0 0 1 (-1/2) (1/2), by simp, ?_, rfl, ?_⟩
  · exact .cons (af2_isAff ..) (.cons (af2_isAff ..) .nil)
  · intro g hg
    simp only [List.mem_cons, List.not_mem_nil, or_false] at hg
    rcases hg with rfl | rfl
    · exact ⟨fun i j => by fin_cases i <;> fin_cases j <;> [exact ⟨-1, by simp [op2]⟩; exact ⟨0, by simp [op2]⟩;
        exact ⟨0, by simp [op2]⟩; exact ⟨1, by simp [op2]⟩], by simp [op2, Matrix.det_fin_two]⟩
    · exact ⟨fun i j => by fin_cases i <;> fin_cases j <;> [exact ⟨1, by simp [op2]⟩; exact ⟨0, by simp [op2]⟩;
        exact ⟨0, by simp [op2]⟩; exact ⟨1, by simp [op2]⟩], by simp [op2, Matrix.det_fin_two]⟩
  · exact .cons (af2_isAff ..) (.cons (af2_isAff ..) (.cons (af2_isAff ..) (.cons (af2_isAff ..)
      (.cons (af2_isAff ..) (.cons (af2_isAff ..) .nil)))))
  · intro h
    have := congrFun (congrArg Prod.snd h) 0
    simp [op2] at this
    norm_num at this
  · intro i
    fin_cases i
    · exact ⟨1, by norm_num [op2]⟩
    · exact ⟨0, by simp [op2]⟩

/-- the hypotheses of the theorems above are met: the group of the triangle, generated by two operators, six
elements; a single unimodular matrix of infinite order does not terminate -/
example : (do let l ← generate 7 [af2 0 (-1) 1 (-1) 0 0, af2 0 1 1 0 0 0]; .ok l.length : Outcome Nat) = .ok 6 := by
  decide +kernel
example : AreOps [af2 0 (-1) 1 (-1) 0 0, af2 0 1 1 0 0 0] [op2 0 (-1) 1 (-1) 0 0, op2 0 1 1 0 0 0] :=
  .cons (af2_isAff ..) (.cons (af2_isAff ..) .nil)
example : generate 9 [af2 1 1 0 1 0 0] = .diverge := by decide +kernel

/-! ## C54 -/

/-- **C54** If some operator has a linear part other than the identity, `shift_space` returns a basis of the
vectors that all linear parts leave fixed (`None` when there is only zero). What is missing: the same for
lists of pure translations, where it is false (`C54_translations_refuted`). -/
theorem C54_shift_space_partial {ops : List (AffineMap Rat)} {os : List (Op n)} (h : AreOps ops os) (hne : ops ≠ [])
    (hlin : ∃ p ∈ os, p.1 ≠ 1) :
    ∃ r, shiftSpace ops = .ok r ∧ IsBasisOf r (fun x : Fin n → ℚ => ∀ p ∈ os, p.1.mulVec x = x) :=
  (shiftSpace_spec h hne).1 hlin

/-- **C54** is false for every list of pure translations in a positive dimension: all vectors are fixed, but
the answer is `None`, which does not describe the set of fixed vectors. -/
theorem C54_translations_refuted {ops : List (AffineMap Rat)} {os : List (Op n)} (h : AreOps ops os) (hne : ops ≠ [])
    (hn : 0 < n) (hlin : ∀ p ∈ os, p.1 = 1) :
    shiftSpace ops = .ok none ∧ ¬ IsBasisOf none (fun x : Fin n → ℚ => ∀ p ∈ os, p.1.mulVec x = x) := by
  refine ⟨(shiftSpace_spec h hne).2 hlin, fun hb => ?_⟩
  have := (hb (fun _ => 1)).1 (fun p hp => by rw [hlin p hp, Matrix.one_mulVec])
  have := congrFun this ⟨0, hn⟩
  simp at this

example : shiftSpace [af2 1 0 0 1 0 0, af2 1 0 0 1 (1/2) (1/2)] = .ok none := by decide +kernel
example : shiftSpace [af2 1 0 0 1 0 0, af2 (-1) 0 0 1 0 0] = .ok (some ⟨2, 1, [0, 1]⟩) := by decide +kernel
example : shiftSpace [af2 1 0 0 1 0 0, af2 0 (-1) 1 (-1) 0 0] = .ok none := by decide +kernel
example : ∃ p ∈ [op2 1 0 0 1 0 0, op2 (-1) 0 0 1 0 0], p.1 ≠ 1 :=
  ⟨op2 (-1) 0 0 1 0 0, by simp, fun h => by
    have := congrFun (congrFun h 0) 0
    simp [op2] at this
    norm_num at this⟩

/-! ## C55 -/

/-- **C55** `gram_matrix_configuration_space` returns a basis, in terms of the entries in and above the
diagonal, row by row, of the symmetric matrices `G` with `S G Sᵀ = G` for the linear parts `S` of all the
operators. What is missing: a form on column vectors is invariant under `S` when `Sᵀ G S = G`, and this is a
different condition, see `C55_convention_refuted`. -/
theorem C55_gram_space_partial {ops : List (AffineMap Rat)} {os : List (Op n)} (h : AreOps ops os) (hne : ops ≠ [])
    (hn : 0 < n) :
    ∃ r, gramSpace ops = .ok r ∧ IsBasisOf r (fun g : Fin (upperCount n n) → ℚ =>
      ∃ G : Matrix (Fin n) (Fin n) ℚ, IsUpper g G ∧ ∀ p ∈ os, p.1 * G * p.1.transpose = G) := by
  obtain ⟨r, h1, h2⟩ := gramSpace_spec h hne hn
  refine ⟨r, h1, ?_⟩
  have : (fun g : Fin (upperCount n n) → ℚ =>
      ∃ G : Matrix (Fin n) (Fin n) ℚ, IsUpper g G ∧ ∀ p ∈ os, p.1 * G * p.1.transpose = G) =
      fun g => ∀ p ∈ os, p.1 * symOf g * p.1.transpose = symOf g := by
    funext g
    apply propext
    constructor
    · rintro ⟨G, hG, h⟩
      rw [upper_unique hG] at h
      exact h
    · intro h
      exact ⟨_, symOf_upper g, h⟩
  rw [this]
  exact h2

/-- **C55** If with every linear part its transpose occurs, as for operators given in an orthonormal basis,
the result is a basis of the invariant forms as the user expects them. -/
theorem C55_transpose_closed_partial {ops : List (AffineMap Rat)} {os : List (Op n)} (h : AreOps ops os)
    (hne : ops ≠ []) (hn : 0 < n) (ht : ∀ p ∈ os, ∃ q ∈ os, q.1 = p.1.transpose) :
    ∃ r, gramSpace ops = .ok r ∧ IsBasisOf r (fun g : Fin (upperCount n n) → ℚ =>
      ∃ G : Matrix (Fin n) (Fin n) ℚ, IsUpper g G ∧ ∀ p ∈ os, p.1.transpose * G * p.1 = G) := by
  obtain ⟨r, h1, h2⟩ := C55_gram_space_partial h hne hn
  refine ⟨r, h1, ?_⟩
  have : (fun g : Fin (upperCount n n) → ℚ =>
      ∃ G : Matrix (Fin n) (Fin n) ℚ, IsUpper g G ∧ ∀ p ∈ os, p.1.transpose * G * p.1 = G) =
      fun g => ∃ G : Matrix (Fin n) (Fin n) ℚ, IsUpper g G ∧ ∀ p ∈ os, p.1 * G * p.1.transpose = G := by
    funext g
    apply propext
    constructor
    · rintro ⟨G, hG, h⟩
      refine ⟨G, hG, fun p hp => ?_⟩
      obtain ⟨q, hq, e⟩ := ht p hp
      have := h q hq
      rwa [e, Matrix.transpose_transpose] at this
    · rintro ⟨G, hG, h⟩
      refine ⟨G, hG, fun p hp => ?_⟩
      obtain ⟨q, hq, e⟩ := ht p hp
      have := h q hq
      rwa [e, Matrix.transpose_transpose] at this
  rw [this]
  exact h2

/-- **C55** What the result is good for: a nondegenerate symmetric form is invariant under all operators exactly
when its inverse (the form on the reciprocal lattice) is in the space that the result is a basis of. -/
theorem C55_inverse {ops : List (AffineMap Rat)} {os : List (Op n)} (h : AreOps ops os) (hne : ops ≠ [])
    (hn : 0 < n) :
    ∃ r P, gramSpace ops = .ok r ∧ IsBasisOf r P ∧
      ∀ (g : Fin (upperCount n n) → ℚ) (G : Matrix (Fin n) (Fin n) ℚ), G.transpose = G → IsUnit G → IsUpper g G⁻¹ →
        (P g ↔ ∀ p ∈ os, p.1.transpose * G * p.1 = G) := by
  obtain ⟨r, h1, h2⟩ := C55_gram_space_partial h hne hn
  refine ⟨r, _, h1, h2, fun g G hGt hG hg => ?_⟩
  have hd : IsUnit G.det := (Matrix.isUnit_iff_isUnit_det _).1 hG
  have key : ∀ S : Matrix (Fin n) (Fin n) ℚ, S * G⁻¹ * S.transpose = G⁻¹ ↔ S.transpose * G * S = G := by
    intro S
    constructor
    · intro e
      have e1 : S * (G⁻¹ * S.transpose * G) = 1 := by
        rw [← Matrix.mul_assoc, ← Matrix.mul_assoc, e, Matrix.nonsing_inv_mul _ hd]
      have e2 := mul_eq_one_comm.1 e1
      calc S.transpose * G * S = G * (G⁻¹ * S.transpose * G * S) := by
            simp only [← Matrix.mul_assoc]
            rw [Matrix.mul_nonsing_inv _ hd, Matrix.one_mul]
        _ = G := by rw [e2, Matrix.mul_one]
    · intro e
      have e1 : (G⁻¹ * S.transpose * G) * S = 1 := by
        rw [Matrix.mul_assoc, Matrix.mul_assoc, ← Matrix.mul_assoc _ G, e, Matrix.nonsing_inv_mul _ hd]
      have e2 := mul_eq_one_comm.1 e1
      calc S * G⁻¹ * S.transpose = S * (G⁻¹ * S.transpose * G) * G⁻¹ := by
            simp only [Matrix.mul_assoc]
            rw [Matrix.mul_nonsing_inv _ hd, Matrix.mul_one]
        _ = G⁻¹ := by rw [e2, Matrix.one_mul]
  constructor
  · rintro ⟨G', hg', h3⟩ p hp
    obtain rfl : G' = G⁻¹ := (upper_unique hg').trans (upper_unique hg).symm
    exact (key p.1).1 (h3 p hp)
  · intro h3
    exact ⟨G⁻¹, hg, fun p hp => (key p.1).2 (h3 p hp)⟩

/-- the hypotheses of the theorem above are met: the hexagonal form and its inverse, with its entries -/
theorem hexForm_inverse : (!![1, -1/2; -1/2, 1] : Matrix (Fin 2) (Fin 2) ℚ)⁻¹ = !![4/3, 2/3; 2/3, 4/3] := by
  refine Matrix.inv_eq_right_inv ?_
  ext i j
  fin_cases i <;> fin_cases j <;> norm_num [Matrix.mul_apply, Fin.sum_univ_two]

example : (!![1, -1/2; -1/2, 1] : Matrix (Fin 2) (Fin 2) ℚ).transpose = !![1, -1/2; -1/2, 1] ∧
    IsUnit (!![1, -1/2; -1/2, 1] : Matrix (Fin 2) (Fin 2) ℚ) ∧
    (∃ g, IsUpper g (!![1, -1/2; -1/2, 1] : Matrix (Fin 2) (Fin 2) ℚ)⁻¹) ∧
    (op2 0 (-1) 1 (-1) 0 0).1.transpose * !![1, -1/2; -1/2, 1] * (op2 0 (-1) 1 (-1) 0 0).1 = !![1, -1/2; -1/2, 1] := by
  refine ⟨?_, ?_, ?_, ?_⟩
  · ext i j
    fin_cases i <;> fin_cases j <;> rfl
  · rw [Matrix.isUnit_iff_isUnit_det, Matrix.det_fin_two_of]
    norm_num
  · rw [hexForm_inverse]
    refine ⟨![4/3, 2/3, 4/3], ?_, ?_⟩
    · ext i j
      fin_cases i <;> fin_cases j <;> rfl
    · intro i j k hij hk
      fin_cases i <;> fin_cases j <;> fin_cases k <;> first | rfl | (exact absurd hij (by decide)) | (exact absurd hk (by decide))
  · ext i j
    fin_cases i <;> fin_cases j <;> norm_num [op2, Matrix.mul_apply, Fin.sum_univ_two]

/-- **C55** The expected property is false: for a rotation of order three in a hexagonal basis the only
column of the result is `(1, 1/2, 1)`, whose form is not invariant, and the invariant form `(1, -1/2, 1)` is
not a multiple of it. -/
theorem C55_convention_refuted :
    ∃ (op : AffineMap Rat) (p : Op 2) (r : Mat Rat), AreOps [op] [p] ∧ p.1 * p.1 * p.1 = 1 ∧
      gramSpace [op] = .ok (some r) ∧
      ¬ IsBasisOf (some r) (fun g : Fin (upperCount 2 2) → ℚ =>
        ∃ G : Matrix (Fin 2) (Fin 2) ℚ, IsUpper g G ∧ ∀ q ∈ [p], q.1.transpose * G * q.1 = G) := by
  refine ⟨af2 0 (-1) 1 (-1) 0 0, op2 0 (-1) 1 (-1) 0 0, ⟨3, 1, [1, 1/2, 1]⟩, .cons (af2_isAff ..) .nil, ?_,
    by decide +kernel, ?_⟩
  · ext i j
    fin_cases i <;> fin_cases j <;> simp [op2]
  · rintro ⟨d, X, hd, hX, -, h⟩
    have hc : 1 = d := hX.cols
    subst hc
    -- the form in the first column of `X` is not invariant
    obtain ⟨G, ⟨hG1, hG2⟩, hG3⟩ := (h (X.mulVec fun _ => 1)).2 ⟨_, rfl⟩
    have hy : ∀ k, X.mulVec (fun _ => 1) k = X k 0 := by
      intro k; simp [Matrix.mulVec, dotProduct]
    have e01 : G 0 1 = 1/2 := by
      rw [← hG2 0 1 ⟨1, by decide⟩ (by decide) (by decide), hy]
      exact (Outcome.ok.inj (hX.entry ⟨1, by decide⟩ 0)).symm
    have e11 : G 1 1 = 1 := by
      rw [← hG2 1 1 ⟨2, by decide⟩ (by decide) (by decide), hy]
      exact (Outcome.ok.inj (hX.entry ⟨2, by decide⟩ 0)).symm
    have e10 : G 1 0 = 1/2 := by rw [← hG1, Matrix.transpose_apply, e01]
    have := congrFun (congrFun (hG3 _ (List.mem_singleton.2 rfl)) 0) 1
    simp [op2, Matrix.mul_apply, Fin.sum_univ_two, e01, e11, e10] at this
    norm_num at this

example : gramSpace [af2 (-1) 0 0 1 0 0] = .ok (some ⟨3, 2, [1, 0, 0, 0, 0, 1]⟩) := by decide +kernel
example : gramSpace [af2 (-1) 0 0 (-1) 0 0] = .ok (some ⟨3, 3, [1, 0, 0, 0, 1, 0, 0, 0, 1]⟩) := by decide +kernel

end Systre
