import Verif.Lemmas.MachineInt
import Verif.Lemmas.Echelon
import Mathlib.Algebra.Order.Ring.Abs
import Mathlib.Tactic.Linarith
import Mathlib.Tactic.Positivity

/-!
# Bounds that exclude overflow
-/

namespace Systre.Machine

theorem fits_of_abs {w : Nat} {x N : Int} (hN : N < 2 ^ (w - 1)) (h : |x| ≤ N) : Fits w x := by
  rw [abs_le] at h
  unfold Fits
  constructor <;> omega

theorem res_of_abs {w : Nat} {x N : Int} (hN : N < 2 ^ (w - 1)) (h : |x| ≤ N) : (IntKind.debug w).res x = .ok x := by
  simp only [IntKind.res]
  rw [if_pos (fits_of_abs hN h)]

theorem tdiv_nat (n m : Nat) (hm : 0 < m) :
    ∃ q r : Int, (n : Int).tdiv m = q ∧ (n : Int) - q * m = r ∧ 0 ≤ q ∧ 0 ≤ r ∧ r < m ∧ q ≤ n := by
  refine ⟨((n / m : Nat) : Int), ((n % m : Nat) : Int), ?_, ?_, by positivity, by positivity, ?_, ?_⟩
  · exact (Int.ofNat_tdiv n m).symm ▸ rfl
  · have := Nat.div_add_mod n m
    have h2 : ((m * (n / m) + n % m : Nat) : Int) = (n : Int) := by rw [this]
    push_cast at h2 ⊢
    linarith
  · exact_mod_cast Nat.mod_lt n hm
  · exact_mod_cast Nat.div_le_self n m

theorem tdiv_facts (a b : Int) (hb : b ≠ 0) :
    |a - a.tdiv b * b| = |a| - |a.tdiv b| * |b| ∧ |a - a.tdiv b * b| < |b| ∧ 0 ≤ (a - a.tdiv b * b) * a ∧
    0 ≤ a.tdiv b * (a * b) ∧ |a.tdiv b| ≤ |a| := by
  obtain ⟨n, ha⟩ := a.eq_nat_or_neg
  obtain ⟨m, hm⟩ := b.eq_nat_or_neg
  have hm0 : 0 < m := by
    rcases Nat.eq_zero_or_pos m with h | h
    · subst h; exfalso; apply hb; rcases hm with h | h <;> simp [h]
    · exact h
  obtain ⟨q, r, h1, h2, h3, h4, h5, h6⟩ := tdiv_nat n m hm0
  have hn : (0 : Int) ≤ n := by positivity
  have hmi : (0 : Int) < m := by exact_mod_cast hm0
  have e : (n : Int) = r + q * m := by linarith
  rcases ha with rfl | rfl <;> rcases hm with rfl | rfl <;>
    simp only [Int.neg_tdiv, Int.tdiv_neg, h1, abs_neg, neg_neg, abs_of_nonneg hn, abs_of_pos hmi, abs_of_nonneg h3,
      mul_neg, neg_mul, sub_neg_eq_add]
  · rw [h2, abs_of_nonneg h4]
    refine ⟨by linarith, h5, mul_nonneg h4 hn, by positivity, h6⟩
  · rw [h2, abs_of_nonneg h4]
    refine ⟨by linarith, h5, mul_nonneg h4 hn, by positivity, h6⟩
  · rw [show -(n : Int) + q * m = - r by linarith, abs_neg, abs_of_nonneg h4]
    refine ⟨by linarith, h5, ?_, by positivity, h6⟩
    rw [neg_mul, neg_neg]; exact mul_nonneg h4 hn
  · rw [show -(n : Int) + q * m = - r by linarith, abs_neg, abs_of_nonneg h4]
    refine ⟨by linarith, h5, ?_, ?_, h6⟩
    · rw [neg_mul, neg_neg]; exact mul_nonneg h4 hn
    · positivity

theorem abs_sub_opp {x y : Int} (h : x * y ≤ 0) : |x - y| = |x| + |y| := by
  rcases mul_nonpos_iff.1 h with ⟨h1, h2⟩ | ⟨h1, h2⟩
  · rw [abs_of_nonneg h1, abs_of_nonpos h2, abs_of_nonneg (by linarith)]; ring
  · rw [abs_of_nonpos h1, abs_of_nonneg h2, abs_of_nonpos (by linarith)]; ring

theorem nonpos_of_mul_sq {x y : Int} (hy : y ≠ 0) (h : x * (y * y) ≤ 0) : x ≤ 0 := by
  by_contra hx
  push Not at hx
  have : 0 < y * y := by rcases lt_or_gt_of_ne hy with h | h <;> nlinarith
  have := mul_pos hx this
  linarith

/-- one step for one sequence of cofactors -/
theorem cofactor_step {a a' r r' C : Int} (h' : a' ≠ 0) (hs : r * r' * (a * a') ≤ 0)
    (hc : |r'| * |a| + |r| * |a'| = C) :
    |r - a.tdiv a' * r'| = |r| + |a.tdiv a' * r'| ∧ |r - a.tdiv a' * r'| * |a'| + |r'| * |a - a.tdiv a' * a'| = C ∧
    r' * (r - a.tdiv a' * r') * (a' * (a - a.tdiv a' * a')) ≤ 0 ∧ |r - a.tdiv a' * r'| ≤ C := by
  obtain ⟨h1, h2, h3, h4, h5⟩ := tdiv_facts a a' h'
  generalize a.tdiv a' = q at *
  have hp : 0 < |a'| := abs_pos.2 h'
  have key : r * (q * r') ≤ 0 := by
    by_cases ha : a = 0
    · subst ha
      have : q = 0 := by simpa using h5
      subst this; simp
    · apply nonpos_of_mul_sq (y := a * a') (mul_ne_zero ha h')
      have := mul_nonpos_of_nonneg_of_nonpos h4 hs
      nlinarith
  have e1 : |r - q * r'| = |r| + |q * r'| := abs_sub_opp key
  have e2 : |r - q * r'| * |a'| + |r'| * |a - q * a'| = C := by
    rw [e1, h1, abs_mul, ← hc]; ring
  refine ⟨e1, e2, ?_, ?_⟩
  · by_cases ha : a = 0
    · subst ha
      have : q = 0 := by simpa using h5
      subst this; simp
    · apply nonpos_of_mul_sq (y := a) ha
      have k1 : r' * (r - q * r') * (a * a') ≤ 0 := by
        have : 0 ≤ q * (a * a') * (r' * r') := mul_nonneg h4 (mul_self_nonneg _)
        nlinarith
      have := mul_nonpos_of_nonneg_of_nonpos h3 k1
      nlinarith
  · have h6 : |r - q * r'| * 1 ≤ |r - q * r'| * |a'| := mul_le_mul_of_nonneg_left hp (abs_nonneg _)
    have h7 : 0 ≤ |r'| * |a - q * a'| := by positivity
    linarith

theorem gcdxLoop_safe {w : Nat} {A B N : Int} (hN : N < 2 ^ (w - 1)) (hA : A ≤ N) (hB : B ≤ N) (n : Nat) :
    ∀ a a' r r' s s' : Int, a'.natAbs < n → |a| ≤ N → |a'| ≤ N →
      |r'| * |a| + |r| * |a'| = B → |s'| * |a| + |s| * |a'| = A →
      r * r' * (a * a') ≤ 0 → s * s' * (a * a') ≤ 0 →
      |r| ≤ max 1 B → |r'| ≤ max 1 B → |s| ≤ max 1 A → |s'| ≤ max 1 A →
      ∃ g x y t u, gcdxLoop (.debug w) n a a' r r' s s' = .ok (g, x, y, t, u) ∧ |g| ≤ N ∧ |x| ≤ max 1 B ∧
        |y| ≤ max 1 A ∧ |t| ≤ max 1 B ∧ |u| ≤ max 1 A := by
  induction n with
  | zero => intro a a' r r' s s' h; omega
  | succ n ih =>
    intro a a' r r' s s' hn ha ha' hr hs er es br br' bs bs'
    unfold gcdxLoop
    by_cases h0 : a' = 0
    · rw [if_neg (by simpa using h0)]
      exact ⟨_, _, _, _, _, rfl, ha, br, bs, br', bs'⟩
    · rw [if_pos h0]
      obtain ⟨d1, d2, d3, d4, d5⟩ := tdiv_facts a a' h0
      obtain ⟨r1, r2, r3, r4⟩ := cofactor_step h0 er hr
      obtain ⟨s1, s2, s3, s4⟩ := cofactor_step h0 es hs
      have hq : (IntKind.debug w).quot a a' = .ok (a.tdiv a') := by
        have : (IntKind.debug w).quotFits a a' = true := decide_eq_true (fits_of_abs hN (by linarith))
        unfold IntKind.quot
        rw [if_neg h0, if_pos this]
      have pa : |a.tdiv a' * a'| ≤ N := by rw [abs_mul]; linarith [abs_nonneg (a - a.tdiv a' * a')]
      have pr : |a.tdiv a' * r'| ≤ N := by linarith [abs_nonneg r]
      have ps : |a.tdiv a' * s'| ≤ N := by linarith [abs_nonneg s]
      rw [hq]
      simp only [Outcome.ok_bind, subMul]
      rw [res_of_abs hN pa, Outcome.ok_bind, res_of_abs hN (by linarith : |a - a.tdiv a' * a'| ≤ N), Outcome.ok_bind,
        res_of_abs hN pr, Outcome.ok_bind, res_of_abs hN (by linarith : |r - a.tdiv a' * r'| ≤ N), Outcome.ok_bind,
        res_of_abs hN ps, Outcome.ok_bind, res_of_abs hN (by linarith : |s - a.tdiv a' * s'| ≤ N), Outcome.ok_bind]
      apply ih
      · have : |a - a.tdiv a' * a'| < |a'| := d2
        rw [Int.abs_eq_natAbs, Int.abs_eq_natAbs] at this
        omega
      · exact ha'
      · linarith
      · exact r2
      · exact s2
      · exact r3
      · exact s3
      · exact br'
      · exact le_max_of_le_right r4
      · exact bs'
      · exact le_max_of_le_right s4

/-- `gcdx` does not overflow if both numbers have a negative -/
theorem gcdx_safe {w : Nat} {a b N : Int} (hN : N < 2 ^ (w - 1)) (ha : |a| ≤ N) (hb : |b| ≤ N) :
    ∃ g r s t u, gcdx (.debug w) a b = .ok (g, r, s, t, u) ∧ |g| ≤ N ∧ |r| ≤ max 1 |b| ∧
        |s| ≤ max 1 |a| ∧ |t| ≤ max 1 |b| ∧ |u| ≤ max 1 |a| := by
  apply gcdxLoop_safe hN ha hb <;> simp [ha, hb]

theorem omap_bound {α β : Type} {f : α → Outcome β} {P : β → Prop} {l : List α}
    (h : ∀ a ∈ l, ∃ b, f a = .ok b ∧ P b) : ∃ l', omap f l = .ok l' ∧ ∀ b ∈ l', P b := by
  obtain ⟨l', h1, h2⟩ := omap_forall₂ (R := fun _ b => P b) h
  refine ⟨l', h1, ?_⟩
  clear h1 h
  induction h2 with
  | nil => intro b hb; cases hb
  | cons h _ ih =>
    intro b hb
    rcases List.mem_cons.1 hb with rfl | hb
    · exact h
    · exact ih b hb

/-- all entries are bounded -/
def Small (M : Int) (v : List Int) : Prop := ∀ x ∈ v, |x| ≤ M

theorem Small.rent {M : Int} {v : List Int} (h : Small M v) (hM : 0 ≤ M) (i : Nat) : |rent v i| ≤ M := by
  unfold Systre.rent
  rw [List.getD_eq_getElem?_getD]
  by_cases hi : i < v.length
  · rw [List.getElem?_eq_getElem hi]; exact h _ (List.getElem_mem hi)
  · rw [List.getElem?_eq_none (by omega)]; simpa using hM

theorem Small.mono {M N : Int} {v : List Int} (h : Small M v) (hMN : M ≤ N) : Small N v :=
  fun x hx => (h x hx).trans hMN

theorem combo {y x r s M m C D : Int} (hy : |y| ≤ M) (hx : |x| ≤ m) (hr : |r| ≤ C) (hs : |s| ≤ D) :
    |y * r| ≤ M * C ∧ |x * s| ≤ m * D ∧ |y * r + x * s| ≤ M * C + m * D := by
  have h1 : |y * r| ≤ M * C := by
    rw [abs_mul]; exact mul_le_mul hy hr (abs_nonneg _) ((abs_nonneg _).trans hy)
  have h2 : |x * s| ≤ m * D := by
    rw [abs_mul]; exact mul_le_mul hx hs (abs_nonneg _) ((abs_nonneg _).trans hx)
  exact ⟨h1, h2, (abs_add_le _ _).trans (add_le_add h1 h2)⟩

theorem mulAddMul_safe {w : Nat} {y x r s M m : Int} (hN : 2 * (M * m) < 2 ^ (w - 1))
    (hy : |y| ≤ M) (hx : |x| ≤ m) (hr : |r| ≤ m) (hs : |s| ≤ M) :
    mulAddMul (.debug w) y r x s = .ok (y * r + x * s) ∧ |y * r + x * s| ≤ 2 * (M * m) := by
  obtain ⟨h1, h2, h3⟩ := combo hy hx hr hs
  have h4 : 0 ≤ M * m := (abs_nonneg _).trans h1
  have h5 : |y * r + x * s| ≤ 2 * (M * m) := by linarith [mul_comm M m]
  unfold mulAddMul
  rw [res_of_abs hN (by linarith : |y * r| ≤ 2 * (M * m)), Outcome.ok_bind,
    res_of_abs hN (by linarith [mul_comm M m] : |x * s| ≤ 2 * (M * m)), Outcome.ok_bind, res_of_abs hN h5]
  exact ⟨rfl, h5⟩

theorem clearColumn_safe {w : Nat} {col : Nat} {v b : List Int} {M m : Int} (hN : 2 * (M * m) < 2 ^ (w - 1))
    (hM : 1 ≤ M) (hm : 1 ≤ m) (hb : Small M b) (hv : Small m v) (hbc : rent b col ≠ 0) (hvc : rent v col ≠ 0) :
    ∃ v' b', clearColumn (.debug w) col v b = .ok (v', b') ∧ Small (2 * (M * m)) v' ∧ Small (2 * (M * m)) b' := by
  have hmM : m ≤ M * m := by nlinarith
  have hMm : M ≤ M * m := by nlinarith
  have vb := fun i => hv.rent (by linarith) i
  have bb := fun i => hb.rent (by linarith) i
  obtain ⟨g, r, s, t, u, h1, -, h2, h3, h4, h5⟩ := gcdx_safe (w := w) (N := M * m) (by linarith)
    ((bb col).trans hMm) ((vb col).trans hmM)
  have e1 : max 1 |rent v col| = |rent v col| := max_eq_right (Int.one_le_abs hvc)
  have e2 : max 1 |rent b col| = |rent b col| := max_eq_right (Int.one_le_abs hbc)
  rw [e1] at h2 h4
  rw [e2] at h3 h5
  have hr := h2.trans (vb col)
  have ht := h4.trans (vb col)
  have hs := h3.trans (bb col)
  have hu := h5.trans (bb col)
  have hg := ideal_gcdx (rent b col) (rent v col)
  rw [(le_gcdx (debug_below_ideal w) _ _).ok h1] at hg
  obtain ⟨g', r', s', t', u', k1, -, -, k2, -⟩ := gcdx_ok (rent b col) (rent v col)
  rw [k1] at hg
  have k3 := Outcome.ok.inj hg
  simp only [Prod.mk.injEq] at k3
  obtain ⟨rfl, rfl, rfl, rfl, rfl⟩ := k3
  have hdet : |r * u - s * t| = 1 := by rcases k2 with h | h <;> rw [h] <;> rfl
  obtain ⟨c1, -, -⟩ := combo hr (le_refl |s|) hu (le_refl |t|)
  obtain ⟨c2, -, -⟩ := combo hs (le_refl |s|) ht (le_refl |t|)
  have hd : mulSubMul (.debug w) r u s t = .ok (r * u - s * t) := by
    unfold mulSubMul
    rw [res_of_abs hN (by linarith [mul_comm M m] : |r * u| ≤ 2 * (M * m)), Outcome.ok_bind,
      res_of_abs hN (by linarith : |s * t| ≤ 2 * (M * m)), Outcome.ok_bind,
      res_of_abs hN (by rw [hdet]; linarith : |r * u - s * t| ≤ 2 * (M * m))]
  have hbound : ∀ i ∈ List.range v.length, ∃ p : Int × Int,
      (if i < col then Outcome.ok (rent v i, rent b i)
        else clearEntry (.debug w) r s t u (r * u - s * t) (rent v i) (rent b i)) = .ok p ∧
      (|p.1| ≤ 2 * (M * m) ∧ |p.2| ≤ 2 * (M * m)) := by
    intro i _
    split
    · exact ⟨_, rfl, by linarith [vb i], by linarith [bb i]⟩
    · obtain ⟨z1, z2⟩ := mulAddMul_safe hN (bb i) (vb i) hr hs
      obtain ⟨w1, w2⟩ := mulAddMul_safe hN (bb i) (vb i) ht hu
      have h6 : |(r * u - s * t) * (rent b i * r + rent v i * s)| ≤ 2 * (M * m) := by
        rw [abs_mul, hdet, one_mul]; exact z2
      unfold clearEntry
      rw [z1, Outcome.ok_bind, res_of_abs hN h6, Outcome.ok_bind, w1, Outcome.ok_bind]
      exact ⟨_, rfl, w2, h6⟩
  obtain ⟨new, h6, h7⟩ := omap_bound hbound
  unfold clearColumn
  rw [h1, Outcome.ok_bind]
  dsimp only
  rw [hd, Outcome.ok_bind, h6, Outcome.ok_bind]
  refine ⟨_, _, rfl, ?_, ?_⟩
  · intro x hx
    obtain ⟨p, hp, rfl⟩ := List.mem_map.1 hx
    exact (h7 p hp).1
  · intro x hx
    obtain ⟨p, hp, rfl⟩ := List.mem_map.1 hx
    exact (h7 p hp).2

theorem extendBasis_safe {w : Nat} {M : Int} (hM : 1 ≤ M) (bs : List (List Int)) : ∀ (v : List Int) (m : Int), 1 ≤ m →
    (2 * M) ^ bs.length * m < 2 ^ (w - 1) → (∀ b ∈ bs, Small M b) → Small m v → ∀ bs', Systre.extendBasis v bs = .ok bs' →
    extendBasis (.debug w) v bs = .ok bs' ∧ ∀ b ∈ bs', Small (max M ((2 * M) ^ bs.length * m)) b := by
  induction bs with
  | nil =>
    intro v m hm hN hb hv bs' h
    refine ⟨h, ?_⟩
    unfold Systre.extendBasis at h
    split at h
    · obtain rfl := Outcome.ok.inj h
      intro b hb
      rw [List.mem_singleton.1 hb]
      exact hv.mono (by simp)
    · obtain rfl := Outcome.ok.inj h
      intro b hb; cases hb
  | cons b bs ih =>
    intro v m hm hN hb hv bs' h
    have hp : 1 ≤ (2 * M) ^ bs.length := one_le_pow₀ (by linarith)
    have hpow : (2 * M) ^ (b :: bs).length * m = (2 * M) ^ bs.length * (2 * (M * m)) := by
      rw [List.length_cons, pow_succ]; ring
    rw [hpow] at hN ⊢
    have hMm : 1 ≤ M * m := by nlinarith
    have hle : 2 * (M * m) ≤ (2 * M) ^ bs.length * (2 * (M * m)) := by nlinarith
    have hm2 : m ≤ 2 * (M * m) := by nlinarith
    have hbM := hb b List.mem_cons_self
    have hbs := fun c hc => hb c (List.mem_cons_of_mem _ hc)
    unfold Systre.extendBasis at h
    unfold extendBasis
    by_cases hl : b.length = v.length
    swap
    · rw [if_pos hl] at h; cases h
    have hl' : ¬ (b.length ≠ v.length) := by simpa using hl
    rw [if_neg hl'] at h ⊢
    cases hpv : pivotColumn v with
    | none =>
      rw [hpv] at h
      obtain rfl := Outcome.ok.inj h
      exact ⟨rfl, fun c hc => (hb c hc).mono (le_max_left _ _)⟩
    | some col =>
      rw [hpv] at h
      cases hpb : pivotColumn b with
      | none => rw [hpb] at h; cases h
      | some colB =>
        rw [hpb] at h
        dsimp only at h ⊢
        by_cases hc : col < colB
        · rw [if_pos hc] at h ⊢
          obtain rfl := Outcome.ok.inj h
          by_cases hpar : (b :: bs).length % 2 > 0
          · rw [if_pos hpar, if_pos hpar,
              omap_ok (g := fun x => -x) (by
                intro x hx
                exact res_of_abs (N := m) (by linarith) (by rw [abs_neg]; exact hv x hx))]
            refine ⟨rfl, ?_⟩
            intro c hc'
            rcases List.mem_cons.1 hc' with rfl | hc'
            · refine Small.mono (M := m) ?_ (le_max_of_le_right (by linarith))
              intro x hx
              obtain ⟨y, hy, rfl⟩ := List.mem_map.1 hx
              rw [abs_neg]; exact hv y hy
            · exact (hb c hc').mono (le_max_left _ _)
          · rw [if_neg hpar, if_neg hpar]
            refine ⟨rfl, ?_⟩
            intro c hc'
            rcases List.mem_cons.1 hc' with rfl | hc'
            · exact hv.mono (le_max_of_le_right (by linarith))
            · exact (hb c hc').mono (le_max_left _ _)
        · rw [if_neg hc] at h ⊢
          by_cases hcc : col = colB
          · rw [if_pos hcc] at h ⊢
            subst hcc
            obtain ⟨v', b', k1, k2, k3⟩ := clearColumn_safe (w := w) (by linarith) hM hm hbM hv
              (pivotColumn_some.1 hpb).2 (pivotColumn_some.1 hpv).2
            have k4 := ideal_clearColumn col v b
            rw [(le_clearColumn (debug_below_ideal w) _ _ _).ok k1] at k4
            have k5 : (Scalar.clearColumn col v b : Outcome (List Int × List Int)) = .ok (v', b') := k4.symm
            rw [k5, Outcome.ok_bind] at h
            obtain ⟨rest, k6, k7⟩ := Outcome.bind_eq_ok.1 h
            obtain rfl := Outcome.ok.inj k7
            obtain ⟨k8, k9⟩ := ih v' (2 * (M * m)) (by linarith) hN hbs k2 rest k6
            rw [k1, Outcome.ok_bind]
            dsimp only
            rw [k8, Outcome.ok_bind]
            refine ⟨rfl, ?_⟩
            intro c hc'
            rcases List.mem_cons.1 hc' with rfl | hc'
            · exact k3.mono (le_max_of_le_right hle)
            · exact k9 c hc'
          · rw [if_neg hcc] at h ⊢
            obtain ⟨rest, k6, k7⟩ := Outcome.bind_eq_ok.1 h
            obtain rfl := Outcome.ok.inj k7
            obtain ⟨k8, k9⟩ := ih v (2 * (M * m)) (by linarith) hN hbs (hv.mono hm2) rest k6
            rw [k8, Outcome.ok_bind]
            refine ⟨rfl, ?_⟩
            intro c hc'
            rcases List.mem_cons.1 hc' with rfl | hc'
            · exact hbM.mono (le_max_left _ _)
            · exact k9 c hc'

theorem extendBasis_length (bs : List (List Int)) : ∀ (v : List Int) bs', Systre.extendBasis v bs = .ok bs' →
    bs'.length ≤ bs.length + 1 := by
  induction bs with
  | nil =>
    intro v bs' h
    unfold Systre.extendBasis at h
    split at h <;> (obtain rfl := Outcome.ok.inj h; simp)
  | cons b bs ih =>
    intro v bs' h
    unfold Systre.extendBasis at h
    split at h
    · cases h
    · split at h
      · obtain rfl := Outcome.ok.inj h; simp
      · split at h
        · cases h
        · split at h
          · obtain rfl := Outcome.ok.inj h; simp
          · split at h
            · obtain ⟨p, -, k1⟩ := Outcome.bind_eq_ok.1 h
              obtain ⟨rest, k2, k3⟩ := Outcome.bind_eq_ok.1 k1
              obtain rfl := Outcome.ok.inj k3
              have := ih _ _ k2
              simp only [List.length_cons]; omega
            · obtain ⟨rest, k2, k3⟩ := Outcome.bind_eq_ok.1 h
              obtain rfl := Outcome.ok.inj k3
              have := ih _ _ k2
              simp only [List.length_cons]; omega

/-- A bound for the numbers in the basis after `j` vectors with entries at most `M`. -/
def growth (M : Nat) : Nat → Nat
  | 0 => M
  | j + 1 => max (growth M j) ((2 * growth M j) ^ j * M)

theorem growth_mono (M j n : Nat) : growth M j ≤ growth M (j + n) := by
  induction n with
  | zero => exact le_refl _
  | succ n ih => exact ih.trans (le_max_left _ _)

theorem extendAll_safe {w M : Nat} (hM : 1 ≤ M) (vs : List (List Int)) : ∀ (bs : List (List Int)) (j : Nat),
    bs.length ≤ j → growth M (j + vs.length) < 2 ^ (w - 1) → (∀ b ∈ bs, Small (growth M j) b) → (∀ v ∈ vs, Small M v) →
    ∀ bs', Systre.extendAll vs bs = .ok bs' → extendAll (.debug w) vs bs = .ok bs' := by
  induction vs with
  | nil => intro bs j _ _ _ _ bs' h; exact h
  | cons v vs ih =>
    intro bs j hj hN hb hv bs' h
    unfold Systre.extendAll at h
    obtain ⟨b1, k1, k2⟩ := Outcome.bind_eq_ok.1 h
    have hG : 1 ≤ growth M j := hM.trans (by simpa [growth] using growth_mono M 0 j)
    have hle : (2 * (growth M j : Int)) ^ bs.length * (M : Int) ≤ ((growth M (j + 1) : Nat) : Int) := by
      have : (2 * growth M j) ^ bs.length * M ≤ growth M (j + 1) :=
        (Nat.mul_le_mul_right M (Nat.pow_le_pow_right (by omega) hj)).trans (le_max_right _ _)
      exact_mod_cast this
    have hN' : ((growth M (j + 1) : Nat) : Int) < 2 ^ (w - 1) := by
      have h1 := growth_mono M (j + 1) vs.length
      rw [show j + 1 + vs.length = j + (v :: vs).length by simp only [List.length_cons]; omega] at h1
      exact_mod_cast lt_of_le_of_lt h1 hN
    obtain ⟨k3, k4⟩ := extendBasis_safe (w := w) (M := growth M j) (by exact_mod_cast hG) bs v M (by exact_mod_cast hM)
      (lt_of_le_of_lt hle hN') hb (hv v List.mem_cons_self) b1 k1
    unfold extendAll
    rw [k3, Outcome.ok_bind]
    refine ih b1 (j + 1) ((extendBasis_length _ _ _ k1).trans (by omega)) ?_ ?_
      (fun x hx => hv x (List.mem_cons_of_mem _ hx)) bs' k2
    · rw [show j + 1 + vs.length = j + (v :: vs).length by simp only [List.length_cons]; omega]; exact hN
    · intro b hb'
      refine (k4 b hb').mono (max_le ?_ hle)
      exact_mod_cast growth_mono M j 1

end Systre.Machine
