import Verif.Lemmas.Hadamard
import Verif.Lemmas.ModularAny
import Verif.Lemmas.Reconstruct
import Mathlib.Algebra.Order.BigOperators.Group.Finset

namespace Systre.Modular
open Systre

variable {n m : Nat} {p : Nat}

theorem cast_tmod' (x : Int) : ((x.tmod p : Int) : ZMod p) = x := by
  have h1 := Int.mul_tdiv_add_tmod x p
  have h2 : ((x : Int) : ZMod p) = ((p * x.tdiv p + x.tmod p : Int) : ZMod p) := by rw [h1]
  rw [h2]; push_cast; simp

theorem abs_tmod_lt (hp : 0 < p) (x : Int) : |x.tmod p| < p := by
  rw [abs_lt]
  rcases le_or_gt 0 x with h | h
  · have := Int.tmod_nonneg (p : Int) h
    have : x.tmod p < p := Int.tmod_lt_of_pos _ (by omega)
    omega
  · have h1 : x.tmod p = -((-x).tmod p) := by rw [Int.neg_tmod]; omega
    have h2 : 0 ≤ (-x).tmod p := Int.tmod_nonneg _ (by omega)
    have h3 : (-x).tmod p < p := Int.tmod_lt_of_pos _ (by omega)
    omega

theorem modFold_ok {ck : Int → Outcome Int} {K : Int} (hck : Accepts ck K) (hp : 0 < p) (hK : 2 * (p : Int) ≤ K) :
    ∀ (l : List Int) (x : Int), |x| < p → (∀ y ∈ l, |y| < p) →
    ∃ z, l.foldlM (fun a q => do
      let y ← ck (a + q)
      .ok (y.tmod p)) x = Outcome.ok z ∧ |z| < p ∧ ((z : Int) : ZMod p) = ((x + l.sum : Int) : ZMod p)
  | [], x, hx, _ => ⟨x, rfl, hx, by simp⟩
  | y :: l, x, hx, hl => by
    have hy := hl y (by simp)
    rw [List.foldlM_cons]
    rw [hck _ (by have := abs_add_le x y; omega)]
    simp only [Outcome.ok_bind]
    obtain ⟨z, h1, h2, h3⟩ := modFold_ok hck hp hK l ((x + y).tmod p) (abs_tmod_lt hp _)
      (fun w hw => hl w (by simp [hw]))
    refine ⟨z, h1, h2, ?_⟩
    rw [h3]
    push_cast
    rw [cast_tmod']
    push_cast
    simp only [List.map_cons, List.sum_cons]; ring

theorem modSum_ok {ck : Int → Outcome Int} {K : Int} (hck : Accepts ck K) (hp : 0 < p) (hK : 2 * (p : Int) ≤ K)
    (f : Fin n → Int) (hn : 0 < n) (hf : ∀ i, |f i| < p) :
    ∃ z, modSum ck p (List.ofFn f) = .ok z ∧ |z| < p ∧ ((z : Int) : ZMod p) = ((∑ i, f i : Int) : ZMod p) := by
  obtain ⟨k, rfl⟩ : ∃ k, n = k + 1 := ⟨n - 1, by omega⟩
  rw [List.ofFn_succ]
  unfold modSum
  obtain ⟨z, h1, h2, h3⟩ := modFold_ok hck hp hK (List.ofFn fun i : Fin k => f i.succ) (f 0) (hf 0) (by
    intro y hy; obtain ⟨i, rfl⟩ := List.mem_ofFn.1 hy; exact hf _)
  refine ⟨z, h1, h2, ?_⟩
  rw [h3, List.sum_ofFn, Fin.sum_univ_succ]

theorem vecGet_toLists {T : Type} {r c : Nat} (A : Matrix (Fin r) (Fin c) T) (i : Fin r) :
    vecGet (toLists A) i.1 = .ok (List.ofFn (A i)) := by
  unfold toLists; exact vecGet_ofFn _ i

theorem matrixProduct_ok {ck : Int → Outcome Int} {K Bd : Int} (hck : Accepts ck K) (hp : 0 < p)
    (hK : 2 * (p : Int) ≤ K) (hKB : p * Bd ≤ K) (hn : 0 < n) (C : Matrix (Fin n) (Fin n) Int)
    (B : Matrix (Fin n) (Fin m) Int) (hC : Residues p C) (hB : ∀ i j, |B i j| ≤ Bd) :
    ∃ X : Matrix (Fin n) (Fin m) Int, matrixProduct ck (toLists C) (toLists B) p = .ok (toLists X) ∧
      (∀ i j, |X i j| < p) ∧ modP p X = modP p C * modP p B := by
  have hent : ∀ (i : Fin n) (j : Fin m), ∃ z, (do
      let ts ← omap (fun k => do
        let x ← vecGet (List.ofFn (C i)) k
        let y ← mget (toLists B) k j.1
        let z ← ck (x * y)
        .ok (z.tmod p)) (List.range n)
      modSum ck p ts) = Outcome.ok z ∧ |z| < p ∧ ((z : Int) : ZMod p) = ∑ k, (C i k : ZMod p) * B k j := by
    intro i j
    have h1 : omap (fun k => do
        let x ← vecGet (List.ofFn (C i)) k
        let y ← mget (toLists B) k j.1
        let z ← ck (x * y)
        .ok (z.tmod p)) (List.range n) = .ok (List.ofFn (fun k => (C i k * B k j).tmod p)) := by
      apply omap_range
      intro k
      rw [vecGet_ofFn, mget_toLists]
      simp only [Outcome.ok_bind]
      rw [hck]
      · rfl
      · have h1 := hC i k
        rw [abs_mul, abs_of_nonneg h1.1]
        refine le_trans (mul_le_mul h1.2.le (hB k j) (abs_nonneg _) (by omega)) hKB
    rw [h1]
    simp only [Outcome.ok_bind]
    obtain ⟨z, h2, h3, h4⟩ := modSum_ok hck hp hK (fun k => (C i k * B k j).tmod p) hn
      (fun k => abs_tmod_lt hp _)
    refine ⟨z, h2, h3, ?_⟩
    rw [h4]
    push_cast
    apply Finset.sum_congr rfl
    intro k _
    rw [cast_tmod']; push_cast; rfl
  choose X h1 h2 h3 using hent
  refine ⟨X, ?_, h2, ?_⟩
  · unfold matrixProduct
    rw [vecGet_toLists C ⟨0, hn⟩, vecGet_toLists B ⟨0, hn⟩]
    simp only [Outcome.ok_bind, List.length_ofFn, toLists_length, ne_eq, not_true_eq_false, if_false]
    show omap _ (List.ofFn _) = .ok (List.ofFn _)
    apply omap_ofFn
    intro i
    apply omap_range
    intro j
    exact h1 i j
  · ext i j
    rw [Matrix.mul_apply]
    exact h3 i j

theorem sumFold_ok {ck : Int → Outcome Int} {K : Int} (hck : Accepts ck K) (T : Int) :
    ∀ (l : List Int) (x M : Int), |x| ≤ M → (∀ y ∈ l, |y| ≤ T) → M + l.length * T ≤ K → 0 ≤ T →
    l.foldlM (fun a q => ck (a + q)) x = Outcome.ok (x + l.sum)
  | [], x, M, _, _, _, _ => by simp
  | y :: l, x, M, hx, hl, hK, hT => by
    have hy := hl y (by simp)
    have h1 := abs_add_le x y
    have hlen : 0 ≤ (l.length : Int) * T := by positivity
    have hc : ((y :: l).length : Int) * T = l.length * T + T := by push_cast [List.length_cons]; ring
    rw [hc] at hK
    rw [List.foldlM_cons, hck _ (by omega)]
    simp only [Outcome.ok_bind]
    rw [sumFold_ok hck T l (x + y) (M + T) (by omega) (fun w hw => hl w (by simp [hw])) (by omega) hT]
    rw [List.sum_cons, add_assoc]

theorem integerProduct_ok {ck : Int → Outcome Int} {K α β : Int} (hck : Accepts ck K) (hn : 0 < n)
    (A : Matrix (Fin n) (Fin n) Int) (X : Matrix (Fin n) (Fin m) Int) (hA : ∀ i j, |A i j| ≤ α)
    (hX : ∀ i j, |X i j| ≤ β) (hβ : 0 ≤ β) (hK : n * (α * β) ≤ K) :
    integerProduct ck (toLists A) (toLists X) = .ok (toLists (A * X)) := by
  have hα : 0 ≤ α := le_trans (abs_nonneg _) (hA ⟨0, hn⟩ ⟨0, hn⟩)
  have hαβ : 0 ≤ α * β := mul_nonneg hα hβ
  have ht : ∀ (i : Fin n) (k : Fin n) (j : Fin m), |A i k * X k j| ≤ α * β := fun i k j => by
    rw [abs_mul]; exact mul_le_mul (hA i k) (hX k j) (abs_nonneg _) hα
  unfold integerProduct
  rw [vecGet_toLists A ⟨0, hn⟩, vecGet_toLists X ⟨0, hn⟩]
  simp only [Outcome.ok_bind, List.length_ofFn, toLists_length, ne_eq, not_true_eq_false, if_false]
  show omap _ (List.ofFn _) = .ok (List.ofFn _)
  apply omap_ofFn
  intro i
  apply omap_range
  intro j
  have h1 : omap (fun k => do
      let x ← vecGet (List.ofFn (A i)) k
      let y ← mget (toLists X) k j.1
      ck (x * y)) (List.range n) = .ok (List.ofFn (fun k => A i k * X k j)) := by
    apply omap_range
    intro k
    rw [vecGet_ofFn, mget_toLists]
    simp only [Outcome.ok_bind]
    apply hck
    have h2 : α * β ≤ n * (α * β) := by
      have : (1 : Int) ≤ n := by exact_mod_cast hn
      nlinarith
    exact (ht i k j).trans (h2.trans hK)
  rw [h1]
  simp only [Outcome.ok_bind]
  rw [sumFold_ok hck (α * β) _ 0 0 (by simp) (by
    intro y hy; obtain ⟨k, rfl⟩ := List.mem_ofFn.1 hy; exact ht i k j) (by simpa using hK) hαβ]
  rw [zero_add, List.sum_ofFn]
  rfl

theorem otable_ok {β : Type} {f : Nat → Nat → Outcome β} {X : Matrix (Fin n) (Fin m) β}
    (h : ∀ (i : Fin n) (j : Fin m), f i.1 j.1 = .ok (X i j)) : otable n m f = .ok (toLists X) := by
  unfold otable
  apply omap_range
  intro i
  apply omap_range
  intro j
  exact h i j

variable [hpf : Fact p.Prime]

theorem liftLoop_ok {ck : Int → Outcome Int} {K α Bd : Int} (hck : Accepts ck K) (hn : 0 < n)
    (A C : Matrix (Fin n) (Fin n) Int) (hC : Residues p C) (hAC : modP p A * modP p C = 1)
    (hA : ∀ i j, |A i j| ≤ α) (hαB : n * α ≤ Bd) (hK : 2 * (p : Int) ≤ K) (hKB : p * Bd ≤ K)
    (B0 : Matrix (Fin n) (Fin m) Int) :
    ∀ (todo : Nat) (P : Int) (B S : Matrix (Fin n) (Fin m) Int), (∀ i j, |B i j| ≤ Bd) →
      B0 = A * S + P • B →
      ∃ S' B' : Matrix (Fin n) (Fin m) Int,
        liftLoop ck p (toLists A) (toLists C) n m todo P (toLists B) (toLists S) =
          .ok (P * p ^ todo, toLists S') ∧ B0 = A * S' + (P * p ^ todo) • B' := by
  have hp1 : 1 < p := hpf.out.one_lt
  have hα : 0 ≤ α := le_trans (abs_nonneg _) (hA ⟨0, hn⟩ ⟨0, hn⟩)
  intro todo
  induction todo with
  | zero =>
    intro P B S hB hinv
    exact ⟨S, B, by simp [liftLoop], by simpa using hinv⟩
  | succ todo ih =>
    intro P B S hB hinv
    obtain ⟨X, hX1, hX2, hX3⟩ := matrixProduct_ok hck (by omega) hK hKB hn C B hC hB
    have hdvd : ∀ i j, (p : Int) ∣ B i j - (A * X) i j := by
      intro i j
      rw [← ZMod.intCast_zmod_eq_zero_iff_dvd]
      have h1 : modP p A * modP p X = modP p B := by
        rw [hX3, ← Matrix.mul_assoc, hAC, Matrix.one_mul]
      have h2 : (((A * X) i j : Int) : ZMod p) = (modP p A * modP p X) i j := by
        simp [Matrix.mul_apply, modP]
      push_cast
      rw [h2, h1]
      simp [modP]
    choose B' hB' using hdvd
    have hadd : addDigits n m P (toLists S) (toLists X) = .ok (toLists (S + P • X)) := by
      apply otable_ok
      intro i j
      rw [mget_toLists, mget_toLists]
      simp
    have hinv' : B0 = A * (S + P • X) + (P * p) • (Matrix.of B') := by
      rw [hinv]
      ext i j
      have := hB' i j
      simp only [Matrix.add_apply, Matrix.smul_apply, Matrix.mul_add, Matrix.mul_smul, smul_eq_mul,
        Matrix.of_apply]
      linear_combination P * this
    unfold liftLoop
    rw [hX1]
    simp only [Outcome.ok_bind]
    rw [hadd]
    simp only [Outcome.ok_bind]
    have hpow : ∀ q : Int, P * p * p ^ todo = P * p ^ (todo + 1) := fun q => by ring
    split
    · have hXp : ∀ i j, |X i j| ≤ (p : Int) - 1 := fun i j => by have := hX2 i j; omega
      have hnα : 0 ≤ (n : Int) * α := by positivity
      have hbnd : (n : Int) * (α * (p - 1)) + Bd ≤ p * Bd := by
        have : (n : Int) * α * (p - 1) ≤ Bd * (p - 1) := mul_le_mul_of_nonneg_right hαB (by omega)
        nlinarith
      have hBd0 : 0 ≤ Bd := le_trans hnα hαB
      have hprod := integerProduct_ok (m := m) hck hn A X hA hXp (by omega) (by omega)
      rw [hprod]
      simp only [Outcome.ok_bind]
      have hAX : ∀ i j, |(A * X) i j| ≤ n * (α * (p - 1)) := by
        intro i j
        rw [Matrix.mul_apply]
        refine (Finset.abs_sum_le_sum_abs _ _).trans ?_
        have : ∀ k ∈ Finset.univ, |A i k * X k j| ≤ α * ((p : Int) - 1) := fun k _ => by
          rw [abs_mul]; exact mul_le_mul (hA i k) (hXp k j) (abs_nonneg _) hα
        refine (Finset.sum_le_card_nsmul _ _ _ this).trans (le_of_eq ?_)
        simp
      have hsub : ∀ i j, |B i j - (A * X) i j| ≤ p * Bd := fun i j => by
        have h1 := abs_sub (B i j) ((A * X) i j)
        have h2 := hB i j
        have h3 := hAX i j
        omega
      have hres : residual ck n m p (toLists B) (toLists (A * X)) = .ok (toLists (Matrix.of B')) := by
        apply otable_ok
        intro i j
        rw [mget_toLists, mget_toLists]
        simp only [Outcome.ok_bind]
        rw [hck _ ((hsub i j).trans hKB)]
        simp only [Outcome.ok_bind]
        rw [hB' i j, Int.mul_tdiv_cancel_left _ (by omega)]
        rfl
      rw [hres]
      simp only [Outcome.ok_bind]
      have hB'b : ∀ i j, |(Matrix.of B') i j| ≤ Bd := by
        intro i j
        have h1 := hsub i j
        rw [hB' i j, abs_mul, abs_of_nonneg (show (0 : Int) ≤ p by omega)] at h1
        exact le_of_mul_le_mul_left h1 (by omega)
      obtain ⟨S', B'', g1, g2⟩ := ih (P * p) (Matrix.of B') (S + P • X) hB'b hinv'
      rw [hpow 0] at g1 g2
      exact ⟨S', B'', g1, g2⟩
    · rename_i h0
      have h0 : todo = 0 := by omega
      subst h0
      refine ⟨S + P • X, Matrix.of B', ?_, ?_⟩
      · simp [liftLoop]
      · simpa using hinv'

theorem toLists_zero : List.replicate n (List.replicate m (0 : Int)) = toLists (0 : Matrix (Fin n) (Fin m) Int) := by
  unfold toLists
  apply List.ext_getElem
  · simp
  · intro i h1 h2
    apply List.ext_getElem <;> simp

/-- Exactness, if the modulus is large enough for all integers up to Hadamard's bound. -/
theorem solveWith_any_of {ck : Int → Outcome Int} {K α Bd : Int} (hck : Accepts ck K) (hn : 0 < n)
    (hK : ((p * p : Nat) : Int) ≤ K) (hKB : p * Bd ≤ K)
    (A : Matrix (Fin n) (Fin n) Int) (B : Matrix (Fin n) (Fin m) Int)
    (hA : ∀ i j, |A i j| ≤ α) (hB : ∀ i j, |B i j| ≤ Bd) (hαB : n * α ≤ Bd)
    (hneg : matrixInverse ck (toLists A) p ≠ .panic) (hdet : ¬ (p : Int) ∣ A.det) {steps : Nat}
    (hst : ∀ b : Int, 1 ≤ b → (b : ℝ) ≤ Real.exp (logDelta A B) → (Real.goldenRatio * b) ^ 2 ≤ (p : ℝ) ^ steps) :
    ∃ X : Matrix (Fin n) (Fin m) Rat, solveWith ck p steps (toLists A) (toLists B) = .ok (some (toLists X)) ∧
      A.map (fun x => (x : Rat)) * X = B.map (fun x => (x : Rat)) := by
  have hp1 : 1 < p := hpf.out.one_lt
  have hpp : (p : Int) + p ≤ (p * p : Nat) := by
    push_cast; nlinarith [show (2 : Int) ≤ p by exact_mod_cast hp1]
  have hdet0 : A.det ≠ 0 := by intro h; apply hdet; rw [h]; exact dvd_zero _
  have hdetP : (modP p A).det ≠ 0 := by
    have h1 : (modP p A).det = ((A.det : Int) : ZMod p) := by
      have := (Int.castRingHom (ZMod p)).map_det A
      simp only [RingHom.mapMatrix_apply] at this
      exact this.symm
    rw [h1]
    intro h
    exact hdet ((ZMod.intCast_zmod_eq_zero_iff_dvd _ p).1 h)
  rcases matrixInverse_any (p := p) hn A with h | ⟨-, C, h1, h2, h3, h4⟩ | ⟨h0, -⟩
  · exact absurd (h ck (hck.mono hK)) hneg
  swap
  · exact absurd h0 hdetP
  replace h1 := h1 ck (hck.mono hK)
  obtain ⟨S, B', h5, h6⟩ := liftLoop_ok hck hn A C h2 h3 hA hαB (by omega) hKB B steps 1 B 0 hB (by simp)
  rw [one_mul] at h5 h6
  obtain ⟨hb1, hb2⟩ := delta_bounds A B hdet0
  have hadj : ∀ i j, ((p : Int) ^ steps) ∣ A.det * S i j - (A.adjugate * B) i j := by
    intro i j
    have e1 : A.adjugate * B = A.det • S + ((p : Int) ^ steps) • (A.adjugate * B') := by
      conv_lhs => rw [h6]
      rw [Matrix.mul_add, ← Matrix.mul_assoc, Matrix.adjugate_mul, Matrix.smul_mul, Matrix.one_mul,
        Matrix.mul_smul]
    rw [e1]
    simp only [Matrix.add_apply, Matrix.smul_apply, smul_eq_mul]
    rw [sub_add_cancel_left, dvd_neg]
    exact dvd_mul_right _ _
  have hrec : ∀ i j, rationalReconstruction (S i j) ((p : Int) ^ steps) =
      .ok ((((A.adjugate * B) i j : Int) : Rat) / (A.det : Rat)) := by
    intro i j
    have hBm : 1 ≤ max |(A.adjugate * B) i j| |A.det| := by
      have : 1 ≤ |A.det| := Int.one_le_abs hdet0
      omega
    refine recon_ok hBm ?_ (le_max_left _ _) (le_max_right _ _) hdet0 (hadj i j)
    have h7 : ((max |(A.adjugate * B) i j| |A.det| : Int) : ℝ) ≤ Real.exp (logDelta A B) := by
      rw [Int.cast_max, Int.cast_abs, Int.cast_abs]
      exact max_le (hb2 i j) hb1
    rw [Int.cast_pow, Int.cast_natCast]
    exact hst _ hBm h7
  let X : Matrix (Fin n) (Fin m) Rat := fun i j => (((A.adjugate * B) i j : Int) : Rat) / (A.det : Rat)
  refine ⟨X, ?_, ?_⟩
  · unfold solveWith
    rw [h1]
    simp only [Outcome.ok_bind]
    rw [vecGet_toLists B ⟨0, hn⟩]
    simp only [Outcome.ok_bind, toLists_length, List.length_ofFn]
    rw [toLists_zero, h5]
    simp only [Outcome.ok_bind]
    have : omap (fun row => omap (fun x => rationalReconstruction x ((p : Int) ^ steps)) row) (toLists S) =
        .ok (toLists X) := omap_ofFn (fun i => omap_ofFn (fun j => hrec i j))
    rw [this]
    rfl
  · have hd : (A.det : Rat) ≠ 0 := by exact_mod_cast hdet0
    have e2 : A * (A.adjugate * B) = A.det • B := by
      rw [← Matrix.mul_assoc, Matrix.mul_adjugate, Matrix.smul_mul, Matrix.one_mul]
    ext i j
    have e3 := congrFun (congrFun e2 i) j
    rw [Matrix.mul_apply] at e3 ⊢
    simp only [Matrix.smul_apply, smul_eq_mul] at e3
    simp only [Matrix.map_apply, X]
    have e4 : ((∑ k, A i k * (A.adjugate * B) k j : Int) : Rat) = ((A.det * B i j : Int) : Rat) := by rw [e3]
    simp only [Int.cast_sum, Int.cast_mul] at e4
    simp only [← mul_div_assoc, ← Finset.sum_div]
    rw [e4]
    field_simp

theorem solveWith_any {ck : Int → Outcome Int} {K α Bd : Int} (hck : Accepts ck K) (hn : 0 < n)
    (hK : ((p * p : Nat) : Int) ≤ K) (hKB : p * Bd ≤ K)
    (A : Matrix (Fin n) (Fin n) Int) (B : Matrix (Fin n) (Fin m) Int)
    (hA : ∀ i j, |A i j| ≤ α) (hB : ∀ i j, |B i j| ≤ Bd) (hαB : n * α ≤ Bd)
    (hneg : matrixInverse ck (toLists A) p ≠ .panic) (hdet : ¬ (p : Int) ∣ A.det) {steps : Nat}
    (hs : stepsNeeded A B p ≤ steps) :
    ∃ X : Matrix (Fin n) (Fin m) Rat, solveWith ck p steps (toLists A) (toLists B) = .ok (some (toLists X)) ∧
      A.map (fun x => (x : Rat)) * X = B.map (fun x => (x : Rat)) := by
  refine solveWith_any_of hck hn hK hKB A B hA hB hαB hneg hdet ?_
  intro b hb hbD
  refine le_trans ?_ (steps_suffice A B hpf.out.two_le hs)
  have hφ := Real.goldenRatio_pos
  have hb0 : (0 : ℝ) ≤ b := by exact_mod_cast (by omega : 0 ≤ b)
  exact pow_le_pow_left₀ (by positivity) (mul_le_mul_of_nonneg_left hbD hφ.le) _

theorem solveWith_any_none {ck : Int → Outcome Int} (hck : Accepts ck (p * p : Nat)) (hn : 0 < n)
    (A : Matrix (Fin n) (Fin n) Int) (b : IMat) (hneg : matrixInverse ck (toLists A) p ≠ .panic)
    (hdet : (p : Int) ∣ A.det) (steps : Nat) :
    solveWith ck p steps (toLists A) b = .ok none := by
  have hdetP : (modP p A).det = 0 := by
    have h1 : (modP p A).det = ((A.det : Int) : ZMod p) := by
      have := (Int.castRingHom (ZMod p)).map_det A
      simp only [RingHom.mapMatrix_apply] at this
      exact this.symm
    rw [h1]
    exact (ZMod.intCast_zmod_eq_zero_iff_dvd _ p).2 hdet
  rcases matrixInverse_any (p := p) hn A with h | ⟨h0, -⟩ | ⟨-, h1⟩
  · exact absurd (h ck hck) hneg
  · exact absurd hdetP h0
  · unfold solveWith; rw [h1 ck hck]; rfl

theorem matrixInverse_noPanic {ck : Int → Outcome Int} (hck : Accepts ck (p * p : Nat)) (hn : 0 < n)
    (A : Matrix (Fin n) (Fin n) Int) (hneg : ∀ i j, ¬ (A i j < 0 ∧ (p : Int) ∣ A i j)) :
    matrixInverse ck (toLists A) p ≠ .panic := by
  rcases matrixInverse_ok hck hn A hneg with ⟨-, C, h1, -⟩ | ⟨-, h1⟩ <;> rw [h1] <;> simp

theorem solveWith_ok_of {ck : Int → Outcome Int} {K α Bd : Int} (hck : Accepts ck K) (hn : 0 < n)
    (hK : ((p * p : Nat) : Int) ≤ K) (hKB : p * Bd ≤ K)
    (A : Matrix (Fin n) (Fin n) Int) (B : Matrix (Fin n) (Fin m) Int)
    (hA : ∀ i j, |A i j| ≤ α) (hB : ∀ i j, |B i j| ≤ Bd) (hαB : n * α ≤ Bd)
    (hneg : ∀ i j, ¬ (A i j < 0 ∧ (p : Int) ∣ A i j)) (hdet : ¬ (p : Int) ∣ A.det) {steps : Nat}
    (hst : ∀ b : Int, 1 ≤ b → (b : ℝ) ≤ Real.exp (logDelta A B) → (Real.goldenRatio * b) ^ 2 ≤ (p : ℝ) ^ steps) :
    ∃ X : Matrix (Fin n) (Fin m) Rat, solveWith ck p steps (toLists A) (toLists B) = .ok (some (toLists X)) ∧
      A.map (fun x => (x : Rat)) * X = B.map (fun x => (x : Rat)) :=
  solveWith_any_of hck hn hK hKB A B hA hB hαB (matrixInverse_noPanic (hck.mono hK) hn A hneg) hdet hst

theorem solveWith_ok {ck : Int → Outcome Int} {K α Bd : Int} (hck : Accepts ck K) (hn : 0 < n)
    (hK : ((p * p : Nat) : Int) ≤ K) (hKB : p * Bd ≤ K)
    (A : Matrix (Fin n) (Fin n) Int) (B : Matrix (Fin n) (Fin m) Int)
    (hA : ∀ i j, |A i j| ≤ α) (hB : ∀ i j, |B i j| ≤ Bd) (hαB : n * α ≤ Bd)
    (hneg : ∀ i j, ¬ (A i j < 0 ∧ (p : Int) ∣ A i j)) (hdet : ¬ (p : Int) ∣ A.det) {steps : Nat}
    (hs : stepsNeeded A B p ≤ steps) :
    ∃ X : Matrix (Fin n) (Fin m) Rat, solveWith ck p steps (toLists A) (toLists B) = .ok (some (toLists X)) ∧
      A.map (fun x => (x : Rat)) * X = B.map (fun x => (x : Rat)) :=
  solveWith_any hck hn hK hKB A B hA hB hαB (matrixInverse_noPanic (hck.mono hK) hn A hneg) hdet hs

theorem solveWith_none {ck : Int → Outcome Int} (hck : Accepts ck (p * p : Nat)) (hn : 0 < n)
    (A : Matrix (Fin n) (Fin n) Int) (b : IMat) (hneg : ∀ i j, ¬ (A i j < 0 ∧ (p : Int) ∣ A i j))
    (hdet : (p : Int) ∣ A.det) (steps : Nat) :
    solveWith ck p steps (toLists A) b = .ok none :=
  solveWith_any_none hck hn A b (matrixInverse_noPanic hck hn A hneg) hdet steps

theorem matrixInverse_panic_iff {ck : Int → Outcome Int} (hck : Accepts ck (p * p : Nat)) (hn : 0 < n)
    (A : Matrix (Fin n) (Fin n) Int) :
    matrixInverse ck (toLists A) p = .panic ↔ matrixInverse ideal (toLists A) p = .panic := by
  rcases matrixInverse_any (p := p) hn A with h | ⟨-, C, h, -⟩ | ⟨-, h⟩ <;>
    rw [h ck hck, h ideal (accepts_ideal _)] <;> simp

/-- the bounds exclude overflow: the result is that of unbounded integers, also if it is a panic -/
theorem solveWith_eq {ck : Int → Outcome Int} {K α Bd : Int} (hck : Accepts ck K) (hn : 0 < n)
    (hK : ((p * p : Nat) : Int) ≤ K) (hKB : p * Bd ≤ K)
    (A : Matrix (Fin n) (Fin n) Int) (B : Matrix (Fin n) (Fin m) Int)
    (hA : ∀ i j, |A i j| ≤ α) (hB : ∀ i j, |B i j| ≤ Bd) (hαB : n * α ≤ Bd) {steps : Nat}
    (hs : stepsNeeded A B p ≤ steps) :
    solveWith ck p steps (toLists A) (toLists B) = solveWith ideal p steps (toLists A) (toLists B) := by
  by_cases hp1 : matrixInverse ck (toLists A) p = .panic
  · have hp2 := (matrixInverse_panic_iff (hck.mono hK) hn A).1 hp1
    unfold solveWith
    rw [hp1, hp2]
    rfl
  · have hp2 : matrixInverse ideal (toLists A) p ≠ .panic :=
      fun h => hp1 ((matrixInverse_panic_iff (hck.mono hK) hn A).2 h)
    by_cases hdet : (p : Int) ∣ A.det
    · rw [solveWith_any_none (hck.mono hK) hn A _ hp1 hdet, solveWith_any_none (accepts_ideal _) hn A _ hp2 hdet]
    · obtain ⟨X, h1, h2⟩ := solveWith_any hck hn hK hKB A B hA hB hαB hp1 hdet hs
      obtain ⟨Y, h3, h4⟩ := solveWith_any (accepts_ideal K) hn hK hKB A B hA hB hαB hp2 hdet hs
      have hdet0 : A.det ≠ 0 := by intro h; apply hdet; rw [h]; exact dvd_zero _
      have hu : IsUnit (A.map (fun x => (x : Rat))) := by
        rw [Matrix.isUnit_iff_isUnit_det, isUnit_iff_ne_zero]
        have := (Int.castRingHom ℚ).map_det A
        simp only [RingHom.mapMatrix_apply] at this
        have e : (A.map (fun x => (x : Rat))).det = ((A.det : Int) : ℚ) := this.symm
        rw [e]
        exact_mod_cast hdet0
      have : X = Y := by
        obtain ⟨u, hu⟩ := hu
        have e : ∀ Z : Matrix (Fin n) (Fin m) ℚ, Z = (u⁻¹).val * (A.map (fun x => (x : Rat)) * Z) := by
          intro Z
          rw [← Matrix.mul_assoc, ← hu, Units.inv_mul, Matrix.one_mul]
        rw [e X, e Y, h2, h4]
      rw [h1, h3, this]

end Systre.Modular
