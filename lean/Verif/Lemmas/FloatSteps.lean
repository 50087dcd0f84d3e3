import Verif.Spec.FloatSteps
import Verif.Lemmas.Hadamard
import Verif.Lemmas.Padic
import Mathlib.Analysis.SpecialFunctions.Log.Deriv
import Mathlib.Analysis.Complex.ExponentialBounds

namespace Systre.Modular
open Systre

/-- `x` is `y ≥ 0` up to `k` roundings -/
structure Near (u : ℝ) (k : Nat) (x y : ℝ) : Prop where
  lo : (1 - u) ^ k * y ≤ x
  hi : x ≤ (1 + u) ^ k * y

section near
variable {u : ℝ} (hu : 0 ≤ u) (hu1 : u ≤ 1 / 2)
include hu hu1

theorem Near.pos_of {k : Nat} {x y : ℝ} (h : Near u k x y) (hy : 0 < y) : 0 < x :=
  lt_of_lt_of_le (mul_pos (pow_pos (by linarith) _) hy) h.lo

theorem Near.nonneg_of {k : Nat} {x y : ℝ} (h : Near u k x y) (hy : 0 ≤ y) : 0 ≤ x :=
  le_trans (mul_nonneg (pow_nonneg (by linarith) _) hy) h.lo

omit hu hu1 in
theorem Near.zero {k : Nat} {x : ℝ} (h : Near u k x 0) : x = 0 := by
  have h1 := h.lo
  have h2 := h.hi
  simp only [mul_zero] at h1 h2
  linarith

theorem Near.mono {k l : Nat} (hkl : k ≤ l) {x y : ℝ} (hy : 0 ≤ y) (h : Near u k x y) : Near u l x y := by
  refine ⟨le_trans (mul_le_mul_of_nonneg_right ?_ hy) h.lo, h.hi.trans (mul_le_mul_of_nonneg_right ?_ hy)⟩
  · exact pow_le_pow_of_le_one (by linarith) (by linarith) hkl
  · exact pow_le_pow_right₀ (by linarith) hkl

theorem Near.step {k : Nat} {x y z : ℝ} (hy : 0 ≤ y) (h : Near u k x y) (hz : |z - x| ≤ u * |x|) :
    Near u (k + 1) z y := by
  have hx := h.nonneg_of hu hu1 hy
  rw [abs_of_nonneg hx, abs_le] at hz
  constructor
  · rw [pow_succ']
    have := mul_le_mul_of_nonneg_left h.lo (show (0 : ℝ) ≤ 1 - u by linarith)
    linarith [hz.1]
  · rw [pow_succ']
    have := mul_le_mul_of_nonneg_left h.hi (show (0 : ℝ) ≤ 1 + u by linarith)
    linarith [hz.2]

omit hu hu1 in
theorem Near.refl {x : ℝ} : Near u 0 x x := ⟨by simp, by simp⟩

theorem Near.sqrt {k : Nat} {x y : ℝ} (hy : 0 ≤ y) (h : Near u k x y) : Near u k (Real.sqrt x) (Real.sqrt y) := by
  have hl : (0 : ℝ) ≤ (1 - u) ^ k := pow_nonneg (by linarith) _
  have hl1 : (1 - u) ^ k ≤ 1 := pow_le_one₀ (by linarith) (by linarith)
  have hh : (1 : ℝ) ≤ (1 + u) ^ k := one_le_pow₀ (by linarith)
  have hs := Real.sqrt_nonneg y
  have hss := Real.sq_sqrt hy
  constructor
  · apply Real.le_sqrt_of_sq_le
    refine le_trans ?_ h.lo
    rw [mul_pow, hss]
    apply mul_le_mul_of_nonneg_right _ hy
    nlinarith
  · apply Real.sqrt_le_iff.2
    refine ⟨by positivity, h.hi.trans ?_⟩
    rw [mul_pow, hss]
    apply mul_le_mul_of_nonneg_right _ hy
    nlinarith

theorem Near.sq {k : Nat} {x y : ℝ} (hy : 0 ≤ y) (h : Near u k x y) : Near u (2 * k) (x ^ 2) (y ^ 2) := by
  have hl : (0 : ℝ) ≤ (1 - u) ^ k := pow_nonneg (by linarith) _
  have hx := h.nonneg_of hu hu1 hy
  constructor
  · rw [mul_comm 2 k, pow_mul, ← mul_pow]
    exact pow_le_pow_left₀ (mul_nonneg hl hy) h.lo 2
  · rw [mul_comm 2 k, pow_mul, ← mul_pow]
    exact pow_le_pow_left₀ hx h.hi 2

theorem Near.addRight {k : Nat} {x y x' y' : ℝ} (h : Near u k x y) (h' : Near u k x' y') :
    Near u k (x + x') (y + y') := by
  have := h.lo; have := h.hi; have := h'.lo; have := h'.hi
  constructor <;> rw [mul_add] <;> linarith

/-- the logarithm of an approximation -/
theorem Near.log {k : Nat} {x y : ℝ} (hy : 0 < y) (h : Near u k x y) :
    |Real.log x - Real.log y| ≤ 2 * u * k := by
  have hx := h.pos_of hu hu1 hy
  have h1 : 0 < 1 - u := by linarith
  rw [abs_le]
  constructor
  · have := Real.log_le_log (by positivity) h.lo
    rw [Real.log_mul (by positivity) hy.ne', Real.log_pow] at this
    have h2 : -(2 * u) ≤ Real.log (1 - u) := by
      have h3 := Real.one_sub_inv_le_log_of_pos h1
      have h4 : (1 - u)⁻¹ ≤ 1 + 2 * u := by
        rw [inv_le_iff_one_le_mul₀ h1]; nlinarith
      linarith
    have hk : (0 : ℝ) ≤ k := Nat.cast_nonneg k
    nlinarith
  · have := Real.log_le_log hx h.hi
    rw [Real.log_mul (by positivity) hy.ne', Real.log_pow] at this
    have h2 : Real.log (1 + u) ≤ u := by
      have h3 := Real.log_le_sub_one_of_pos (show 0 < 1 + u by linarith)
      linarith
    have hk : (0 : ℝ) ≤ k := Nat.cast_nonneg k
    nlinarith

end near

variable {F : FloatOps} {u : ℝ}

/-- a rounded logarithm of an approximation of a number `≥ 1` -/
theorem ln_near (hF : F.Accurate u) (hu : 0 ≤ u) (hu1 : u ≤ 1 / 2) {k : Nat} {x y : ℝ} (hy : 1 ≤ y)
    (h : Near u k x y) : |F.ln x - Real.log y| ≤ u * Real.log y + 3 * u * k := by
  have hx := h.pos_of hu hu1 (by linarith)
  have h1 := h.log hu hu1 (by linarith)
  have h2 := hF.ln x hx
  have h3 := Real.log_nonneg hy
  have h4 : |Real.log x| ≤ Real.log y + 2 * u * k := by
    have := abs_sub_abs_le_abs_sub (Real.log x) (Real.log y)
    rw [abs_of_nonneg h3] at this
    linarith
  have h5 : |F.ln x - Real.log y| ≤ |F.ln x - Real.log x| + |Real.log x - Real.log y| := abs_sub_le _ _ _
  have hk : (0 : ℝ) ≤ k := Nat.cast_nonneg k
  have h6 := mul_le_mul_of_nonneg_left h4 hu
  have h7 : u * (2 * u * k) ≤ u * k := by
    have : 2 * u * k ≤ 1 * k := mul_le_mul_of_nonneg_right (by linarith) hk
    have := mul_le_mul_of_nonneg_left this hu
    linarith
  nlinarith

/-- a sum of nonnegative approximations, computed left to right -/
theorem sum_near (hF : F.Accurate u) (hu : 0 ≤ u) (hu1 : u ≤ 1 / 2) (k : Nat) {α : Type} (f g : α → ℝ) :
    ∀ (l : List α) (a b : ℝ) (j : Nat), 0 ≤ b → k ≤ j → Near u j a b → (∀ x ∈ l, 0 ≤ g x ∧ Near u k (f x) (g x)) →
      Near u (j + l.length) ((l.map f).foldl F.add a) (b + (l.map g).sum)
  | [], a, b, j, _, _, h, _ => by simpa using h
  | x :: l, a, b, j, hb, hj, h, hl => by
    obtain ⟨hx0, hx⟩ := hl x (by simp)
    have h1 := h.addRight hu hu1 (hx.mono hu hu1 hj hx0)
    have h2 := h1.step hu hu1 (by linarith) (hF.add a (f x))
    have := sum_near hF hu hu1 k f g l _ _ (j + 1) (by linarith) (by omega) h2
      (fun y hy => hl y (List.mem_cons_of_mem _ hy))
    simpa [add_assoc, add_comm, add_left_comm] using this

/-- `x as f64` for any integer, squared -/
theorem sq_near (hF : F.Accurate u) (hu : 0 ≤ u) (hu1 : u ≤ 1 / 2) (k : Int) :
    Near u 3 (F.sq (F.ofInt k)) ((k : ℝ) ^ 2) := by
  have h0 : Near u 1 |F.ofInt k| |(k : ℝ)| := by
    have h := hF.ofInt k
    have h1 := abs_sub_abs_le_abs_sub (F.ofInt k) k
    have h2 := abs_sub_abs_le_abs_sub (k : ℝ) (F.ofInt k)
    rw [abs_sub_comm] at h2
    constructor <;> rw [pow_one] <;> nlinarith
  have h1 := h0.sq hu hu1 (abs_nonneg _)
  rw [sq_abs, sq_abs] at h1
  have := h1.step hu hu1 (sq_nonneg _) (z := F.sq (F.ofInt k))
    (by rw [abs_of_nonneg (sq_nonneg (F.ofInt k))]; exact hF.sq _)
  simpa using this

theorem colNorm_near (hF : F.Accurate u) (hu : 0 ≤ u) (hu1 : u ≤ 1 / 2) {r c : Nat}
    (A : Matrix (Fin r) (Fin c) Int) (j : Fin c) :
    ∃ x, F.colNorm (toLists A) j = .ok x ∧ Near u (r + 4) x (columnNorm A j) := by
  have h1 : omap (fun i => mget (toLists A) i j) (List.range (toLists A).length) =
      .ok (List.ofFn (fun i => A i j)) := by
    rw [toLists_length]
    exact omap_range (fun i => mget_toLists A i j)
  refine ⟨_, by unfold FloatOps.colNorm; rw [h1]; rfl, ?_⟩
  have h2 := sum_near hF hu hu1 3 (fun x : Int => F.sq (F.ofInt x)) (fun x : Int => (x : ℝ) ^ 2)
    (List.ofFn (fun i => A i j)) 0 0 3 le_rfl le_rfl ⟨by simp, by simp⟩
    (fun x _ => ⟨sq_nonneg _, sq_near hF hu hu1 x⟩)
  have h3 : (0 : ℝ) + ((List.ofFn (fun i => A i j)).map (fun x : Int => (x : ℝ) ^ 2)).sum =
      ∑ i, (A i j : ℝ) ^ 2 := by
    rw [zero_add, List.map_ofFn, List.sum_ofFn]; rfl
  rw [h3, List.length_ofFn] at h2
  have hs : 0 ≤ ∑ i, (A i j : ℝ) ^ 2 := Finset.sum_nonneg (fun _ _ => sq_nonneg _)
  have h4 := h2.sqrt hu hu1 hs
  have h5 := h4.step hu hu1 (Real.sqrt_nonneg _) (z := F.sqrt (F.sum ((List.ofFn (fun i => A i j)).map
    (fun x => F.sq (F.ofInt x))))) (by
      rw [abs_of_nonneg (Real.sqrt_nonneg (List.foldl F.add 0 _))]
      exact hF.sqrt _ (h2.nonneg_of hu hu1 hs))
  rw [show 3 + r + 1 = r + 4 by omega] at h5
  exact h5

/-- what the code gets for the logarithm of a norm -/
def LnNear (u : ℝ) (k : Nat) (v : WithBot ℝ) (y : ℝ) : Prop :=
  (y = 0 ∧ v = ⊥) ∨ (1 ≤ y ∧ ∃ w : ℝ, v = (w : WithBot ℝ) ∧ |w - Real.log y| ≤ u * Real.log y + 3 * u * k)

theorem lnNorms_near (hF : F.Accurate u) (hu : 0 ≤ u) (hu1 : u ≤ 1 / 2) {r c : Nat} (hr : 0 < r)
    (A : Matrix (Fin r) (Fin c) Int) :
    ∃ f : Fin c → WithBot ℝ, F.lnNorms (toLists A) = .ok (List.ofFn f) ∧
      ∀ j, LnNear u (r + 4) (f j) (columnNorm A j) := by
  choose x hx hn using fun j => colNorm_near hF hu hu1 A j
  refine ⟨fun j => F.lnB (x j), ?_, ?_⟩
  · unfold FloatOps.lnNorms
    rw [vecGet_toLists A ⟨0, hr⟩]
    simp only [Outcome.ok_bind, List.length_ofFn]
    exact omap_range (fun j => by rw [hx j]; rfl)
  · intro j
    rcases columnNorm_zero_or A j with h0 | h0
    · left
      have h1 : columnNorm A j = 0 := by unfold columnNorm; simp [h0]
      refine ⟨h1, ?_⟩
      have h2 := hn j
      rw [h1] at h2
      simp [FloatOps.lnB, h2.zero]
    · right
      refine ⟨h0, F.ln (x j), ?_, ?_⟩
      · have := (hn j).pos_of hu hu1 (by linarith)
        simp [FloatOps.lnB, this.ne']
      · exact_mod_cast ln_near hF hu hu1 h0 (hn j)

theorem foldl_max_spec : ∀ (l : List (WithBot ℝ)) (x : WithBot ℝ),
    l.foldl max x ∈ x :: l ∧ ∀ y ∈ x :: l, y ≤ l.foldl max x
  | [], x => by simp
  | z :: l, x => by
    obtain ⟨h1, h2⟩ := foldl_max_spec l (max x z)
    simp only [List.foldl_cons]
    constructor
    · rcases List.mem_cons.1 h1 with h | h
      · rcases max_choice x z with e | e
        · rw [h, e]; simp
        · rw [h, e]; simp
      · exact List.mem_cons_of_mem _ (List.mem_cons_of_mem _ h)
    · intro y hy
      have h3 := h2 (max x z) (by simp)
      rcases List.mem_cons.1 hy with h | h
      · rw [h]; exact (le_max_left _ _).trans h3
      · rcases List.mem_cons.1 h with h | h
        · rw [h]; exact (le_max_right _ _).trans h3
        · exact h2 y (List.mem_cons_of_mem _ h)

theorem maxUnwrap_spec {l : List (WithBot ℝ)} (h : l ≠ []) :
    ∃ v, FloatOps.maxUnwrap l = .ok v ∧ v ∈ l ∧ ∀ y ∈ l, y ≤ v := by
  cases l with
  | nil => exact absurd rfl h
  | cons x l => exact ⟨_, rfl, (foldl_max_spec l x).1, (foldl_max_spec l x).2⟩

/-- the largest logarithm of a norm of a right-hand side -/
theorem maxB_near (hu : 0 ≤ u) {r c k : Nat} (hc : 0 < c) (B : Matrix (Fin r) (Fin c) Int) (g : Fin c → WithBot ℝ)
    (hg : ∀ j, LnNear u k (g j) (columnNorm B j)) :
    ∃ v, FloatOps.maxUnwrap (List.ofFn g) = .ok v ∧
      ((v = ⊥ ∧ (⨆ j, Real.log (columnNorm B j)) = 0) ∨
       (0 ≤ (⨆ j, Real.log (columnNorm B j)) ∧ ∃ w : ℝ, v = (w : WithBot ℝ) ∧
        |w - ⨆ j, Real.log (columnNorm B j)| ≤ u * (⨆ j, Real.log (columnNorm B j)) + 3 * u * k)) := by
  haveI : Nonempty (Fin c) := ⟨⟨0, hc⟩⟩
  obtain ⟨v, hv, hm, hle⟩ := maxUnwrap_spec (l := List.ofFn g) (by
    intro h; have := congrArg List.length h; simp at this; omega)
  refine ⟨v, hv, ?_⟩
  obtain ⟨j0, hj0⟩ := List.mem_ofFn.1 hm
  have hle' : ∀ j, g j ≤ v := fun j => hle _ (List.mem_ofFn.2 ⟨j, rfl⟩)
  have hsup : ∀ j, Real.log (columnNorm B j) ≤ ⨆ j, Real.log (columnNorm B j) :=
    fun j => le_ciSup (f := fun j => Real.log (columnNorm B j)) (Set.finite_range _).bddAbove j
  obtain ⟨j1, hj1⟩ := exists_eq_ciSup_of_finite (f := fun j => Real.log (columnNorm B j))
  have hk : (0 : ℝ) ≤ k := Nat.cast_nonneg k
  rcases hg j0 with ⟨-, h0⟩ | ⟨h1, w, hw, he⟩
  · left
    rw [hj0] at h0
    refine ⟨h0, ?_⟩
    have : ∀ j, Real.log (columnNorm B j) = 0 := by
      intro j
      rcases hg j with ⟨h, -⟩ | ⟨-, w, hw, -⟩
      · rw [h, Real.log_zero]
      · have := hle' j; rw [h0, hw] at this; simp at this
    simp [this]
  · right
    have hl0 := Real.log_nonneg h1
    have hM0 := hl0.trans (hsup j0)
    refine ⟨hM0, w, by rw [← hj0, hw], ?_⟩
    generalize (⨆ j, Real.log (columnNorm B j)) = M at *
    have hs0 := hsup j0
    have hmono := mul_le_mul_of_nonneg_left hs0 hu
    have huk : 0 ≤ u * k := mul_nonneg hu hk
    rw [abs_le] at he ⊢
    constructor
    · rcases hg j1 with ⟨h, -⟩ | ⟨-, w1, hw1, he1⟩
      · simp only [h, Real.log_zero] at hj1
        have : Real.log (columnNorm B j0) = M := by linarith
        rw [this] at he
        linarith
      · have h5 := hle' j1
        rw [← hj0, hw, hw1, WithBot.coe_le_coe] at h5
        rw [hj1, abs_le] at he1
        linarith
    · linarith

/-- rounding error of a sum -/
theorem sum_error (hF : F.Accurate u) (hu : 0 ≤ u) : ∀ (l : List ℝ) (a : ℝ),
    |l.foldl F.add a - (a + l.sum)| ≤ ((1 + u) ^ l.length - 1) * (|a| + (l.map abs).sum)
  | [], a => by simp
  | x :: l, a => by
    simp only [List.foldl_cons, List.sum_cons, List.map_cons, List.length_cons]
    have h1 := hF.add a x
    have h2 := sum_error hF hu l (F.add a x)
    have hs : |a + x| ≤ |a| + |x| := abs_add_le _ _
    have hS : 0 ≤ (l.map abs).sum := List.sum_nonneg (by simp)
    have hp : 1 ≤ (1 + u) ^ l.length := one_le_pow₀ (by linarith)
    have h3 : |F.add a x| ≤ (1 + u) * (|a| + |x|) := by
      have := abs_sub_abs_le_abs_sub (F.add a x) (a + x)
      nlinarith
    have h4 : |l.foldl F.add (F.add a x) - (a + (x + l.sum))| ≤
        |l.foldl F.add (F.add a x) - (F.add a x + l.sum)| + |F.add a x - (a + x)| := by
      have := abs_add_le (l.foldl F.add (F.add a x) - (F.add a x + l.sum)) (F.add a x - (a + x))
      have e : l.foldl F.add (F.add a x) - (F.add a x + l.sum) + (F.add a x - (a + x)) =
          l.foldl F.add (F.add a x) - (a + (x + l.sum)) := by ring
      rwa [e] at this
    rw [pow_succ]
    generalize (1 + u) ^ l.length = q at *
    generalize (l.map abs).sum = S at *
    have hax : 0 ≤ |a| + |x| := by positivity
    have hq : 0 ≤ q - 1 := by linarith
    have h5 : (q - 1) * (|F.add a x| + S) ≤ (q - 1) * ((1 + u) * (|a| + |x|) + S) :=
      mul_le_mul_of_nonneg_left (by linarith) hq
    have h6 : u * |a + x| ≤ u * (|a| + |x|) := mul_le_mul_of_nonneg_left hs hu
    have h7 : 0 ≤ q * u * S := by positivity
    have e : (q * (1 + u) - 1) * (|a| + (|x| + S)) = (q - 1) * ((1 + u) * (|a| + |x|) + S) + u * (|a| + |x|) + q * u * S := by
      ring
    rw [e]
    linarith

theorem sorted_tail_eq (l : List ℝ) (h : l ≠ []) :
    ∃ x ∈ l, (l.insertionSort (· ≤ ·)).tail.sum = l.sum - x := by
  have hp := List.perm_insertionSort (· ≤ ·) l
  have hsum := hp.sum_eq
  generalize l.insertionSort (· ≤ ·) = s at *
  cases s with
  | nil => exact absurd (List.nil_perm.1 hp) h
  | cons a s =>
    refine ⟨a, hp.mem_iff.1 (by simp), ?_⟩
    simp only [List.sum_cons, List.tail_cons] at *
    linarith

/-- a list of numbers that are not `-∞` -/
theorem unbot_list {t : List (WithBot ℝ)} (h : ∀ x ∈ t, x ≠ ⊥) :
    t = (t.map (WithBot.unbotD 0)).map (fun x : ℝ => (x : WithBot ℝ)) := by
  induction t with
  | nil => rfl
  | cons a t ih =>
    simp only [List.map_cons]
    rw [← ih (fun x hx => h x (List.mem_cons_of_mem _ hx))]
    have := h a (by simp)
    cases a with
    | bot => exact absurd rfl this
    | coe a => rfl

theorem sumB_coe (l : List ℝ) : F.sumB (l.map (fun x : ℝ => (x : WithBot ℝ))) = ((F.sum l : ℝ) : WithBot ℝ) := by
  unfold FloatOps.sumB FloatOps.sum
  generalize (0 : ℝ) = a
  induction l generalizing a with
  | nil => rfl
  | cons x l ih => exact ih (F.add a x)

/-- the pairs (computed, exact) with their errors -/
def PairsOk (u e : ℝ) (P : List (ℝ × ℝ)) : Prop :=
  ∀ q ∈ P, 0 ≤ q.2 ∧ |q.1 - q.2| ≤ u * q.2 + e

theorem pairs_sums {e : ℝ} (hu : 0 ≤ u) : ∀ (P : List (ℝ × ℝ)), PairsOk u e P →
    |(P.map Prod.fst).sum - (P.map Prod.snd).sum| ≤ u * (P.map Prod.snd).sum + P.length * e ∧
    (P.map (fun q => |q.1|)).sum ≤ (1 + u) * (P.map Prod.snd).sum + P.length * e
  | [], _ => by simp
  | q :: P, h => by
    obtain ⟨h0, h1⟩ := h q (by simp)
    obtain ⟨h2, h3⟩ := pairs_sums hu P (fun x hx => h x (List.mem_cons_of_mem _ hx))
    simp only [List.map_cons, List.sum_cons, List.length_cons]
    push_cast
    constructor
    · have : |q.1 + (P.map Prod.fst).sum - (q.2 + (P.map Prod.snd).sum)| ≤
          |q.1 - q.2| + |(P.map Prod.fst).sum - (P.map Prod.snd).sum| := by
        rw [show q.1 + (P.map Prod.fst).sum - (q.2 + (P.map Prod.snd).sum) =
          (q.1 - q.2) + ((P.map Prod.fst).sum - (P.map Prod.snd).sum) by ring]
        exact abs_add_le _ _
      linarith
    · have := abs_sub_abs_le_abs_sub q.1 q.2
      rw [abs_of_nonneg h0] at this
      linarith

/-- dropping the smallest of computed numbers is almost as good as dropping the smallest exact one -/
theorem drop_min {e : ℝ} (hu : 0 ≤ u) {P : List (ℝ × ℝ)} (hP : PairsOk u e P) {n : Nat} (hn : P.length = n + 1)
    {a : ℝ} {t : List ℝ} (hperm : (a :: t).Perm (P.map Prod.fst)) (hmin : ∀ x ∈ t, a ≤ x) {D : ℝ}
    (hD : D = ((P.map Prod.snd).insertionSort (· ≤ ·)).tail.sum) :
    t.length = n ∧ |t.sum - D| ≤ u * D + n * e ∧ (t.map abs).sum ≤ (1 + u) * D + n * e := by
  classical
  have hlen : t.length = n := by
    have := hperm.length_eq
    simp only [List.length_cons, List.length_map] at this
    omega
  obtain ⟨q, hq, hqa⟩ := List.mem_map.1 (hperm.mem_iff.1 (List.mem_cons_self (a := a) (l := t)))
  have hPe := List.perm_cons_erase hq
  have hsub : ∀ x, PairsOk u e (P.erase x) := fun x y hy => hP y (List.mem_of_mem_erase hy)
  have hel : ∀ x ∈ P, (P.erase x).length = n := fun x hx => by
    rw [List.length_erase_of_mem hx]; omega
  have hT : t.Perm ((P.erase q).map Prod.fst) := by
    have h1 := hperm.trans (hPe.map Prod.fst)
    rw [List.map_cons, hqa] at h1
    exact (List.perm_cons a).1 h1
  have hle : ∀ x ∈ P, ((P.erase x).map Prod.snd).sum ≤ D := by
    intro x hx
    have h1 := ((List.perm_cons_erase hx).map Prod.snd).sum_eq
    have h2 := sorted_tail_sum (P.map Prod.snd) x.2 (List.mem_map.2 ⟨x, hx, rfl⟩)
    rw [List.map_cons, List.sum_cons] at h1
    rw [hD]
    linarith
  obtain ⟨s1, s2⟩ := pairs_sums hu _ (hsub q)
  rw [hel q hq] at s1 s2
  have hsum := hT.sum_eq
  have habs : (t.map abs).sum = ((P.erase q).map (fun q => |q.1|)).sum := by
    have := (hT.map abs).sum_eq
    rw [this, List.map_map]; rfl
  have hDq := hle q hq
  have hm := mul_le_mul_of_nonneg_left hDq hu
  refine ⟨hlen, ?_, ?_⟩
  · rw [abs_le] at s1 ⊢
    constructor
    · obtain ⟨y, hy, hyD⟩ := sorted_tail_eq (P.map Prod.snd) (by
        intro h; have := congrArg List.length h; simp at this; rw [this] at hn; simp at hn)
      obtain ⟨q', hq', hqy⟩ := List.mem_map.1 hy
      obtain ⟨r1, -⟩ := pairs_sums hu _ (hsub q')
      rw [hel q' hq', abs_le] at r1
      have h1 := ((List.perm_cons_erase hq').map Prod.snd).sum_eq
      have h2 := ((List.perm_cons_erase hq').map Prod.fst).sum_eq
      have h3 := hperm.sum_eq
      rw [List.map_cons, List.sum_cons] at h1 h2
      rw [List.sum_cons] at h3
      have h4 : a ≤ q'.1 := by
        have : q'.1 ∈ a :: t := hperm.mem_iff.2 (List.mem_map.2 ⟨q', hq', rfl⟩)
        rcases List.mem_cons.1 this with h | h
        · exact h.ge
        · exact hmin _ h
      have h5 : ((P.erase q').map Prod.snd).sum = D := by rw [hD, hyD]; linarith
      rw [h5] at r1
      linarith [r1.1]
    · linarith [s1.2]
  · rw [habs]
    have : (1 + u) * ((P.erase q).map Prod.snd).sum ≤ (1 + u) * D := mul_le_mul_of_nonneg_left hDq (by linarith)
    linarith

/-- `log_delta` is a sum of numbers whose exact sum is close to the exact value -/
theorem logDelta_near (hF : F.Accurate u) (hu : 0 ≤ u) (hu1 : u ≤ 1 / 2) {n m : Nat} (hn : 0 < n) (hm : 0 < m)
    (A : Matrix (Fin n) (Fin n) Int) (B : Matrix (Fin n) (Fin m) Int) (hdet : A.det ≠ 0) :
    ∃ ts : List ℝ, F.logDelta (toLists A) (toLists B) = .ok ((F.sum ts : ℝ) : WithBot ℝ) ∧ ts.length = n ∧
      |ts.sum - logDelta A B| ≤ u * logDelta A B + n * (3 * u * (n + 4)) ∧
      (ts.map abs).sum ≤ (1 + u) * logDelta A B + n * (3 * u * (n + 4)) := by
  classical
  obtain ⟨f, hf, hfn⟩ := lnNorms_near hF hu hu1 hn A
  obtain ⟨g, hg, hgn⟩ := lnNorms_near hF hu hu1 hn B
  obtain ⟨v, hv, hvn⟩ := maxB_near hu hm B g hgn
  have hA1 := (log_prod_eq A hdet).2
  have hfin : ∀ j, ∃ w : ℝ, f j = (w : WithBot ℝ) ∧
      |w - Real.log (columnNorm A j)| ≤ u * Real.log (columnNorm A j) + 3 * u * (n + 4) := by
    intro j
    rcases hfn j with ⟨h, -⟩ | ⟨-, w, h1, h2⟩
    · have := hA1 j; rw [h] at this; norm_num at this
    · exact ⟨w, h1, by exact_mod_cast h2⟩
  choose w hw hwe using hfin
  have hfw : List.ofFn f = (List.ofFn w).map (fun x : ℝ => (x : WithBot ℝ)) := by
    rw [List.map_ofFn]; congr 1; funext j; exact hw j
  let PA : List (ℝ × ℝ) := List.ofFn (fun j => (w j, Real.log (columnNorm A j)))
  have hPA : PairsOk u (3 * u * (n + 4)) PA := by
    intro q hq
    obtain ⟨j, hj⟩ := List.mem_ofFn.1 hq
    rw [← hj]
    exact ⟨Real.log_nonneg (hA1 j), hwe j⟩
  have hPA1 : PA.map Prod.fst = List.ofFn w := by simp only [PA, List.map_ofFn]; rfl
  have hPA2 : PA.map Prod.snd = List.ofFn (fun j => Real.log (columnNorm A j)) := by
    simp only [PA, List.map_ofFn]; rfl
  have hPAl : PA.length = n := by simp [PA]
  have hsp := List.perm_insertionSort (· ≤ ·) (List.ofFn f ++ [v])
  have hss := List.pairwise_insertionSort (· ≤ ·) (List.ofFn f ++ [v])
  have hcode : F.logDelta (toLists A) (toLists B) =
      .ok (F.sumB (((List.ofFn f ++ [v]).insertionSort (· ≤ ·)).drop 1)) := by
    unfold FloatOps.logDelta
    rw [hf, hg]
    simp only [Outcome.ok_bind]
    rw [hv]
    rfl
  rw [hcode]
  generalize (List.ofFn f ++ [v]).insertionSort (· ≤ ·) = s at hsp hss ⊢
  cases s with
  | nil => have := hsp.length_eq; simp at this
  | cons a t =>
    simp only [List.drop_succ_cons, List.drop_zero]
    have hmin := (List.pairwise_cons.1 hss).1
    rcases hvn with ⟨hbot, hM⟩ | ⟨hM0, x, hx, hxe⟩
    · -- the right-hand side is zero
      have ha : a = ⊥ := by
        have : v ∈ a :: t := hsp.mem_iff.2 (by simp)
        rw [hbot] at this
        rcases List.mem_cons.1 this with h | h
        · exact h.symm
        · exact le_bot_iff.1 (hmin _ h)
      have ht : t.Perm (List.ofFn f) := by
        have h1 := hsp.trans List.perm_append_comm
        rw [hbot, ha] at h1
        exact (List.perm_cons ⊥).1 h1
      have hnb : ∀ y ∈ t, y ≠ ⊥ := by
        intro y hy
        obtain ⟨j, hj⟩ := List.mem_ofFn.1 (ht.mem_iff.1 hy)
        rw [← hj, hw]; simp
      have hts : (t.map (WithBot.unbotD 0)).Perm (List.ofFn w) := by
        have := ht.map (WithBot.unbotD 0)
        rw [hfw, List.map_map] at this
        simpa [Function.comp_def] using this
      refine ⟨t.map (WithBot.unbotD 0), ?_, ?_, ?_⟩
      · conv_lhs => rw [unbot_list hnb]
        rw [sumB_coe]
      · rw [hts.length_eq]; simp
      · have hD : logDelta A B = (PA.map Prod.snd).sum := by
          unfold logDelta
          rw [hPA2]
          apply le_antisymm
          · obtain ⟨y, hy, hyD⟩ := sorted_tail_eq (logNorms A B) (by simp [logNorms])
            rw [hyD, logNorms_sum, hM, List.sum_ofFn]
            have : 0 ≤ y := by
              unfold logNorms at hy
              rcases List.mem_append.1 hy with h | h
              · obtain ⟨j, hj⟩ := List.mem_ofFn.1 h
                rw [← hj]; exact Real.log_nonneg (hA1 j)
              · rw [List.mem_singleton.1 h, hM]
            linarith
          · have := sorted_tail_sum (logNorms A B) (⨆ j, Real.log (columnNorm B j)) (by simp [logNorms])
            rw [logNorms_sum] at this
            rw [List.sum_ofFn]
            linarith
        obtain ⟨h1, h2⟩ := pairs_sums hu PA hPA
        rw [← hD, hPAl] at h1 h2
        rw [hPA1] at h1
        have h3 : ((t.map (WithBot.unbotD 0)).map abs).sum = (PA.map (fun q => |q.1|)).sum := by
          rw [(hts.map abs).sum_eq, ← hPA1, List.map_map]; rfl
        rw [hts.sum_eq, h3]
        exact ⟨h1, h2⟩
    · have hall : ∀ y ∈ a :: t, y ≠ ⊥ := by
        intro y hy
        rcases List.mem_append.1 (hsp.mem_iff.1 hy) with h | h
        · obtain ⟨j, hj⟩ := List.mem_ofFn.1 h
          rw [← hj, hw]; simp
        · rw [List.mem_singleton.1 h, hx]; simp
      let P := PA ++ [(x, ⨆ j, Real.log (columnNorm B j))]
      have hP : PairsOk u (3 * u * (n + 4)) P := by
        intro q hq
        rcases List.mem_append.1 hq with h | h
        · exact hPA q h
        · rw [List.mem_singleton.1 h]; exact ⟨hM0, by exact_mod_cast hxe⟩
      have hperm : (a.unbotD 0 :: t.map (WithBot.unbotD 0)).Perm (P.map Prod.fst) := by
        have := hsp.map (WithBot.unbotD 0)
        rw [hfw, hx, List.map_append, List.map_map] at this
        simpa [Function.comp_def, P, hPA1] using this
      have hmin' : ∀ y ∈ t.map (WithBot.unbotD 0), a.unbotD 0 ≤ y := by
        intro y hy
        obtain ⟨z, hz, rfl⟩ := List.mem_map.1 hy
        have h1 := hmin z hz
        have h2 := hall a (by simp)
        have h3 := hall z (List.mem_cons_of_mem _ hz)
        cases a with
        | bot => exact absurd rfl h2
        | coe a =>
          cases z with
          | bot => exact absurd rfl h3
          | coe z => simpa using h1
      have hD : logDelta A B = ((P.map Prod.snd).insertionSort (· ≤ ·)).tail.sum := by
        simp only [P, List.map_append, hPA2]; rfl
      obtain ⟨h1, h2, h3⟩ := drop_min hu hP (n := n) (by simp [P, hPAl]) hperm hmin' hD
      refine ⟨t.map (WithBot.unbotD 0), ?_, h1, h2, h3⟩
      conv_lhs => rw [unbot_list (fun y hy => hall y (List.mem_cons_of_mem _ hy))]
      rw [sumB_coe]

theorem pow_le_linear (hu : 0 ≤ u) (n : Nat) (h : n * u ≤ 1) : (1 + u) ^ n - 1 ≤ 2 * (n * u) := by
  have h1 : (1 + u) ^ n ≤ Real.exp (n * u) := by
    rw [mul_comm, Real.exp_mul, Real.rpow_natCast]
    apply pow_le_pow_left₀ (by linarith)
    have := Real.add_one_le_exp u
    linarith
  have h0 : (0 : ℝ) ≤ n * u := by positivity
  have h2 := Real.abs_exp_sub_one_sub_id_le (x := n * u) (by rw [abs_of_nonneg h0]; exact h)
  have h3 := (abs_le.1 h2).2
  nlinarith

theorem golden_log_bounds : (0.38 : ℝ) ≤ Real.log Real.goldenRatio ∧ Real.log Real.goldenRatio ≤ 0.62 ∧
    1 < Real.goldenRatio := by
  have h1 := Real.one_lt_goldenRatio
  have h5 : (2.236 : ℝ) ≤ Real.sqrt 5 := Real.le_sqrt_of_sq_le (by norm_num)
  have h6 : Real.sqrt 5 ≤ 2.2361 := Real.sqrt_le_iff.2 ⟨by norm_num, by norm_num⟩
  have hlo : (1.618 : ℝ) ≤ Real.goldenRatio := by unfold Real.goldenRatio; linarith
  have hhi : Real.goldenRatio ≤ 1.6181 := by unfold Real.goldenRatio; linarith
  refine ⟨?_, ?_, h1⟩
  · have h2 := Real.one_sub_inv_le_log_of_pos (show 0 < Real.goldenRatio by linarith)
    have h3 : Real.goldenRatio⁻¹ ≤ 0.62 := by
      rw [inv_le_iff_one_le_mul₀ (by linarith)]
      linarith
    linarith
  · have := Real.log_le_sub_one_of_pos (show 0 < Real.goldenRatio by linarith)
    linarith

theorem golden_near (hF : F.Accurate u) (hu : 0 ≤ u) (hu1 : u ≤ 1 / 2) : Near u 4 F.golden Real.goldenRatio := by
  have h1 : Near u 1 (F.ofInt 5) 5 := by
    have := Near.step hu hu1 (k := 0) (x := 5) (y := 5) (z := F.ofInt 5) (by norm_num) Near.refl
      (by simpa using hF.ofInt 5)
    simpa using this
  have h2 := h1.sqrt hu hu1 (by norm_num)
  have h3 := h2.step hu hu1 (Real.sqrt_nonneg _) (z := F.sqrt (F.ofInt 5)) (by
    rw [abs_of_nonneg (Real.sqrt_nonneg (F.ofInt 5))]
    exact hF.sqrt _ (h1.nonneg_of hu hu1 (by norm_num)))
  have h4 : Near u 2 (1 + F.sqrt (F.ofInt 5)) (1 + Real.sqrt 5) :=
    Near.addRight hu hu1 (Near.mono hu hu1 (Nat.zero_le 2) (by norm_num) Near.refl) h3
  have hpos : 0 ≤ 1 + Real.sqrt 5 := by positivity
  have h5 := h4.step hu hu1 hpos (hF.add _ _)
  have h6 : Near u 3 (F.add 1 (F.sqrt (F.ofInt 5)) / 2) Real.goldenRatio := by
    have e : Real.goldenRatio = (1 + Real.sqrt 5) / 2 := rfl
    have := h5.lo; have := h5.hi
    rw [e]
    norm_num at *
    constructor <;> linarith
  exact h6.step hu hu1 (by linarith [Real.one_lt_goldenRatio]) (hF.div _ _ (by norm_num))

/-- one more rounding -/
theorem rel_step {W c c' x y z : ℝ} (hW0 : 0 ≤ W) (hW1 : W ≤ 1 / 120) (huW : 25 * u ≤ W) (hc : 0 ≤ c)
    (hc1 : c ≤ 11.9) (hc' : c + 0.05 ≤ c') (hy : 0 < y) (h : |x - y| ≤ c * W * y) (h' : |z - x| ≤ u * |x|) :
    |z - y| ≤ c' * W * y := by
  have hWy := mul_nonneg hW0 hy.le
  have hx : |x| ≤ 1.1 * y := by
    have h1 := abs_sub_abs_le_abs_sub x y
    rw [abs_of_pos hy] at h1
    have : c * W * y ≤ 0.1 * y := by
      apply mul_le_mul_of_nonneg_right _ hy.le
      nlinarith
    linarith
  have h2 := abs_sub_le z x y
  have h3 : u * |x| ≤ W / 25 * (1.1 * y) := mul_le_mul (by linarith) hx (abs_nonneg _) (by linarith)
  have h4 : (c + 0.05) * (W * y) ≤ c' * (W * y) := mul_le_mul_of_nonneg_right hc' hWy
  nlinarith

set_option maxHeartbeats 1000000 in
/-- the rounding error of the argument of `ceil` -/
theorem quotient_near (hF : F.Accurate u) (hu : 0 ≤ u) {n m : Nat} (hn : 0 < n) (hm : 0 < m)
    (hun : 12 * u * (n + 4) ^ 2 ≤ 1 / 10)
    (A : Matrix (Fin n) (Fin n) Int) (B : Matrix (Fin n) (Fin m) Int) (hdet : A.det ≠ 0) {p : Nat} (hp : 3 ≤ p) :
    ∃ x : ℝ, F.quotient (toLists A) (toLists B) p = .ok (x : WithBot ℝ) ∧
      |x - exactQuotient A B p| ≤ 12 * u * (n + 4) ^ 2 * exactQuotient A B p := by
  have hn1 : (1 : ℝ) ≤ n := by exact_mod_cast hn
  have hN : (25 : ℝ) ≤ (n + 4) ^ 2 := by nlinarith
  set W := u * ((n : ℝ) + 4) ^ 2 with hW
  have hW0 : 0 ≤ W := by positivity
  have hW1 : W ≤ 1 / 120 := by linarith
  have huW : 25 * u ≤ W := by nlinarith
  have hu1 : u ≤ 1 / 2 := by linarith
  have hnuW : u * n ≤ W / 9 := by
    have : 9 * (n : ℝ) ≤ (n + 4) ^ 2 := by nlinarith
    have := mul_le_mul_of_nonneg_left this hu
    linarith
  have hnN : u * (n * (n + 4)) ≤ W := by
    have : (n : ℝ) * (n + 4) ≤ (n + 4) ^ 2 := by nlinarith
    have := mul_le_mul_of_nonneg_left this hu
    linarith
  have hnu0 : 0 ≤ u * n := by positivity
  obtain ⟨ts, h1, h2, h3, h4⟩ := logDelta_near hF hu hu1 hn hm A B hdet
  set D := logDelta A B with hDdef
  have hD0 : 0 ≤ D := by
    have := (delta_bounds A B hdet).1
    have h5 : (1 : ℝ) ≤ |(A.det : ℝ)| := by exact_mod_cast Int.one_le_abs hdet
    exact Real.exp_le_exp.1 (by rw [Real.exp_zero]; exact h5.trans this)
  have h5 := sum_error hF hu ts 0
  rw [h2, abs_zero, zero_add, zero_add] at h5
  have h6 := pow_le_linear hu n (by linarith)
  have hp0 : 0 ≤ (1 + u) ^ n - 1 := by
    have : 1 ≤ (1 + u) ^ n := one_le_pow₀ (by linarith)
    linarith
  -- the computed sum
  have hne : (n : ℝ) * (3 * u * (n + 4)) ≤ 3 * W := by linarith
  have hS : (ts.map abs).sum ≤ 1.01 * D + 3 * W := by
    have : u * D ≤ 0.01 * D := mul_le_mul_of_nonneg_right (by linarith) hD0
    linarith
  have hS0 : 0 ≤ (ts.map abs).sum := List.sum_nonneg (by simp)
  have h7 : |F.sum ts - ts.sum| ≤ 2 * W / 9 * (1.01 * D + 3 * W) := by
    refine h5.trans (mul_le_mul (by linarith) hS hS0 (by linarith))
  have hWD : 0 ≤ W * D := by positivity
  have hWW : W * W ≤ W / 120 := by nlinarith
  have hΔ : |F.sum ts - D| ≤ W * (0.5 * D + 3.1) := by
    have := abs_sub_le (F.sum ts) ts.sum D
    have : u * D ≤ W / 25 * D := mul_le_mul_of_nonneg_right (by linarith) hD0
    nlinarith
  obtain ⟨hφ1, hφ2, hφ⟩ := golden_log_bounds
  have hg := golden_near hF hu hu1
  have hgp := hg.pos_of hu hu1 (by linarith)
  have hgl := ln_near hF hu hu1 hφ.le hg
  set ℓ := Real.log Real.goldenRatio with hℓ
  have hgl' : |F.ln F.golden - ℓ| ≤ 0.6 * W := by
    push_cast at hgl
    have : u * ℓ ≤ u * 1 := mul_le_mul_of_nonneg_left (by linarith) hu
    linarith
  set T := D + ℓ with hT
  have hT0 : 0.38 ≤ T := by linarith
  have ht1 : |F.sum ts + F.ln F.golden - T| ≤ 9.8 * W * T := by
    have e : F.sum ts + F.ln F.golden - T = (F.sum ts - D) + (F.ln F.golden - ℓ) := by rw [hT]; ring
    rw [e]
    have := abs_add_le (F.sum ts - D) (F.ln F.golden - ℓ)
    have h8 : W * 0.38 ≤ W * ℓ := mul_le_mul_of_nonneg_left hφ1 hW0
    have h9 : 9.8 * W * T = 9.8 * (W * D) + 9.8 * (W * ℓ) := by rw [hT]; ring
    have h10 : W * (0.5 * D + 3.1) = 0.5 * (W * D) + 3.1 * W := by ring
    linarith
  have hWT : 0 ≤ W * T := by positivity
  -- relative errors from here on
  have ht2 : |F.add (F.sum ts) (F.ln F.golden) - T| ≤ 9.85 * W * T := by
    exact rel_step hW0 hW1 huW (by norm_num) (by norm_num) (by norm_num) (by linarith) ht1 (hF.add _ _)
  have ht3 : |2 * F.add (F.sum ts) (F.ln F.golden) - 2 * T| ≤ 9.85 * W * (2 * T) := by
    rw [← mul_sub, abs_mul, abs_of_pos (by norm_num : (0 : ℝ) < 2)]
    linarith
  have ht4 : |F.mul 2 (F.add (F.sum ts) (F.ln F.golden)) - 2 * T| ≤ 9.9 * W * (2 * T) := by
    exact rel_step hW0 hW1 huW (by norm_num) (by norm_num) (by norm_num) (by linarith) ht3 (hF.mul _ _)
  -- the logarithm of the prime
  have hp3 : (3 : ℝ) ≤ p := by exact_mod_cast hp
  have hpn : Near u 1 (F.ofInt (p : Int)) (p : ℝ) := by
    have := Near.step hu hu1 (k := 0) (x := (p : ℝ)) (y := p) (z := F.ofInt p) (by linarith) Near.refl
      (by simpa using hF.ofInt p)
    simpa using this
  have hpl := ln_near hF hu hu1 (by linarith) hpn
  have hlp : 1 ≤ Real.log p := by
    have := Real.log_le_log (Real.exp_pos 1) (show Real.exp 1 ≤ (p : ℝ) by linarith [Real.exp_one_lt_d9])
    rwa [Real.log_exp] at this
  set L := Real.log p with hL
  have hpl' : |F.ln (F.ofInt p) - L| ≤ 0.16 * W * L := by
    push_cast at hpl
    have : u ≤ u * L := by nlinarith
    have : u * L ≤ W / 25 * L := mul_le_mul_of_nonneg_right (by linarith) (by linarith)
    linarith
  set num := F.mul 2 (F.add (F.sum ts) (F.ln F.golden)) with hnum
  set den := F.ln (F.ofInt p) with hden
  have hVd : exactQuotient A B p = 2 * T / L := rfl
  set V := 2 * T / L with hV
  have hV0 : 0 < V := by positivity
  have hden0 : 0 < den := by
    have := (abs_le.1 hpl').1
    have : 0.16 * W * L ≤ 0.1 * L := mul_le_mul_of_nonneg_right (by linarith) (by linarith)
    linarith
  have hq : |num / den - V| ≤ 10.5 * W * V := by
    have e : num / den - V = ((num - 2 * T) - V * (den - L)) / den := by
      rw [hV]; field_simp; ring
    rw [e, abs_div, abs_of_pos hden0, div_le_iff₀ hden0]
    have h8 : |num - 2 * T - V * (den - L)| ≤ |num - 2 * T| + |V * (den - L)| := abs_sub _ _
    rw [abs_mul, abs_of_pos hV0] at h8
    have h9 : V * |den - L| ≤ V * (0.16 * W * L) := mul_le_mul_of_nonneg_left hpl' hV0.le
    have h10 : 2 * T = V * L := by rw [hV]; field_simp
    rw [h10] at ht4 h8 ⊢
    have h11 : 0.998 * L ≤ den := by
      have := (abs_le.1 hpl').1
      have : 0.16 * W * L ≤ 0.002 * L := mul_le_mul_of_nonneg_right (by linarith) (by linarith)
      linarith
    have h12 : 10.5 * W * V * (0.998 * L) ≤ 10.5 * W * V * den := mul_le_mul_of_nonneg_left h11 (by positivity)
    have h13 : 0 ≤ W * V * L := by positivity
    nlinarith
  have hfin := rel_step (c' := 12) hW0 hW1 huW (by norm_num) (by norm_num) (by norm_num) hV0 hq
    (hF.div num den hden0.ne')
  refine ⟨F.div num den, ?_, ?_⟩
  · unfold FloatOps.quotient
    rw [h1]
    simp only [Outcome.ok_bind, FloatOps.lnB, if_neg hgp.ne']
    rfl
  · rw [hVd]
    rw [show 12 * u * ((n : ℝ) + 4) ^ 2 = 12 * W by rw [hW]; ring]
    exact hfin

theorem exactQuotient_pos {n m : Nat} (A : Matrix (Fin n) (Fin n) Int) (B : Matrix (Fin n) (Fin m) Int)
    (hdet : A.det ≠ 0) {p : Nat} (hp : 3 ≤ p) : 0 < exactQuotient A B p := by
  have hD0 : 0 ≤ logDelta A B := by
    have := (delta_bounds A B hdet).1
    have h5 : (1 : ℝ) ≤ |(A.det : ℝ)| := by exact_mod_cast Int.one_le_abs hdet
    exact Real.exp_le_exp.1 (by rw [Real.exp_zero]; exact h5.trans this)
  have hp3 : (1 : ℝ) < p := by exact_mod_cast (by omega : 1 < p)
  have := Real.log_pos hp3
  have := golden_log_bounds.1
  unfold exactQuotient
  apply div_pos _ (by assumption)
  linarith

/-- if the computed quotient is at most `s`, all integers up to Hadamard's bound are below the margin -/
theorem margin_of_le {n m : Nat} (A : Matrix (Fin n) (Fin n) Int) (B : Matrix (Fin n) (Fin m) Int)
    {p : Nat} (hp : 3 ≤ p) {η x : ℝ} (hη : η < 1) {s : Nat}
    (hx : |x - exactQuotient A B p| ≤ η * exactQuotient A B p) (hs : x ≤ s) {b : Int} (hb : 1 ≤ b)
    (hbD : (b : ℝ) ≤ Real.exp (logDelta A B)) :
    (Real.goldenRatio * b) ^ 2 ≤ (p : ℝ) ^ ((s : ℝ) / (1 - η)) := by
  have hp3 : (1 : ℝ) < p := by exact_mod_cast (by omega : 1 < p)
  have hL := Real.log_pos hp3
  have hφ := Real.goldenRatio_pos
  have hb1 : (1 : ℝ) ≤ b := by exact_mod_cast hb
  have h1 : exactQuotient A B p ≤ s / (1 - η) := by
    rw [le_div_iff₀ (by linarith)]
    have := (abs_le.1 hx).1
    linarith
  unfold exactQuotient at h1
  rw [div_le_iff₀ hL] at h1
  have h2 : Real.log b ≤ logDelta A B := by
    have := Real.log_le_log (by linarith) hbD
    rwa [Real.log_exp] at this
  have hx : 0 < Real.goldenRatio * b := by positivity
  rw [← Real.log_le_log_iff (by positivity) (Real.rpow_pos_of_pos (by linarith) _), Real.log_pow,
    Real.log_rpow (by linarith), Real.log_mul hφ.ne' (by linarith)]
  push_cast
  linarith

/-- a gap between consecutive integers -/
theorem noNearMiss_of {p s b : Nat} {η γ : ℝ} (hp : 3 ≤ p) (hp24 : p ≤ 2 ^ 24) (hη0 : 0 ≤ η) (hη : η ≤ 1 / 1000)
    (hlo : (Real.goldenRatio * b) ^ 2 ≤ (p : ℝ) ^ s)
    (hhi : (p : ℝ) ^ s * (1 + γ) ≤ (Real.goldenRatio * (b + 1 : ℕ)) ^ 2) (hγ : 0 < γ)
    (hs : s * 16.7 * (η / (1 - η)) < γ / (1 + γ)) : NoNearMiss p η s := by
  intro c
  have hφ := Real.goldenRatio_pos
  rcases le_or_gt c b with h | h
  · left
    refine le_trans (pow_le_pow_left₀ (by positivity) ?_ 2) hlo
    exact mul_le_mul_of_nonneg_left (by exact_mod_cast h) hφ.le
  · right
    have hp1 : (1 : ℝ) < p := by exact_mod_cast (by omega : 1 < p)
    have hps : (0 : ℝ) < (p : ℝ) ^ s := by positivity
    refine lt_of_lt_of_le ?_ (le_trans hhi (pow_le_pow_left₀ (by positivity)
      (mul_le_mul_of_nonneg_left (by exact_mod_cast h) hφ.le) 2))
    rw [← Real.log_lt_log_iff (Real.rpow_pos_of_pos (by linarith) _) (by positivity), Real.log_rpow (by linarith),
      Real.log_mul hps.ne' (by positivity), Real.log_pow]
    have hL : Real.log p ≤ 16.7 := by
      have h1 : Real.log p ≤ Real.log ((2 : ℝ) ^ 24) := Real.log_le_log (by linarith) (by exact_mod_cast hp24)
      rw [Real.log_pow] at h1
      have := Real.log_two_lt_d9
      push_cast at h1
      linarith
    have hL0 := Real.log_pos hp1
    have h1 := Real.one_sub_inv_le_log_of_pos (show 0 < 1 + γ by linarith)
    have h2 : 1 - (1 + γ)⁻¹ = γ / (1 + γ) := by field_simp; ring
    rw [h2] at h1
    have h3 : (s : ℝ) / (1 - η) * Real.log p = s * Real.log p + s * Real.log p * (η / (1 - η)) := by
      have : (1 : ℝ) - η ≠ 0 := by linarith
      field_simp
      ring
    have h4 : (s : ℝ) * Real.log p * (η / (1 - η)) ≤ s * 16.7 * (η / (1 - η)) := by
      apply mul_le_mul_of_nonneg_right
      · exact mul_le_mul_of_nonneg_left hL (Nat.cast_nonneg s)
      · exact div_nonneg hη0 (by linarith)
    linarith

theorem golden_sq_bounds : (2.61803398874989480 : ℝ) ≤ Real.goldenRatio ^ 2 ∧
    Real.goldenRatio ^ 2 ≤ 2.61803398874989490 := by
  have h5 : (2.23606797749978960 : ℝ) ≤ Real.sqrt 5 := Real.le_sqrt_of_sq_le (by norm_num)
  have h6 : Real.sqrt 5 ≤ 2.23606797749978980 := Real.sqrt_le_iff.2 ⟨by norm_num, by norm_num⟩
  rw [Real.goldenRatio_sq]
  unfold Real.goldenRatio
  constructor <;> linarith

/-- for up to three steps there is no near miss -/
theorem noNearMiss_small {η : ℝ} (hη0 : 0 ≤ η) (hη : η ≤ 1.67e-12) {s : Nat} (hs : s ≤ 3) :
    NoNearMiss 9999991 η s := by
  obtain ⟨h1, h2⟩ := golden_sq_bounds
  rw [Real.goldenRatio_sq] at h1 h2
  have hq : η / (1 - η) ≤ 1.6701e-12 := by
    rw [div_le_iff₀ (by linarith)]
    nlinarith
  have hq0 : 0 ≤ η / (1 - η) := div_nonneg hη0 (by linarith)
  interval_cases s
  · refine noNearMiss_of (b := 0) (γ := 1) (by norm_num) (by norm_num) hη0 (by linarith) ?_ ?_ ?_ ?_
    · simp
    · norm_num; linarith
    · norm_num
    · norm_num
  · refine noNearMiss_of (b := 1954) (γ := 1e-4) (by norm_num) (by norm_num) hη0 (by linarith) ?_ ?_ ?_ ?_
    · rw [mul_pow]; norm_num; linarith
    · rw [mul_pow]; norm_num; linarith
    · norm_num
    · norm_num at hq ⊢; linarith
  · refine noNearMiss_of (b := 6180334) (γ := 1e-8) (by norm_num) (by norm_num) hη0 (by linarith) ?_ ?_ ?_ ?_
    · rw [mul_pow]; norm_num; linarith
    · rw [mul_pow]; norm_num; linarith
    · norm_num
    · norm_num at hq ⊢; linarith
  · refine noNearMiss_of (b := 19543924374) (γ := 8.6e-11) (by norm_num) (by norm_num) hη0 (by linarith) ?_ ?_ ?_ ?_
    · rw [mul_pow]; norm_num; linarith
    · rw [mul_pow]; norm_num; linarith
    · norm_num
    · norm_num at hq ⊢; linarith

end Systre.Modular
