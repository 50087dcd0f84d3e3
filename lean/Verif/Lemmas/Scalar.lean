import Verif.Model.LinearAlgebra
import Mathlib.Algebra.BigOperators.Ring.Finset
import Mathlib.Algebra.Order.Ring.Rat
import Mathlib.Data.Int.GCD
import Mathlib.Data.Rat.Lemmas
import Mathlib.Tactic.Ring
import Mathlib.Tactic.Linarith
import Mathlib.Tactic.LinearCombination
import Mathlib.Tactic.FieldSimp

/-! Helper lemmas: `gcdx`, and the laws the generic elimination needs from a scalar type, for `Int` and
`Rat`. -/

namespace Systre

/-! ### rows as lists -/

@[simp] theorem rowFn_length {T : Type} (n : Nat) (f : Nat → T) : (rowFn n f).length = n := by
  simp [rowFn]

theorem rent_rowFn {T : Type} [Zero T] (n : Nat) (f : Nat → T) (k : Nat) :
    rent (rowFn n f) k = if k < n then f k else 0 := by
  unfold rent rowFn List.getD
  split
  · rename_i h; simp [h]
  · rename_i h; simp [h]

theorem rent_ge {T : Type} [Zero T] {l : List T} {k : Nat} (h : l.length ≤ k) : rent l k = 0 := by
  simp [rent, List.getD, h]

theorem rent_lt {T : Type} [Zero T] {l : List T} {k : Nat} (h : k < l.length) : rent l k = l[k] := by
  simp [rent, List.getD, h]

theorem ext_rent {T : Type} [Zero T] {l l' : List T} (hl : l.length = l'.length)
    (h : ∀ k, rent l k = rent l' k) : l = l' := by
  apply List.ext_getElem hl
  intro k h1 h2
  rw [← rent_lt h1, ← rent_lt h2, h]

/-! ### gcdx -/

theorem gcdxLoop_ok (A B : Int) : ∀ (fuel : Nat) (a a' r r' s s' : Int), a'.natAbs < fuel →
    A * r + B * s = a → A * r' + B * s' = a' → (r * s' - s * r' = 1 ∨ r * s' - s * r' = -1) →
    Int.gcd a a' = Int.gcd A B →
    ∃ g x y z w, gcdxLoop fuel a a' r r' s s' = .ok (g, x, y, z, w) ∧ A * x + B * y = g ∧
      A * z + B * w = 0 ∧ (x * w - y * z = 1 ∨ x * w - y * z = -1) ∧ g.natAbs = Int.gcd A B := by
  intro fuel
  induction fuel with
  | zero => intro a a' r r' s s' h; omega
  | succ fuel ih =>
    intro a a' r r' s s' hf h1 h2 h3 h4
    unfold gcdxLoop
    by_cases h0 : a' = 0
    · rw [if_neg (by simpa using h0)]
      refine ⟨a, r, s, r', s', rfl, h1, by rw [h2, h0], h3, ?_⟩
      rw [← h4, h0, Int.gcd_zero_right]
    · rw [if_pos h0]
      have hm : a - a.tdiv a' * a' = a.tmod a' := by
        have := Int.mul_tdiv_add_tmod a a'
        have e : a' * a.tdiv a' = a.tdiv a' * a' := mul_comm _ _
        omega
      simp only
      apply ih
      · rw [hm, Int.natAbs_tmod]
        have := Nat.mod_lt a.natAbs (Int.natAbs_pos.2 h0)
        omega
      · exact h2
      · rw [← h1, ← h2]; ring
      · rcases h3 with h3 | h3
        · right; linear_combination -h3
        · left; linear_combination -h3
      · rw [← h4]
        have : a - a.tdiv a' * a' = a + a' * (-(a.tdiv a')) := by ring
        rw [this, Int.gcd_add_mul_left_right, Int.gcd_comm]

theorem gcdx_ok (a b : Int) :
    ∃ g r s t u, gcdx a b = .ok (g, r, s, t, u) ∧ a * r + b * s = g ∧ a * t + b * u = 0 ∧
      (r * u - s * t = 1 ∨ r * u - s * t = -1) ∧ g.natAbs = Int.gcd a b :=
  gcdxLoop_ok a b _ a b 1 0 0 1 (by omega) (by ring) (by ring) (by left; ring) rfl

/-! ### laws of a scalar type -/

/-- What the generic elimination relies on. `Norm p`: `p` is a normalised pivot; `Red x p`: `x` is
reduced with respect to the normalised pivot `p`. -/
class LawfulScalar (T : Type) [CommRing T] [Scalar T] where
  Norm : T → Prop
  Red : T → T → Prop
  norm_ne : ∀ {p}, Norm p → p ≠ 0
  clear : ∀ (col : Nat) (v b : List T), b.length = v.length → col < v.length →
    (∀ k, k < col → rent v k = 0) → (∀ k, k < col → rent b k = 0) → rent b col ≠ 0 →
    ∃ v' b' p q r s, Scalar.clearColumn col v b = .ok (v', b') ∧ v'.length = v.length ∧
      b'.length = v.length ∧ p * s - q * r = 1 ∧
      (∀ k, rent b' k = p * rent b k + q * rent v k) ∧
      (∀ k, rent v' k = r * rent b k + s * rent v k) ∧ rent v' col = 0 ∧ rent b' col ≠ 0
  normalize : ∀ (col : Nat) (v : List T), col < v.length → (∀ k, k < col → rent v k = 0) →
    rent v col ≠ 0 → ∃ v' e e', Scalar.normalizeColumn col v = .ok v' ∧ v'.length = v.length ∧
      e * e' = 1 ∧ (∀ k, rent v' k = e * rent v k) ∧ Norm (rent v' col)
  reduce : ∀ (col : Nat) (v b : List T), b.length = v.length → col < v.length →
    (∀ k, k < col → rent b k = 0) → Norm (rent b col) →
    ∃ v' f, Scalar.reduceColumn col v b = .ok v' ∧ v'.length = v.length ∧
      (∀ k, rent v' k = rent v k - f * rent b k) ∧ Red (rent v' col) (rent b col)
  solveRow : ∀ (a : List T) (x : List (List T)) (b : List T), Norm (rent a x.length) →
    (∀ j, j < x.length → Red (rent a j) (rent a x.length)) →
    (∃ y, Scalar.solveRow a x b = .ok (some y) ∧ y.length = b.length ∧
      ∀ c, c < b.length → ∑ j ∈ Finset.range x.length, rent a j * rent (x.getD j []) c +
        rent a x.length * rent y c = rent b c) ∨
    (Scalar.solveRow a x b = .ok none ∧ ∃ c, c < b.length ∧ ∀ z,
      ∑ j ∈ Finset.range x.length, rent a j * rent (x.getD j []) c + rent a x.length * z ≠ rent b c)

instance : LawfulScalar Rat where
  Norm p := p = 1
  Red x _ := x = 0
  norm_ne := by rintro p rfl; exact one_ne_zero
  clear := by
    intro col v b hl hc hv hb hne
    have e : (Scalar.clearColumn col v b : Outcome _) = .ok (rowFn v.length (fun k =>
      if k < col then rent v k else if k = col then 0 else rent v k - rent b k * (rent v col / rent b col)), b) := by
      show ratClearColumn col v b = _
      unfold ratClearColumn
      rw [if_neg hne]
    refine ⟨_, b, 1, 0, -(rent v col / rent b col), 1, e, by simp, hl, by ring, fun k => by ring, ?_, ?_,
      hne⟩
    · intro k
      rw [rent_rowFn]
      by_cases hk : k < v.length
      · rw [if_pos hk]
        by_cases h1 : k < col
        · rw [if_pos h1, hb k h1]; ring
        · rw [if_neg h1]
          by_cases h2 : k = col
          · subst h2; rw [if_pos rfl]; field_simp; ring
          · rw [if_neg h2]; ring
      · rw [if_neg hk, rent_ge (l := v) (k := k) (by omega), rent_ge (l := b) (k := k) (by omega)]; ring
    · rw [rent_rowFn]; simp
  normalize := by
    intro col v hc hv hne
    have e : (Scalar.normalizeColumn col v : Outcome _) = .ok (rowFn v.length (fun k =>
      if k < col then rent v k else if k = col then 1 else rent v k / rent v col)) := by
      show ratNormalizeColumn col v = _
      unfold ratNormalizeColumn
      rw [if_neg hne]
    refine ⟨_, (rent v col)⁻¹, rent v col, e, by simp, inv_mul_cancel₀ hne, ?_, ?_⟩
    · intro k
      rw [rent_rowFn]
      by_cases hk : k < v.length
      · rw [if_pos hk]
        by_cases h1 : k < col
        · rw [if_pos h1, hv k h1]; ring
        · rw [if_neg h1]
          by_cases h2 : k = col
          · subst h2; rw [if_pos rfl, inv_mul_cancel₀ hne]
          · rw [if_neg h2]; rw [div_eq_inv_mul]
      · rw [if_neg hk, rent_ge (l := v) (k := k) (by omega)]; ring
    · rw [rent_rowFn]; simp [hc]
  reduce := by
    intro col v b hl hc hb hn
    have e : (Scalar.reduceColumn col v b : Outcome _) = .ok (rowFn v.length (fun k =>
      if k < col then rent v k else if k = col then 0 else rent v k - rent b k * rent v col)) := rfl
    refine ⟨_, rent v col, e, by simp, ?_, ?_⟩
    · intro k
      rw [rent_rowFn]
      by_cases hk : k < v.length
      · rw [if_pos hk]
        by_cases h1 : k < col
        · rw [if_pos h1, hb k h1]; ring
        · rw [if_neg h1]
          by_cases h2 : k = col
          · subst h2; rw [if_pos rfl, hn]; ring
          · rw [if_neg h2]; ring
      · rw [if_neg hk, rent_ge (l := v) (k := k) (by omega), rent_ge (l := b) (k := k) (by omega)]; ring
    · rw [rent_rowFn]; simp
  solveRow := by
    intro a x b hn hr
    left
    refine ⟨b, rfl, rfl, ?_⟩
    intro c _
    rw [hn, Finset.sum_eq_zero, zero_add, one_mul]
    intro j hj
    rw [hr j (Finset.mem_range.1 hj), zero_mul]

theorem foldl_sub_sum (k : Nat) (f : Nat → Int) (t : Int) :
    (List.range k).foldl (fun t i => t - f i) t = t - ∑ j ∈ Finset.range k, f j := by
  induction k with
  | zero => simp
  | succ k ih => rw [List.range_succ, List.foldl_append, ih, Finset.sum_range_succ]; simp; ring

theorem intSolveEntry_spec (a : List Int) (x : List (List Int)) (b : List Int) (c : Nat)
    (hn : rent a x.length ≠ 0) :
    (∃ y, intSolveEntry a x b c = .ok (some y) ∧
      ∑ j ∈ Finset.range x.length, rent a j * rent (x.getD j []) c + rent a x.length * y = rent b c) ∨
    (intSolveEntry a x b c = .ok none ∧ ∀ z,
      ∑ j ∈ Finset.range x.length, rent a j * rent (x.getD j []) c + rent a x.length * z ≠ rent b c) := by
  unfold intSolveEntry
  simp only
  rw [foldl_sub_sum, if_neg hn]
  set S := ∑ j ∈ Finset.range x.length, rent a j * rent (x.getD j []) c with hS
  by_cases h : (rent b c - S).tmod (rent a x.length) = 0
  · rw [if_pos h]
    left
    refine ⟨_, rfl, ?_⟩
    have := Int.mul_tdiv_add_tmod (rent b c - S) (rent a x.length)
    rw [h] at this
    linarith
  · rw [if_neg h]
    right
    refine ⟨rfl, fun z hz => h ?_⟩
    have : rent b c - S = rent a x.length * z := by linarith
    rw [this]
    exact Int.mul_tmod_right _ _

theorem intSolveCols_spec (a : List Int) (x : List (List Int)) (b : List Int)
    (hn : rent a x.length ≠ 0) (cols : List Nat) :
    (∃ ys, intSolveCols a x b cols = .ok (some ys) ∧ List.Forall₂ (fun c y =>
      ∑ j ∈ Finset.range x.length, rent a j * rent (x.getD j []) c + rent a x.length * y = rent b c)
        cols ys) ∨
    (intSolveCols a x b cols = .ok none ∧ ∃ c ∈ cols, ∀ z,
      ∑ j ∈ Finset.range x.length, rent a j * rent (x.getD j []) c + rent a x.length * z ≠ rent b c) := by
  induction cols with
  | nil => left; exact ⟨[], rfl, List.Forall₂.nil⟩
  | cons c cols ih =>
    unfold intSolveCols
    rcases intSolveEntry_spec a x b c hn with ⟨y, h1, h2⟩ | ⟨h1, h2⟩
    · rw [h1]
      simp only [Outcome.ok_bind]
      rcases ih with ⟨ys, h3, h4⟩ | ⟨h3, c', hc', h4⟩
      · rw [h3]; left; exact ⟨y :: ys, rfl, List.Forall₂.cons h2 h4⟩
      · rw [h3]; right; exact ⟨rfl, c', by simp [hc'], h4⟩
    · rw [h1]; right; exact ⟨rfl, c, by simp, h2⟩

instance : LawfulScalar Int where
  Norm p := 0 < p
  Red x p := 0 ≤ x ∧ x ≤ p
  norm_ne := by intro p h; omega
  clear := by
    intro col v b hl hc hv hb hne
    obtain ⟨g, r, s, t, u, h1, h2, h3, h4, h5⟩ := gcdx_ok (rent b col) (rent v col)
    have e : (Scalar.clearColumn col v b : Outcome _) = .ok
        (rowFn v.length (fun k => if k < col then rent v k else rent b k * t + rent v k * u),
       rowFn v.length (fun k => if k < col then rent b k else (r * u - s * t) * (rent b k * r + rent v k * s))) := by
      show intClearColumn col v b = _
      unfold intClearColumn
      rw [h1]; rfl
    have hd : (r * u - s * t) * (r * u - s * t) = 1 := by rcases h4 with h | h <;> rw [h] <;> rfl
    refine ⟨_, _, (r * u - s * t) * r, (r * u - s * t) * s, t, u, e, by simp, by simp, ?_, ?_, ?_, ?_, ?_⟩
    · linear_combination hd
    · intro k
      rw [rent_rowFn]
      by_cases hk : k < v.length
      · rw [if_pos hk]; split
        · rename_i h; rw [hb k h, hv k h]; ring
        · ring
      · rw [if_neg hk, rent_ge (l := v) (k := k) (by omega), rent_ge (l := b) (k := k) (by omega)]; ring
    · intro k
      rw [rent_rowFn]
      by_cases hk : k < v.length
      · rw [if_pos hk]; split
        · rename_i h; rw [hb k h, hv k h]; ring
        · ring
      · rw [if_neg hk, rent_ge (l := v) (k := k) (by omega), rent_ge (l := b) (k := k) (by omega)]; ring
    · rw [rent_rowFn, if_pos hc, if_neg (by omega), h3]
    · rw [rent_rowFn, if_pos hc, if_neg (by omega), h2]
      have hg : g ≠ 0 := by
        intro h0; rw [h0] at h5
        have := Int.gcd_eq_zero_iff.1 h5.symm
        exact hne this.1
      rcases h4 with h | h <;> rw [h] <;> simpa using hg
  normalize := by
    intro col v hc hv hne
    by_cases h : rent v col < 0
    · have e : (Scalar.normalizeColumn col v : Outcome _) =
          .ok (rowFn v.length (fun k => if k < col then rent v k else - rent v k)) := by
        show intNormalizeColumn col v = _
        unfold intNormalizeColumn
        rw [if_pos h]
      refine ⟨_, -1, -1, e, by simp, by ring, ?_, ?_⟩
      · intro k
        rw [rent_rowFn]
        by_cases hk : k < v.length
        · rw [if_pos hk]; split
          · rename_i h; rw [hv k h]; ring
          · ring
        · rw [if_neg hk, rent_ge (l := v) (k := k) (by omega)]; ring
      · rw [rent_rowFn, if_pos hc, if_neg (by omega)]; omega
    · have e : (Scalar.normalizeColumn col v : Outcome _) = .ok v := by
        show intNormalizeColumn col v = _
        unfold intNormalizeColumn
        rw [if_neg h]
      exact ⟨v, 1, 1, e, rfl, by ring, fun k => by ring, by omega⟩
  reduce := by
    intro col v b hl hc hb hn
    set f := (rent v col).tdiv (rent b col) - (if rent v col < 0 then 1 else 0) with hf
    have hred : 0 ≤ rent v col - f * rent b col ∧ rent v col - f * rent b col ≤ rent b col := by
      have h1 := Int.mul_tdiv_add_tmod (rent v col) (rent b col)
      by_cases hv : rent v col < 0
      · rw [if_pos hv] at hf
        have h2 : (rent v col).tmod (rent b col) ≤ 0 := by
          have := Int.tmod_nonneg (rent b col) (a := - rent v col) (by omega)
          rw [Int.neg_tmod] at this; omega
        have h3 := Int.lt_tmod_of_pos (rent v col) hn
        have : rent v col - f * rent b col = (rent v col).tmod (rent b col) + rent b col := by
          rw [hf]; linear_combination -h1
        omega
      · rw [if_neg hv] at hf
        have h2 := Int.tmod_nonneg (rent b col) (not_lt.1 hv)
        have h3 := Int.tmod_lt_of_pos (rent v col) hn
        have : rent v col - f * rent b col = (rent v col).tmod (rent b col) := by
          rw [hf]; linear_combination -h1
        omega
    have hb0 : rent b col ≠ 0 := by omega
    by_cases hf0 : f = 0
    · have e : (Scalar.reduceColumn col v b : Outcome _) = .ok v := by
        show intReduceColumn col v b = _
        unfold intReduceColumn
        rw [if_neg hb0]
        simp only [← hf, hf0]; rfl
      refine ⟨v, 0, e, rfl, fun k => by ring, ?_⟩
      simpa [hf0] using hred
    · have e : (Scalar.reduceColumn col v b : Outcome _) = .ok
          (rowFn v.length (fun k => if k < col then rent v k else rent v k - rent b k * f)) := by
        show intReduceColumn col v b = _
        unfold intReduceColumn
        rw [if_neg hb0]
        simp only [← hf]
        rw [if_pos hf0]
      refine ⟨_, f, e, by simp, ?_, ?_⟩
      · intro k
        rw [rent_rowFn]
        by_cases hk : k < v.length
        · rw [if_pos hk]; split
          · rename_i h; rw [hb k h]; ring
          · ring
        · rw [if_neg hk, rent_ge (l := v) (k := k) (by omega), rent_ge (l := b) (k := k) (by omega)]; ring
      · rw [rent_rowFn, if_pos hc, if_neg (by omega), mul_comm]; exact hred
  solveRow := by
    intro a x b hn _
    have hn' : rent a x.length ≠ 0 := by omega
    rcases intSolveCols_spec a x b hn' (List.range b.length) with ⟨ys, h1, h2⟩ | ⟨h1, c, hc, h2⟩
    · left
      have hl := h2.length_eq
      rw [List.length_range] at hl
      refine ⟨ys, h1, hl.symm, ?_⟩
      intro c hc
      have := List.forall₂_iff_get.1 h2
      have h3 := this.2 c (by simpa using hc) (by omega)
      rw [rent_lt (l := ys) (by omega)]
      simpa using h3
    · right
      exact ⟨h1, c, List.mem_range.1 hc, h2⟩

end Systre
