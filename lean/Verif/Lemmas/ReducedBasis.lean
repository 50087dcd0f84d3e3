import Verif.Lemmas.Greedy
import Mathlib.LinearAlgebra.Matrix.Determinant.Basic

/-! Helper lemmas: `reduced_lattice_basis` finds a basis with a shortest vector. -/

namespace Systre.Lattices
open Systre Submodule

section sub
variable {V : Type} [AddCommGroup V] [Module ℚ V] {B : V →ₗ[ℚ] V →ₗ[ℚ] ℚ} {n : Nat}

/-- the sum of the vectors selected by `e` -/
def subSum (e : Fin n → Bool) (x : Fin n → V) : V := ∑ k, if e k then x k else 0

theorem short_sub (hB : PosForm B) (x : Fin n → V) (hob : ∀ i j, i ≠ j → B (x i) (x j) ≤ 0)
    (hs : ∀ i, 0 ≤ B (x i) (∑ k, x k)) (c : Fin n → ℤ) (W : Submodule ℚ V)
    (hc : ∑ k, c k • x k ∉ W) :
    ∃ e : Fin n → Bool, subSum e x ∉ W ∧
      B (subSum e x) (subSum e x) ≤ B (∑ k, c k • x k) (∑ k, c k • x k) := by
  classical
  set y : Fin (n + 1) → V := Fin.snoc x (-∑ k, x k) with hy
  have hyc : ∀ i : Fin n, y i.castSucc = x i := fun i => by simp [hy]
  have hyl : y (Fin.last n) = -∑ k, x k := by simp [hy]
  have h0 : ∑ k, y k = 0 := by
    rw [Fin.sum_univ_castSucc, hyl]
    simp [hyc]
  have hob' : ∀ i j, i ≠ j → B (y i) (y j) ≤ 0 := by
    intro i j hij
    induction i using Fin.lastCases with
    | last =>
      induction j using Fin.lastCases with
      | last => exact absurd rfl hij
      | cast j =>
        rw [hyc, hyl, hB.symm, map_neg]
        have := hs j; linarith
    | cast i =>
      induction j using Fin.lastCases with
      | last =>
        rw [hyc, hyl, map_neg]
        have := hs i; linarith
      | cast j =>
        rw [hyc, hyc]
        exact hob i j (fun h => hij (by rw [h]))
  have hcy : ∑ k, (Fin.snoc c 0 : Fin (n + 1) → ℤ) k • y k = ∑ k, c k • x k := by
    rw [Fin.sum_univ_castSucc]
    simp [hyc]
  obtain ⟨S, hW, hle⟩ := short_subset hB y h0 hob' (Fin.snoc c 0) W (by rw [hcy]; exact hc)
  rw [hcy] at hle
  have hsum : ∀ S : Finset (Fin (n + 1)), Fin.last n ∉ S →
      ∑ k ∈ S, y k = subSum (fun i => decide (i.castSucc ∈ S)) x := by
    intro S hS
    have : ∑ k ∈ S, y k = ∑ k, if k ∈ S then y k else 0 := by simp
    rw [this, Fin.sum_univ_castSucc, if_neg hS, add_zero]
    unfold subSum
    refine Finset.sum_congr rfl (fun i _ => ?_)
    by_cases h : i.castSucc ∈ S <;> simp [h, hyc]
  by_cases hl : Fin.last n ∈ S
  · -- take the complement
    have hcs : ∑ k ∈ Sᶜ, y k = - ∑ k ∈ S, y k := by
      rw [eq_neg_iff_add_eq_zero, Finset.sum_compl_add_sum, h0]
    refine ⟨fun i => decide (i.castSucc ∈ Sᶜ), ?_, ?_⟩
    · rw [← hsum Sᶜ (by simpa using hl), hcs, neg_mem_iff]
      exact hW
    · rw [← hsum Sᶜ (by simpa using hl), hcs, map_neg, map_neg, LinearMap.neg_apply, neg_neg]
      exact hle
  · refine ⟨fun i => decide (i.castSucc ∈ S), ?_, ?_⟩
    · rw [← hsum S hl]; exact hW
    · rw [← hsum S hl]; exact hle

theorem shortest_sub (hB : PosForm B) (x : Fin n → V) (hob : ∀ i j, i ≠ j → B (x i) (x j) ≤ 0)
    (hs : ∀ i, 0 ≤ B (x i) (∑ k, x k)) (c : Fin n → ℤ) (W : Submodule ℚ V)
    (hc : ∑ k, c k • x k ∉ W) :
    (∀ c' : Fin n → ℤ, ∑ k, c' k • x k ∉ W →
      B (∑ k, c k • x k) (∑ k, c k • x k) ≤ B (∑ k, c' k • x k) (∑ k, c' k • x k)) →
    ∃ e : Fin n → Bool, ∑ k, c k • x k = subSum e x ∨ ∑ k, c k • x k = - subSum e x := by
  intro hmin
  classical
  set y : Fin (n + 1) → V := Fin.snoc x (-∑ k, x k) with hy
  have hyc : ∀ i : Fin n, y i.castSucc = x i := fun i => by simp [hy]
  have hyl : y (Fin.last n) = -∑ k, x k := by simp [hy]
  have h0 : ∑ k, y k = 0 := by
    rw [Fin.sum_univ_castSucc, hyl]
    simp [hyc]
  have hob' : ∀ i j, i ≠ j → B (y i) (y j) ≤ 0 := by
    intro i j hij
    induction i using Fin.lastCases with
    | last =>
      induction j using Fin.lastCases with
      | last => exact absurd rfl hij
      | cast j =>
        rw [hyc, hyl, hB.symm, map_neg]
        have := hs j; linarith
    | cast i =>
      induction j using Fin.lastCases with
      | last =>
        rw [hyc, hyl, map_neg]
        have := hs i; linarith
      | cast j =>
        rw [hyc, hyc]
        exact hob i j (fun h => hij (by rw [h]))
  have hcy : ∑ k, (Fin.snoc c 0 : Fin (n + 1) → ℤ) k • y k = ∑ k, c k • x k := by
    rw [Fin.sum_univ_castSucc]
    simp [hyc]
  obtain ⟨S, hS⟩ := shortest_exact hB y h0 hob' (Fin.snoc c 0) W (by rw [hcy]; exact hc) (by
    intro c' hc'
    have e : ∑ k, c' k • y k = ∑ k : Fin n, (c' k.castSucc - c' (Fin.last n)) • x k := by
      rw [Fin.sum_univ_castSucc, hyl, smul_neg, Finset.smul_sum, ← sub_eq_add_neg, ← Finset.sum_sub_distrib]
      exact Finset.sum_congr rfl (fun k _ => by rw [hyc, sub_smul])
    rw [hcy]
    rw [e] at hc' ⊢
    exact hmin _ hc')
  rw [hcy] at hS
  have hsum : ∀ S : Finset (Fin (n + 1)), Fin.last n ∉ S →
      ∑ k ∈ S, y k = subSum (fun i => decide (i.castSucc ∈ S)) x := by
    intro S hS
    have : ∑ k ∈ S, y k = ∑ k, if k ∈ S then y k else 0 := by simp
    rw [this, Fin.sum_univ_castSucc, if_neg hS, add_zero]
    unfold subSum
    refine Finset.sum_congr rfl (fun i _ => ?_)
    by_cases h : i.castSucc ∈ S <;> simp [h, hyc]
  by_cases hl : Fin.last n ∈ S
  · have hcs : ∑ k ∈ Sᶜ, y k = - ∑ k ∈ S, y k := by
      rw [eq_neg_iff_add_eq_zero, Finset.sum_compl_add_sum, h0]
    refine ⟨fun i => decide (i.castSucc ∈ Sᶜ), ?_⟩
    rw [← hsum Sᶜ (by simpa using hl), hcs, neg_neg]
    exact hS.symm
  · refine ⟨fun i => decide (i.castSucc ∈ S), ?_⟩
    rw [← hsum S hl]; exact hS

/-- the coefficient matrix of signed selections -/
def selM (σ : Fin n → ℤ) (e : Fin n → Fin n → Bool) : Matrix (Fin n) (Fin n) ℤ :=
  Matrix.of fun i k => σ i * (if e i k then 1 else 0)

theorem comb_selM (σ : Fin n → ℤ) (e : Fin n → Fin n → Bool) (x : Fin n → V) (i : Fin n) :
    comb (selM σ e) x i = σ i • subSum (e i) x := by
  unfold comb selM subSum
  rw [Finset.smul_sum]
  refine Finset.sum_congr rfl (fun k _ => ?_)
  simp only [Matrix.of_apply, mul_smul]
  split <;> simp

theorem det_selM (σ : Fin n → ℤ) (e : Fin n → Fin n → Bool) :
    (selM σ e).det = (∏ i, σ i) * (selM (fun _ => 1) e).det := by
  have : selM σ e = Matrix.of fun i k => σ i * (selM (fun _ => 1) e) i k := by
    ext i k; simp [selM]
  rw [this, Matrix.det_mul_column]

theorem prod_sign {σ : Fin n → ℤ} (h : ∀ i, σ i = 1 ∨ σ i = -1) : ∏ i, σ i = 1 ∨ ∏ i, σ i = -1 := by
  apply Finset.prod_induction σ (fun z => z = 1 ∨ z = -1)
  · rintro a b (rfl | rfl) (rfl | rfl) <;> simp
  · exact Or.inl rfl
  · intro i _; exact h i
end sub

/-- determinant of three 0/1 rows -/
def bdet (a b c d e f g h i : Bool) : ℤ :=
  let z (b : Bool) : ℤ := if b then 1 else 0
  z a * z e * z i - z a * z f * z h - z b * z d * z i + z b * z f * z g + z c * z d * z h - z c * z e * z g

/-- exactly two of three -/
def isPair (a b c : Bool) : Bool := (a && b && !c) || (a && !b && c) || (!a && b && c)

set_option maxRecDepth 100000 in
theorem bdet_cases : ∀ a b c d e f g h i : Bool, bdet a b c d e f g h i ≠ 0 →
    (bdet a b c d e f g h i = 1 ∨ bdet a b c d e f g h i = -1) ∨
    (isPair a b c ∧ isPair d e f ∧ isPair g h i) := by decide

set_option maxRecDepth 100000 in
theorem bdet_pairs1 : ∀ a b c d e f : Bool, isPair a b c → isPair d e f → (a ≠ d ∨ b ≠ e ∨ c ≠ f) →
    bdet a b c d e f true false false ≠ 0 ∧ bdet a b c d e f false true false ≠ 0 ∧
      bdet a b c d e f false false true ≠ 0 ∧ bdet a b c d e f true true true ≠ 0 := by decide

set_option maxRecDepth 100000 in
theorem bdet_pairs2 : ∀ a b c d e f g h i : Bool, bdet a b c d e f g h i ≠ 0 → (a ≠ d ∨ b ≠ e ∨ c ≠ f) := by
  decide

theorem bdet_pairs3 (a b c d e f g h i p q r : Bool) (h1 : isPair a b c) (h2 : isPair d e f) (h3 : isPair g h i)
    (h4 : bdet a b c d e f g h i ≠ 0) (h5 : isPair p q r) :
    ((p = a ∧ q = b ∧ r = c) ∨ (p = d ∧ q = e ∧ r = f) ∨ (p = g ∧ q = h ∧ r = i)) := by
  have key : ∀ a b c : Bool, isPair a b c → (a = true ∧ b = true ∧ c = false) ∨
      (a = true ∧ b = false ∧ c = true) ∨ (a = false ∧ b = true ∧ c = true) := by decide
  rcases key _ _ _ h1 with ⟨rfl, rfl, rfl⟩ | ⟨rfl, rfl, rfl⟩ | ⟨rfl, rfl, rfl⟩ <;>
  rcases key _ _ _ h2 with ⟨rfl, rfl, rfl⟩ | ⟨rfl, rfl, rfl⟩ | ⟨rfl, rfl, rfl⟩ <;>
  rcases key _ _ _ h3 with ⟨rfl, rfl, rfl⟩ | ⟨rfl, rfl, rfl⟩ | ⟨rfl, rfl, rfl⟩ <;>
  rcases key _ _ _ h5 with ⟨rfl, rfl, rfl⟩ | ⟨rfl, rfl, rfl⟩ | ⟨rfl, rfl, rfl⟩ <;>
  revert h4 <;> decide

theorem bdet_pairs (a b c d e f g h i : Bool) (h1 : isPair a b c) (h2 : isPair d e f) (h3 : isPair g h i)
    (h4 : bdet a b c d e f g h i ≠ 0) :
    (bdet a b c d e f true false false ≠ 0 ∧ bdet a b c d e f false true false ≠ 0 ∧
      bdet a b c d e f false false true ≠ 0 ∧ bdet a b c d e f true true true ≠ 0) ∧
    ∀ p q r : Bool, isPair p q r → ((p = a ∧ q = b ∧ r = c) ∨ (p = d ∧ q = e ∧ r = f) ∨ (p = g ∧ q = h ∧ r = i)) :=
  ⟨bdet_pairs1 _ _ _ _ _ _ h1 h2 (bdet_pairs2 _ _ _ _ _ _ _ _ _ h4),
    fun p q r h => bdet_pairs3 a b c d e f g _ i p q r h1 h2 h3 h4 h⟩

theorem det_three (e : Fin 3 → Fin 3 → Bool) : (selM (fun _ => 1) e).det =
    bdet (e 0 0) (e 0 1) (e 0 2) (e 1 0) (e 1 1) (e 1 2) (e 2 0) (e 2 1) (e 2 2) := by
  rw [Matrix.det_fin_three]
  simp only [selM, Matrix.of_apply, one_mul, bdet]

theorem det_two (e : Fin 2 → Fin 2 → Bool) : (selM (fun _ => 1) e).det ≠ 0 →
    (selM (fun _ => 1) e).det = 1 ∨ (selM (fun _ => 1) e).det = -1 := by
  rw [Matrix.det_fin_two]
  simp only [selM, Matrix.of_apply, one_mul]
  generalize e 0 0 = a
  generalize e 0 1 = b
  generalize e 1 0 = c
  generalize e 1 1 = d
  revert a b c d
  decide

theorem det_one (e : Fin 1 → Fin 1 → Bool) : (selM (fun _ => 1) e).det ≠ 0 →
    (selM (fun _ => 1) e).det = 1 ∨ (selM (fun _ => 1) e).det = -1 := by
  rw [Matrix.det_fin_one]
  simp only [selM, Matrix.of_apply, one_mul]
  generalize e 0 0 = a
  revert a
  decide

/-! ### the choice -/

variable {d : Nat} {dot : List Rat → List Rat → Rat} {B : (Fin d → ℚ) →ₗ[ℚ] (Fin d → ℚ) →ₗ[ℚ] ℚ}

theorem subSum_single {V : Type} [AddCommGroup V] {n : Nat} (x : Fin n → V) (i : Fin n) :
    subSum (fun k => decide (k = i)) x = x i := by
  simp [subSum]

/-- three pair sums are never chosen -/
theorem no_pairs {V : Type} [AddCommGroup V] [Module ℚ V] {B : V →ₗ[ℚ] V →ₗ[ℚ] ℚ} (hB : PosForm B)
    (x : Fin 3 → V) (t : ℚ)
    (hp : ∀ f : Fin 3 → Bool, isPair (f 0) (f 1) (f 2) = true → B (subSum f x) (subSum f x) ≤ t)
    (hs : ∀ i, t ≤ B (x i) (x i)) (ha : t ≤ B (x 0 + x 1 + x 2) (x 0 + x 1 + x 2)) (ht : 0 < t) : False := by
  have h1 := hp ![true, true, false] (by decide)
  have h2 := hp ![true, false, true] (by decide)
  have h3 := hp ![false, true, true] (by decide)
  have h4 := hs 0
  have h5 := hs 1
  have h6 := hs 2
  simp only [subSum, Fin.sum_univ_three, Matrix.cons_val_zero, Matrix.cons_val_one, Matrix.cons_val, if_true,
    Bool.false_eq_true, if_false, add_zero, zero_add, map_add, LinearMap.add_apply] at h1 h2 h3 ha
  linarith

theorem positiveDirection_norm (hd : ∀ v w, v.length = d → w.length = d → dot v w = B (rowVec d v) (rowVec d w))
    {v : List Rat} (hv : v.length = d) : dot (positiveDirection v) (positiveDirection v) = dot v v := by
  rcases positiveDirection_cases v with h | h <;> rw [h]
  have hn : (vNeg v).length = d := by rw [vNeg_length, hv]
  rw [hd _ _ hn hn, hd _ _ hv hv, rv_neg, norm_neg']

theorem positiveDirection_idem (v : List Rat) : positiveDirection (positiveDirection v) = positiveDirection v := by
  rcases positiveDirection_cases v with h | h
  · rw [h, h]
  · rw [h, positiveDirection_vNeg, h]

theorem sortLe_positive (hd : ∀ v w, v.length = d → w.length = d → dot v w = B (rowVec d v) (rowVec d w))
    {v w : List Rat} (hv : v.length = d) (hw : w.length = d) :
    sortLe dot (positiveDirection v) (positiveDirection w) ↔ sortLe dot v w := by
  unfold sortLe
  rw [positiveDirection_norm hd hv, positiveDirection_norm hd hw, positiveDirection_idem, positiveDirection_idem]

theorem reduced_core (hB : PosForm B)
    (hd : ∀ v w, v.length = d → w.length = d → dot v w = B (rowVec d v) (rowVec d w))
    (h3 : d = 1 ∨ d = 2 ∨ d = 3) (x : Fin d → Fin d → ℚ) (hx : LinearIndependent ℚ x)
    (ws : List (List Rat)) (hwl : ∀ w ∈ ws, w.length = d)
    (H1 : ∀ w ∈ ws, ∃ e : Fin d → Bool, rowVec d w = subSum e x)
    (H2 : ∀ e : Fin d → Bool, (∃ i, e i = true) → ∃ w ∈ ws, rowVec d w = subSum e x) :
    ∃ r, reducedLoop dot 0 d (ws.insertionSort (sortLe dot)) [] = .ok (some r) ∧ r.length = d ∧
      (∀ v ∈ r, v.length = d) ∧ latticeOf d r = span ℤ (Set.range x) ∧
      r.Pairwise (fun v w => B (rowVec d v) (rowVec d v) ≤ B (rowVec d w) (rowVec d w)) ∧
      (∀ a0 r', r = a0 :: r' → ∀ v ∈ r', B (rowVec d a0) (rowVec d v) ≤ 0) ∧
      ((∀ i j, i ≠ j → B (x i) (x j) ≤ 0) → (∀ i, 0 ≤ B (x i) (∑ k, x k)) →
        ∀ k v, r[k]? = some v → ∀ y ∈ span ℤ (Set.range x),
        y ∉ span ℚ (rowVec d '' {w | w ∈ r.take k}) → B (rowVec d v) (rowVec d v) ≤ B y y) ∧
      ((∀ i j, i ≠ j → B (x i) (x j) ≤ 0) → (∀ i, 0 ≤ B (x i) (∑ k, x k)) →
        ∀ k v, r[k]? = some v → ∀ y, y.length = d → rowVec d y ∈ span ℤ (Set.range x) →
        rowVec d y ∉ span ℚ (rowVec d '' {w | w ∈ r.take k}) → sortLe dot v y) := by
  have hd0 : 0 < d := by omega
  set all := ws.insertionSort (sortLe dot) with hall
  have hmem : ∀ w, w ∈ all ↔ w ∈ ws := fun w => List.mem_insertionSort _
  have htop : span ℚ (rowVec d '' {y | y ∈ all}) = ⊤ := by
    rw [eq_top_iff, ← hx.span_eq_top_of_card_eq_finrank' (by simp), span_le]
    rintro _ ⟨i, rfl⟩
    obtain ⟨w, hw, h⟩ := H2 (fun k => decide (k = i)) ⟨i, by simp⟩
    rw [subSum_single] at h
    exact subset_span ⟨w, (hmem w).2 hw, h⟩
  have hsort : all.Pairwise (fun v w => B (rowVec d v) (rowVec d v) ≤ B (rowVec d w) (rowVec d w)) := by
    refine (sort_norms dot ws).imp_of_mem ?_
    intro v w hv hw h
    have hv' := hwl v ((hmem v).1 hv)
    have hw' := hwl w ((hmem w).1 hw)
    rwa [hd v v hv' hv', hd w w hw' hw'] at h
  have htie : all.Pairwise (fun v w => sortLe dot (positiveDirection v) (positiveDirection w)) := by
    refine (List.pairwise_insertionSort (sortLe dot) ws).imp_of_mem ?_
    intro v w hv hw h
    exact (sortLe_positive hd (hwl v ((hmem v).1 hv)) (hwl w ((hmem w).1 hw))).2 h
  obtain ⟨r, hr, hrl, hg⟩ := greedy_ok (R := fun v w => sortLe dot (positiveDirection v) (positiveDirection w)) (fun v => (sortLe_total dot).total _ _ |>.elim id id)
    (fun v w h => by rw [positiveDirection_vNeg]; exact h) hd all [] [] all rfl
    (fun y hy => hwl y ((hmem y).1 hy)) hd0 (Good.nil _ all)
    (by simp) (by simp) hsort (by simp) htie htop
  -- coefficients
  have hco : ∀ i : Fin d, ∃ (s : ℤ) (e : Fin d → Bool), (s = 1 ∨ s = -1) ∧
      rowVec d (r[i.1]'(by omega)) = s • subSum e x := by
    intro i
    obtain ⟨w, hw, h⟩ := hg.sgn (r[i.1]'(by omega)) (List.getElem_mem _)
    obtain ⟨e, he⟩ := H1 w ((hmem w).1 hw)
    rcases h with h | h
    · exact ⟨1, e, Or.inl rfl, by rw [h, he, one_smul]⟩
    · exact ⟨-1, e, Or.inr rfl, by rw [h, rv_neg, he, neg_one_smul]⟩
  choose σ e hσ he using hco
  have hfam : (fun i : Fin d => rowVec d (r[i.1]'(by omega))) = comb (selM σ e) x := by
    funext i; rw [he, comb_selM]
  have hli : LinearIndependent ℚ (comb (selM σ e) x) := by
    rw [← hfam]
    have := hg.indep
    unfold Indep at this
    rw [← linearIndependent_equiv (finCongr hrl.symm)] at this
    exact this
  have hlat : latticeOf d r = span ℤ (Set.range (comb (selM σ e) x)) := by
    unfold latticeOf
    rw [← hfam]
    congr 1
    ext y
    constructor
    · rintro ⟨v, hv, rfl⟩
      obtain ⟨i, hi, rfl⟩ := List.getElem_of_mem hv
      exact ⟨⟨i, by omega⟩, rfl⟩
    · rintro ⟨i, rfl⟩; exact ⟨_, List.getElem_mem _, rfl⟩
  have hdet0 := comb_det hli
  have hps := prod_sign hσ
  rw [det_selM] at hdet0
  have hE : (selM (fun _ => 1) e).det ≠ 0 := right_ne_zero_of_mul hdet0
  have hdet : (selM (fun _ => 1) e).det = 1 ∨ (selM (fun _ => 1) e).det = -1 := by
    rcases h3 with rfl | rfl | rfl
    · exact det_one e hE
    · exact det_two e hE
    · rw [det_three] at hE ⊢
      rcases bdet_cases _ _ _ _ _ _ _ _ _ hE with h | ⟨p0, p1, p2⟩
      · exact h
      · exfalso
        obtain ⟨⟨q1, q2, q3, q4⟩, q5⟩ := bdet_pairs _ _ _ _ _ _ _ _ _ p0 p1 p2 hE
        have hn : ∀ i : Fin 3, B (rowVec 3 (r[i.1]'(by omega))) (rowVec 3 (r[i.1]'(by omega))) =
            B (subSum (e i) x) (subSum (e i) x) := by
          intro i
          rw [he]
          rcases hσ i with h | h <;> rw [h] <;> simp
        have hle : ∀ i : Fin 3, B (subSum (e i) x) (subSum (e i) x) ≤ B (subSum (e 2) x) (subSum (e 2) x) := by
          intro i
          rw [← hn, ← hn]
          rcases Nat.lt_or_ge i.1 2 with h | h
          · exact List.pairwise_iff_getElem.1 hg.mono i.1 2 (by omega) (by omega) h
          · have : i = 2 := by ext; show i.1 = 2; omega
            rw [this]
        -- everything outside the span of the first two is at least as long as the third
        have hbest : ∀ f : Fin 3 → Bool, (∃ i, f i = true) →
            bdet (e 0 0) (e 0 1) (e 0 2) (e 1 0) (e 1 1) (e 1 2) (f 0) (f 1) (f 2) ≠ 0 →
            B (subSum (e 2) x) (subSum (e 2) x) ≤ B (subSum f x) (subSum f x) := by
          intro f hf hb
          obtain ⟨w, hw, hwr⟩ := H2 f hf
          have hb2 := hg.best 2 (r[2]'(by omega)) (List.getElem?_eq_getElem (by omega)) w ((hmem w).2 hw)
          rw [hwr] at hb2
          rcases hb2 with hb2 | hb2
          · exfalso
            set e' : Fin 3 → Fin 3 → Bool := ![e 0, e 1, f] with he'
            have hd' : (selM ![σ 0, σ 1, 1] e').det ≠ 0 := by
              rw [det_selM, det_three]
              apply mul_ne_zero
              · rw [Fin.prod_univ_three]
                show σ 0 * σ 1 * 1 ≠ 0
                have h0 := hσ 0
                have h1 := hσ 1
                rcases h0 with h0 | h0 <;> rcases h1 with h1 | h1 <;> rw [h0, h1] <;> decide
              · exact hb
            have hl3 := comb_li hx hd'
            have hc3 : comb (selM ![σ 0, σ 1, 1] e') x =
                ![rowVec 3 (r[0]'(by omega)), rowVec 3 (r[1]'(by omega)), subSum f x] := by
              funext i
              rw [comb_selM]
              fin_cases i
              · exact (he 0).symm
              · exact (he 1).symm
              · exact one_smul _ _
            rw [hc3] at hl3
            have htake : rowVec 3 '' {y | y ∈ r.take 2} =
                {rowVec 3 (r[0]'(by omega)), rowVec 3 (r[1]'(by omega))} := by
              match r, hrl with
              | [a, b, c], _ =>
                ext y
                simp [eq_comm]
            rw [htake] at hb2
            rw [mem_span_pair] at hb2
            obtain ⟨s, t, hst⟩ := hb2
            have := Fintype.linearIndependent_iff.1 hl3 ![s, t, -1] (by
              rw [Fin.sum_univ_three]
              show s • rowVec 3 (r[0]'(by omega)) + t • rowVec 3 (r[1]'(by omega)) + (-1 : ℚ) • subSum f x = 0
              rw [hst]; simp) 2
            simp at this
          · rwa [show B (rowVec 3 (r[2]'(by omega))) (rowVec 3 (r[2]'(by omega))) = _ from hn 2] at hb2
        refine no_pairs hB x (B (subSum (e 2) x) (subSum (e 2) x)) ?_ ?_ ?_ ?_
        · intro f hf
          have : f = e 0 ∨ f = e 1 ∨ f = e 2 := by
            rcases q5 _ _ _ hf with ⟨h1, h2, h3⟩ | ⟨h1, h2, h3⟩ | ⟨h1, h2, h3⟩
            · left; funext k; fin_cases k <;> assumption
            · right; left; funext k; fin_cases k <;> assumption
            · right; right; funext k; fin_cases k <;> assumption
          rcases this with rfl | rfl | rfl <;> exact hle _
        · intro i
          have := hbest (fun k => decide (k = i)) ⟨i, by simp⟩ (by fin_cases i <;> assumption)
          rwa [subSum_single] at this
        · have := hbest (fun _ => true) ⟨0, rfl⟩ q4
          have e3 : subSum (fun _ => true) x = x 0 + x 1 + x 2 := by
            simp [subSum, Fin.sum_univ_three]
          rwa [e3] at this
        · rw [← hn 2]
          apply hB.pos
          rw [he, ← comb_selM]
          exact hli.ne_zero 2
  have hshort : (∀ i j, i ≠ j → B (x i) (x j) ≤ 0) → (∀ i, 0 ≤ B (x i) (∑ k, x k)) →
        ∀ k v, r[k]? = some v → ∀ y ∈ span ℤ (Set.range x),
        y ∉ span ℚ (rowVec d '' {w | w ∈ r.take k}) → B (rowVec d v) (rowVec d v) ≤ B y y := by
    intro hob hs k v hk y hy hyW
    obtain ⟨c, rfl⟩ := (mem_span_range_iff_exists_fun ℤ).1 hy
    obtain ⟨f, hf, hle⟩ := short_sub hB x hob hs c _ hyW
    have hf1 : ∃ i, f i = true := by
      by_contra hcon
      push Not at hcon
      apply hf
      have : subSum f x = 0 := by
        unfold subSum
        exact Finset.sum_eq_zero (fun k _ => by rw [if_neg (hcon k)])
      rw [this]; exact zero_mem _
    obtain ⟨w, hw, hwr⟩ := H2 f hf1
    have hb := hg.best k v hk w ((hmem w).2 hw)
    rw [hwr] at hb
    exact (hb.resolve_left hf).trans hle
  refine ⟨r, hr, hrl, hg.len, ?_, hg.mono, hg.obtuse, hshort, ?_⟩
  · rw [hlat]
    apply comb_span
    rw [det_selM]
    rcases hps with h1 | h1 <;> rcases hdet with h2 | h2 <;> rw [h1, h2] <;> simp
  · intro hob hs k v hk y hyl hy hyW
    have hvl := hg.len v (List.mem_of_getElem? hk)
    have hle := hshort hob hs k v hk _ hy hyW
    rcases lt_or_eq_of_le hle with hlt | heq
    · left; rw [hd v v hvl hvl, hd y y hyl hyl]; exact hlt
    obtain ⟨c, hc⟩ := (mem_span_range_iff_exists_fun ℤ).1 hy
    obtain ⟨f, hf⟩ := shortest_sub hB x hob hs c _ (by rw [hc]; exact hyW) (by
      intro c' hc'
      rw [hc, ← heq]
      exact hshort hob hs k v hk _ ((mem_span_range_iff_exists_fun ℤ).2 ⟨c', rfl⟩) hc')
    rw [hc] at hf
    have hf1 : ∃ i, f i = true := by
      by_contra hcon
      push Not at hcon
      apply hyW
      have : subSum f x = 0 := by
        unfold subSum
        exact Finset.sum_eq_zero (fun k _ => by rw [if_neg (hcon k)])
      rw [this, neg_zero, or_self] at hf
      rw [hf]; exact zero_mem _
    obtain ⟨w, hw, hwr⟩ := H2 f hf1
    have hwl' := hwl w hw
    rw [← hwr, ← rv_neg] at hf
    have hyw : y = w ∨ y = vNeg w := by
      rcases hf with h | h
      · exact Or.inl (rv_inj hyl hwl' h)
      · exact Or.inr (rv_inj hyl (by rw [vNeg_length, hwl']) h)
    have hb := hg.tie k v hk w ((hmem w).2 hw)
    have hpy : positiveDirection y = positiveDirection w := by
      rcases hyw with h | h <;> rw [h]
      rw [positiveDirection_vNeg]
    rcases hb with hb | hb
    · exfalso
      apply hyW
      rcases hf with h | h
      · rw [h]; exact hb
      · rw [h, rv_neg, neg_mem_iff]; exact hb
    · rw [← hpy] at hb
      exact (sortLe_positive hd hvl hyl).1 hb

end Systre.Lattices
