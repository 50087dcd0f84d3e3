import Verif.Lemmas.NullSpace
import Verif.Spec.LinearAlgebra

/-! Helper lemmas: the linear algebra results in terms of Mathlib matrices, generic in the scalar. -/

set_option linter.unusedSectionVars false

namespace Systre
open Submodule Mat

variable {T : Type} [CommRing T] [IsDomain T] [Scalar T] [DecidableEq T] [LawfulScalar T]

theorem rowVec_eq (n : Nat) (l : List T) : rowVec n l = vecN n l := rfl

theorem gen_extend (n : Nat) (vs : List (List T)) (h : ∀ v ∈ vs, v.length = n) :
    ∃ bs, extendAll vs [] = .ok bs ∧ (∀ b ∈ bs, b.length = n) ∧
      (∃ p, IsEchelon (Matrix.of (fun i : Fin bs.length => rowVec n bs[i.1])) p) ∧
      span T (rowVec n '' {b | b ∈ bs}) = span T (rowVec n '' {v | v ∈ vs}) ∧
      LinearIndependent T (fun i : Fin bs.length => rowVec n bs[i.1]) := by
  obtain ⟨bs, h1, h2, h3, -, -⟩ := extendAll_ok n vs [] (Ech.nil _) h
  have hl : ∀ b ∈ bs, b.length = n := fun b hb => (h2.row b hb).1
  obtain ⟨c, hc, hp⟩ := h2.pivots
  refine ⟨bs, h1, hl, ⟨fun i => ⟨c i, (hp i).2⟩, ?_, ?_, ?_⟩, ?_, ?_⟩
  · intro i j hij; exact hc hij
  · intro i j hij
    exact (hp i).1.1 j.1 hij
  · intro i; exact (hp i).1.2
  · rw [rspan_nil, sup_bot_eq] at h3
    exact (rspan_eq_iff hl h).1 h3
  · exact (li_vecN hl).1 h2.li

/-- the matrix of a list of rows -/
def bM (c : Nat) (bs : List (List T)) : Matrix (Fin bs.length) (Fin c) T := fun i j => rent bs[i.1] j.1

theorem emb_bM {c : Nat} {bs : List (List T)} (hl : ∀ b ∈ bs, b.length = c) (i : Fin bs.length) :
    emb c ((bM c bs).row i) = bv bs i := emb_vecN (hl _ (List.getElem_mem i.2)).le

theorem repRows_matOf {c : Nat} {bs : List (List T)} (hE : Ech c bs) :
    RepRows (matOf c bs) (bM c bs) := by
  refine ⟨fun h => ?_, fun h => ?_⟩
  · have hne : bs ≠ [] := by intro h'; rw [h'] at h; simp at h
    have hc : 0 < c := by
      obtain ⟨p, -, hp⟩ := hE.pivots
      have := (hp ⟨0, h⟩).2; omega
    refine rep_of_ent (matOf_wf _ _) (matOf_nrows hc) (matOf_ncols hne) ?_
    intro i j
    rw [matOf_ent hne i.2 j.2, rw'_lt i.2]; rfl
  · have : bs = [] := List.length_eq_zero_iff.1 h
    subst this; rfl

theorem span_bM {c : Nat} {bs : List (List T)} (hl : ∀ b ∈ bs, b.length = c) :
    rspan bs = map (emb c) (span T (Set.range (bM c bs).row)) := by
  rw [map_span, rspan_eq_range, ← Set.range_comp]
  congr 2
  ext i
  simp only [Function.comp]
  rw [emb_bM hl]

theorem gen_reduced {m : Mat T} {r c : Nat} {M : Matrix (Fin r) (Fin c) T} (h : Rep m M) :
    ∃ bs, reducedBasis m = .ok (matOf c bs) ∧ Ech c bs ∧ RedEch bs ∧ RepRows (matOf c bs) (bM c bs) ∧
      span T (Set.range (bM c bs).row) = span T (Set.range M.row) ∧ rspan bs = map (emb c) (span T (Set.range M.row)) ∧
      bs.length ≤ r := by
  obtain ⟨bs, h1, h2, h3, h4, h5⟩ := reducedBasis_ok h.wf
  rw [h.cols] at h1 h2
  rw [h.rows] at h5
  rw [rspan_rowsL h] at h4
  refine ⟨bs, h1, h2, h3, repRows_matOf h2, ?_, h4, h5⟩
  rw [span_bM (fun b hb => (h2.row b hb).1)] at h4
  exact map_injective_of_injective (emb_inj c) h4

theorem mul_iff_isSol {m n k : Nat} {a b : Mat T} {A : Matrix (Fin m) (Fin n) T}
    {B : Matrix (Fin m) (Fin k) T} (ha : Rep a A) (hb : Rep b B) (X : Matrix (Fin n) (Fin k) T)
    (x : Nat → Nat → T) (hx : ∀ i j, x i.1 j.1 = X i j) :
    A * X = B ↔ IsSol a.nrows a.ncols b.ncols a.ent b.ent x := by
  rw [ha.rows, ha.cols, hb.cols]
  constructor
  · intro h i hi c hc
    have := congrFun (congrFun h ⟨i, hi⟩) ⟨c, hc⟩
    rw [Matrix.mul_apply] at this
    rw [Finset.sum_range, hb.ent ⟨i, hi⟩ ⟨c, hc⟩, ← this]
    apply Finset.sum_congr rfl
    intro j _
    rw [ha.ent ⟨i, hi⟩ j, hx j ⟨c, hc⟩]
  · intro h
    ext i c
    have := h i.1 i.2 c.1 c.2
    rw [Finset.sum_range, hb.ent] at this
    rw [Matrix.mul_apply, ← this]
    apply Finset.sum_congr rfl
    intro j _
    rw [ha.ent i j, hx]

theorem gen_solve {m n k : Nat} {a b : Mat T} {A : Matrix (Fin m) (Fin n) T}
    {B : Matrix (Fin m) (Fin k) T} (ha : Rep a A) (hb : Rep b B) (hnk : 0 < n → 0 < k) :
    (∃ x X, solve a b = .ok (some x) ∧ Rep x X ∧ A * X = B) ∨
    (solve a b = .ok none ∧ ¬ ∃ X : Matrix (Fin n) (Fin k) T, A * X = B) := by
  rcases solve_ok ha.wf hb.wf (by rw [ha.rows, hb.rows]) (by rw [ha.cols, hb.cols]; exact hnk) with
    ⟨x, h1, h2, h3, h4, h5⟩ | ⟨h1, h2⟩
  · left
    refine ⟨x, toM x n k, h1, rep_toM' h2 (by rw [h3, ha.cols]) (by rw [h4, hb.cols]), ?_⟩
    exact (mul_iff_isSol ha hb _ x.ent (fun i j => rfl)).2 h5
  · right
    refine ⟨h1, ?_⟩
    rintro ⟨X, hX⟩
    refine h2 (fun i j => if h : i < n ∧ j < k then X ⟨i, h.1⟩ ⟨j, h.2⟩ else 0) ?_
    exact (mul_iff_isSol ha hb X _ (fun i j => by simp)).1 hX

theorem gen_inverse {n : Nat} {a : Mat T} {A : Matrix (Fin n) (Fin n) T} (ha : Rep a A) :
    (∃ b B, inverse a = .ok (some b) ∧ Rep b B ∧ A * B = 1 ∧ B * A = 1) ∨
    (inverse a = .ok none ∧ ¬ IsUnit A.det) := by
  obtain ⟨i, hi, hI⟩ := rep_identity (T := T) n
  have : inverse a = solve a i := by
    unfold inverse
    rw [show rassert (decide (a.nrows = a.ncols)) = .ok () by simp [rassert, ha.rows, ha.cols]]
    simp only [Outcome.ok_bind]
    rw [ha.rows, hi]; rfl
  rw [this]
  rcases gen_solve ha hI id with ⟨x, X, h1, h2, h3⟩ | ⟨h1, h2⟩
  · exact Or.inl ⟨x, X, h1, h2, h3, mul_eq_one_comm.1 h3⟩
  · right
    refine ⟨h1, fun hu => h2 ?_⟩
    exact ⟨A⁻¹, Matrix.mul_nonsing_inv A hu⟩

theorem gen_nullSpace {m n : Nat} {a : Mat T} {A : Matrix (Fin m) (Fin n) T} (ha : Rep a A) (hm : 0 < m) :
    (∃ (x : Mat T) (d : Nat) (X : Matrix (Fin n) (Fin d) T), nullSpace a = .ok (some x) ∧ 0 < d ∧ Rep x X ∧
      A * X = 0 ∧ LinearIndependent T X.col ∧
      ∀ y : Fin n → T, A.mulVec y = 0 → ∃ g : Fin d → T, y = X.mulVec g) ∨
    (nullSpace a = .ok none ∧ ∀ y : Fin n → T, A.mulVec y = 0 → y = 0) := by
  have hker : ∀ y : Fin n → T, A.mulVec y = 0 →
      ∀ i, i < a.nrows → ∑ j ∈ Finset.range a.ncols, a.ent i j * (if h : j < n then y ⟨j, h⟩ else 0) = 0 := by
    intro y hy i hi
    rw [ha.rows] at hi
    have := congrFun hy ⟨i, hi⟩
    rw [Matrix.mulVec, dotProduct] at this
    rw [ha.cols, Finset.sum_range]
    refine Eq.trans (Finset.sum_congr rfl fun j _ => ?_) this
    rw [ha.ent ⟨i, hi⟩ j]; simp
  rcases nullSpace_ok ha.wf (by rw [ha.rows]; exact hm) with
    ⟨x, d, h1, h2, h3, h4, h5, h6, h7, h8⟩ | ⟨h1, h2⟩
  · left
    rw [ha.cols] at h3 h6 h7 h8
    rw [ha.rows] at h6 h8
    refine ⟨x, d, toM x n d, h1, h5, rep_toM' h2 h3 h4, ?_, ?_, ?_⟩
    · ext i c
      rw [Matrix.mul_apply]
      refine Eq.trans ?_ (h6 i.1 i.2 c.1 c.2)
      rw [Finset.sum_range]
      apply Finset.sum_congr rfl
      intro j _
      rw [ha.ent i j]; rfl
    · rw [Fintype.linearIndependent_iff]
      intro g hg c
      have := h7 (fun c => if h : c < d then g ⟨c, h⟩ else 0) ?_ c.1 c.2
      · simpa using this
      · intro j hj
        have := congrFun hg ⟨j, hj⟩
        simp only [Finset.sum_apply, Pi.smul_apply, smul_eq_mul, Pi.zero_apply] at this
        rw [Finset.sum_range]
        refine Eq.trans (Finset.sum_congr rfl fun c _ => ?_) this
        simp only [c.2, dif_pos]
        rw [mul_comm]; rfl
    · intro y hy
      have hk := hker y hy
      rw [ha.rows, ha.cols] at hk
      obtain ⟨g, hg⟩ := h8 _ hk
      refine ⟨fun c => g c.1, ?_⟩
      ext j
      have := hg j.1 j.2
      simp only [j.2, dif_pos] at this
      rw [this, Matrix.mulVec, dotProduct, Finset.sum_range]
      rfl
  · right
    refine ⟨h1, fun y hy => ?_⟩
    ext j
    have := h2 _ (hker y hy) j.1 (by rw [ha.cols]; exact j.2)
    simpa using this

theorem gen_solve_panic {a b : Mat T} (h : a.nrows ≠ b.nrows) : solve a b = .panic := by
  unfold solve
  simp [rassert, h]

theorem gen_inverse_panic {a : Mat T} (h : a.nrows ≠ a.ncols) : inverse a = .panic := by
  unfold inverse
  simp [rassert, h]

theorem gen_det_panic {a : Mat T} (h : a.nrows ≠ a.ncols) : determinant a = .panic := by
  unfold determinant
  rw [if_pos h]

/-! ### rank over a larger field -/

theorem span_map_field {K : Type} [Field K] (φ : T →+* K) {S : Set (Nat → T)} {f : Nat → T}
    (h : f ∈ span T S) : (fun j => φ (f j)) ∈ span K ((fun g : Nat → T => fun j => φ (g j)) '' S) := by
  induction h using span_induction with
  | mem x hx => exact subset_span ⟨x, hx, rfl⟩
  | zero => simp only [Pi.zero_apply, map_zero]; exact zero_mem _
  | add x y _ _ hx hy =>
    have : (fun j => φ ((x + y) j)) = (fun j => φ (x j)) + (fun j => φ (y j)) := by
      ext j; simp
    rw [this]; exact add_mem hx hy
  | smul a x _ hx =>
    have : (fun j => φ ((a • x) j)) = φ a • (fun j => φ (x j)) := by ext j; simp
    rw [this]; exact smul_mem _ _ hx

theorem gen_rank {m : Mat T} {r c : Nat} {M : Matrix (Fin r) (Fin c) T} (h : Rep m M) {K : Type} [Field K]
    (φ : T →+* K) (hφ : Function.Injective φ) : rank m = .ok (M.map φ).rank := by
  rw [rank_ok h.wf]
  congr 1
  obtain ⟨bs, -, h2, h3, -⟩ := rowBasis_ok h.wf
  rw [← h3, h2.finrank]
  obtain ⟨p, hp, hpv⟩ := h2.pivots
  let b' : Fin bs.length → Nat → K := fun i j => φ (bv bs i j)
  have hb' : ∀ i, Piv (b' i) (p i) := by
    intro i
    refine ⟨fun j hj => ?_, ?_⟩
    · show φ _ = 0; rw [(hpv i).1.1 j hj, map_zero]
    · show φ _ ≠ 0
      rw [Ne, map_eq_zero_iff φ hφ]; exact (hpv i).1.2
  have hli := piv_li hp hb'
  have hfr := finrank_span_eq_card hli
  rw [Fintype.card_fin] at hfr
  rw [← hfr, Matrix.rank_eq_finrank_span_row]
  have e1 : Set.range b' = (fun g : Nat → T => fun j => φ (g j)) '' {f | ∃ b ∈ bs, f = rent b} := by
    rw [← range_bv, ← Set.range_comp]; rfl
  have e2 : (emb c : (Fin c → K) →ₗ[K] (Nat → K)) '' Set.range (M.map φ).row =
      (fun g : Nat → T => fun j => φ (g j)) '' {f | ∃ b ∈ rowsL m, f = rent b} := by
    ext f
    constructor
    · rintro ⟨_, ⟨i, rfl⟩, rfl⟩
      refine ⟨rent (m.rowL i.1), ⟨_, List.mem_map.2 ⟨i.1, by rw [List.mem_range, h.rows]; exact i.2, rfl⟩, rfl⟩, ?_⟩
      rw [rent_rowL_rep h i]
      ext j
      by_cases hj : j < c
      · simp [emb, hj]
      · simp [emb, hj]
    · rintro ⟨_, ⟨b, hb, rfl⟩, rfl⟩
      obtain ⟨i, hi, rfl⟩ := List.mem_map.1 hb
      rw [List.mem_range, h.rows] at hi
      refine ⟨_, ⟨⟨i, hi⟩, rfl⟩, ?_⟩
      rw [rent_rowL_rep h ⟨i, hi⟩]
      ext j
      by_cases hj : j < c
      · simp [emb, hj]
      · simp [emb, hj]
  have key : span K (Set.range b') = map (emb c) (span K (Set.range (M.map φ).row)) := by
    rw [map_span, e1, e2]
    unfold rspan at h3
    apply le_antisymm
    · rw [span_le]
      rintro _ ⟨f, hf, rfl⟩
      apply span_map_field φ
      rw [← h3]; exact subset_span hf
    · rw [span_le]
      rintro _ ⟨f, hf, rfl⟩
      apply span_map_field φ
      rw [h3]; exact subset_span hf
  rw [key]
  exact (LinearEquiv.finrank_eq (equivMapOfInjective _ (emb_inj c) _)).symm

/-! ### uniqueness -/

theorem strictMono_unique {r r' : Nat} {c : Fin r → Nat} {c' : Fin r' → Nat} (hc : StrictMono c)
    (hc' : StrictMono c') (h : ∀ d, (∃ i, c i = d) ↔ ∃ i, c' i = d) :
    r = r' ∧ ∀ (i : Nat) (h1 : i < r) (h2 : i < r'), c ⟨i, h1⟩ = c' ⟨i, h2⟩ := by
  have hr : r = r' := by
    have e : Finset.univ.image c = Finset.univ.image c' := by
      ext d; simp only [Finset.mem_image, Finset.mem_univ, true_and]; exact h d
    have := congrArg Finset.card e
    rw [Finset.card_image_of_injective _ hc.injective, Finset.card_image_of_injective _ hc'.injective] at this
    simpa using this
  subst hr
  refine ⟨rfl, fun i h1 _ => ?_⟩
  induction i using Nat.strong_induction_on with
  | _ i ih =>
  have g : ∀ (c c' : Fin r → Nat), StrictMono c → StrictMono c' → (∀ d, (∃ i, c i = d) ↔ ∃ i, c' i = d) →
      (∀ k (hk : k < i), c ⟨k, by omega⟩ = c' ⟨k, by omega⟩) → c' ⟨i, h1⟩ ≤ c ⟨i, h1⟩ := by
    intro c c' hc hc' h ih
    obtain ⟨j, hj⟩ := (h (c ⟨i, h1⟩)).1 ⟨_, rfl⟩
    have hji : i ≤ j.1 := by
      by_contra hlt
      have e : c ⟨j.1, j.2⟩ = c' j := ih j.1 (by omega)
      have : c ⟨j.1, j.2⟩ < c ⟨i, h1⟩ := hc (by simp [Fin.lt_def]; omega)
      omega
    rw [← hj]
    exact hc'.monotone (by simpa [Fin.le_def] using hji)
  apply le_antisymm
  · exact g c' c hc' hc (fun d => (h d).symm) (fun k hk => (ih k hk (by omega) (by omega)).symm)
  · exact g c c' hc hc' h (fun k hk => ih k hk (by omega) (by omega))

theorem pivots_unique {n : Nat} {bs bs' : List (List T)} (hE : Ech n bs) (hE' : Ech n bs')
    (h : rspan bs = rspan bs') : bs.length = bs'.length ∧
      ∀ i, i < bs.length → ∀ c, Piv (rw' bs i) c ↔ Piv (rw' bs' i) c := by
  obtain ⟨c, hc, hp⟩ := hE.pivots
  obtain ⟨c', hc', hp'⟩ := hE'.pivots
  have hiff : ∀ d, (∃ i, c i = d) ↔ ∃ i, c' i = d := by
    intro d
    constructor
    · rintro ⟨i, rfl⟩
      refine piv_mem hc' (fun i => (hp' i).1) ?_ (hp i).1
      rw [← rspan_eq_range, ← h]; exact mem_rspan (List.getElem_mem i.2)
    · rintro ⟨i, rfl⟩
      refine piv_mem hc (fun i => (hp i).1) ?_ (hp' i).1
      rw [← rspan_eq_range, h]; exact mem_rspan (List.getElem_mem i.2)
  obtain ⟨hr, hcc⟩ := strictMono_unique hc hc' hiff
  refine ⟨hr, fun i hi d => ?_⟩
  have hi' : i < bs'.length := by omega
  have e := hcc i hi hi'
  have h1 : Piv (rw' bs i) (c ⟨i, hi⟩) := by rw [rw'_lt hi]; exact (hp ⟨i, hi⟩).1
  have h2 : Piv (rw' bs' i) (c' ⟨i, hi'⟩) := by rw [rw'_lt hi']; exact (hp' ⟨i, hi'⟩).1
  constructor
  · intro hd; rw [hd.unique h1, e]; exact h2
  · intro hd; rw [hd.unique h2, ← e]; exact h1

end Systre
