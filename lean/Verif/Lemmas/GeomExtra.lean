import Verif.Lemmas.Geometry
import Mathlib.Data.Rat.Floor
import Mathlib.Algebra.Order.Field.Basic
import Mathlib.Algebra.Order.AbsoluteValue.Basic
import Mathlib.Tactic.FieldSimp
import Mathlib.Tactic.Linarith

/-! Scalar products, coordinate maps, reduction modulo integers. -/

namespace Systre
open Mat Matrix

variable {n : Nat}

section
variable {T : Type} [CommRing T] [IsDomain T] [Scalar T] [DecidableEq T] [LawfulScalar T]

theorem rep_transpose_sq {m : Mat T} {M : Matrix (Fin n) (Fin n) T} (h : Rep m M) :
    ∃ m', m.transpose = .ok m' ∧ Rep m' M.transpose := by
  refine ⟨_, transpose_eq h.wf, ?_⟩
  rw [h.rows, h.cols]
  exact rep_ofFn' (fun h0 => h0) (fun i j => h.ent j i)

theorem rep_lead {m : Mat T} {M : Matrix (Fin n) (Fin n) T} (h : Rep m M) {k : Nat} (hk : k ≤ n) :
    ∃ s, m.submatrix 0 k 0 k = .ok s ∧ Rep s (leadK M k hk) := by
  refine ⟨_, submatrix_eq h.wf (by rw [h.rows]; exact hk) (by rw [h.cols]; exact hk) (by omega) (by omega), ?_⟩
  refine rep_ofFn' (fun h0 => h0) (fun i j => ?_)
  have := h.ent (i.castLE hk) (j.castLE hk)
  simpa [leadK] using this

theorem minorsLoop_ok [LT T] [DecidableLT T] {m : Mat T} {M : Matrix (Fin n) (Fin n) T} (h : Rep m M) (ks : List Nat)
    (hks : ∀ k ∈ ks, k ≤ n) :
    ((∀ k (hk : k ≤ n), k ∈ ks → 0 < (leadK M k hk).det) → ScalarProduct.minorsLoop m ks = .ok ()) ∧
    ((∃ k, ∃ hk : k ≤ n, k ∈ ks ∧ ¬ 0 < (leadK M k hk).det) → ScalarProduct.minorsLoop m ks = .panic) := by
  induction ks with
  | nil => simp [ScalarProduct.minorsLoop]
  | cons k ks ih =>
    have hk : k ≤ n := hks k (by simp)
    have ih := ih (fun k' h' => hks k' (by simp [h']))
    obtain ⟨s, h1, h2⟩ := rep_lead h hk
    have hd := determinant_rep h2
    have e : ScalarProduct.minorsLoop m (k :: ks) =
        (rassert (decide (0 < (leadK M k hk).det)) >>= fun _ => ScalarProduct.minorsLoop m ks) := by
      rw [ScalarProduct.minorsLoop, bind_ok h1, bind_ok hd]
    rw [e]
    constructor
    · intro hall
      rw [bind_ok (rassert_true (by simpa using hall k hk (by simp)))]
      exact ih.1 (fun k' hk' hm => hall k' hk' (by simp [hm]))
    · rintro ⟨k', hk', hm, hneg⟩
      by_cases hp : 0 < (leadK M k hk).det
      · rw [bind_ok (rassert_true (by simpa using hp))]
        refine ih.2 ⟨k', hk', ?_, hneg⟩
        rcases List.mem_cons.1 hm with rfl | hm
        · exact absurd hp hneg
        · exact hm
      · simp [rassert, hp]

theorem ofMat_gen [LT T] [DecidableLT T] {m : Mat T} {M : Matrix (Fin n) (Fin n) T} (h : Rep m M) :
    (M.IsSymm ∧ (∀ k (hk : k ≤ n), 0 < k → 0 < (leadK M k hk).det) → ScalarProduct.ofMat m = .ok ⟨m⟩) ∧
    (¬ (M.IsSymm ∧ (∀ k (hk : k ≤ n), 0 < k → 0 < (leadK M k hk).det)) → ScalarProduct.ofMat m = .panic) := by
  obtain ⟨t, ht, rt⟩ := rep_transpose_sq h
  have hs : m = t ↔ M.IsSymm := by
    constructor
    · intro e; subst e; exact rt.inj h
    · intro e; rw [e.eq] at rt; exact rep_unique h rt
  have hm := minorsLoop_ok h ((List.range m.nrows).map (· + 1)) (by
    intro k hk; rw [h.rows] at hk; simp at hk; omega)
  have hk : ∀ k, k ≤ n → 0 < k → k ∈ (List.range m.nrows).map (· + 1) := by
    intro k hk h0
    rw [h.rows]
    simp only [List.mem_map, List.mem_range]
    exact ⟨k - 1, by omega, by omega⟩
  unfold ScalarProduct.ofMat
  rw [bind_ok ht]
  constructor
  · rintro ⟨h1, h2⟩
    rw [bind_ok (rassert_true (by simpa using hs.2 h1))]
    rw [bind_ok (hm.1 ?_)]
    intro k hk' hmem
    refine h2 k hk' ?_
    simp at hmem; omega
  · intro hn
    by_cases h1 : M.IsSymm
    · rw [bind_ok (rassert_true (by simpa using hs.2 h1))]
      rw [hm.2]
      · rfl
      · by_contra hcon
        refine hn ⟨h1, fun k hk1 hk2 => ?_⟩
        by_contra hk3
        exact hcon ⟨k, hk1, hk k hk1 hk2, hk3⟩
    · have : ¬ m = t := fun e => h1 (hs.1 e)
      simp [rassert, this]

end

theorem ofMat_ok {m : Mat ℚ} {M : Matrix (Fin n) (Fin n) ℚ} (h : Rep m M) :
    (M.IsSymm ∧ PosDefQ M → ScalarProduct.ofMat m = .ok ⟨m⟩) ∧
    (¬ (M.IsSymm ∧ PosDefQ M) → ScalarProduct.ofMat m = .panic) := by
  have e : (M.IsSymm ∧ PosDefQ M) ↔ (M.IsSymm ∧ (∀ k (hk : k ≤ n), 0 < k → 0 < (leadK M k hk).det)) :=
    and_congr_right fun h => sylvester M h
  rw [e]
  exact ofMat_gen h

/-- positive definite on integer vectors is positive definite on rational vectors -/
theorem posDefZ_iff (M : Matrix (Fin n) (Fin n) ℤ) : PosDefZ M ↔ PosDefQ (M.map (fun z => (z : ℚ))) := by
  have hcast : ∀ x : Fin n → ℤ, ((x ⬝ᵥ M.mulVec x : ℤ) : ℚ) =
      (fun i => (x i : ℚ)) ⬝ᵥ (M.map (fun z => (z : ℚ))).mulVec (fun i => (x i : ℚ)) := by
    intro x
    simp only [dotProduct, mulVec, Matrix.map_apply]
    push_cast
    rfl
  constructor
  · intro h x hx
    -- a common denominator
    let N : ℕ := ∏ i, (x i).den
    have hN : 0 < N := Finset.prod_pos fun i _ => (x i).den_pos
    have hd : ∀ i, ∃ z : ℤ, (z : ℚ) = N * x i := by
      intro i
      obtain ⟨k, hk⟩ := Finset.dvd_prod_of_mem (fun i => (x i).den) (Finset.mem_univ i)
      refine ⟨k * (x i).num, ?_⟩
      have h1 : ((N : ℕ) : ℚ) = ((x i).den : ℚ) * (k : ℚ) := by
        rw [show N = (x i).den * k from hk]; push_cast; rfl
      have h2 : (x i) * ((x i).den : ℚ) = (x i).num := Rat.mul_den_eq_num _
      push_cast
      rw [h1, ← h2]
      ring
    choose y hy using hd
    have hNq : (0 : ℚ) < N := by exact_mod_cast hN
    have hy' : (fun i => (y i : ℚ)) = (N : ℚ) • x := by
      funext i; rw [hy i]; rfl
    have hy0 : y ≠ 0 := by
      intro h0
      apply hx
      funext i
      have := hy i
      rw [h0] at this
      simp at this
      rcases this with h | h
      · exact absurd h hN.ne'
      · exact h
    have := h y hy0
    have h3 : (0 : ℚ) < ((y ⬝ᵥ M.mulVec y : ℤ) : ℚ) := by exact_mod_cast this
    rw [hcast, hy', Matrix.mulVec_smul, dotProduct_smul, smul_dotProduct] at h3
    simp only [smul_eq_mul] at h3
    exact (mul_pos_iff_of_pos_left hNq).1 ((mul_pos_iff_of_pos_left hNq).1 h3)
  · intro h x hx
    have := h (fun i => (x i : ℚ)) (by
      intro h0; apply hx; funext i; exact Int.cast_eq_zero.1 (congrFun h0 i))
    rw [← hcast] at this
    exact_mod_cast this

theorem ofMat_int {m : Mat ℤ} {M : Matrix (Fin n) (Fin n) ℤ} (h : Rep m M) :
    (M.IsSymm ∧ PosDefZ M → ScalarProduct.ofMat m = .ok ⟨m⟩) ∧
    (¬ (M.IsSymm ∧ PosDefZ M) → ScalarProduct.ofMat m = .panic) := by
  have e : (M.IsSymm ∧ PosDefZ M) ↔ (M.IsSymm ∧ (∀ k (hk : k ≤ n), 0 < k → 0 < (leadK M k hk).det)) := by
    refine and_congr_right fun hs => ?_
    rw [posDefZ_iff, sylvester _ (by rw [Matrix.IsSymm, ← Matrix.transpose_map, hs.eq])]
    refine forall_congr' fun k => forall_congr' fun hk => forall_congr' fun _ => ?_
    have : (leadK (M.map (fun z => (z : ℚ))) k hk).det = (((leadK M k hk).det : ℤ) : ℚ) := by
      have := (Int.castRingHom ℚ).map_det (leadK M k hk)
      rw [show ((leadK M k hk).det : ℚ) = (Int.castRingHom ℚ) (leadK M k hk).det from rfl, this]
      rfl
    rw [this]
    exact_mod_cast Iff.rfl
  rw [e]
  exact ofMat_gen h

theorem transpose_shape {T : Type} [Zero T] {m t : Mat T} (hw : m.WF) (h : m.transpose = .ok t) (he : m = t) :
    m.nrows = m.ncols := by
  rw [transpose_eq hw] at h
  have h := Outcome.ok.inj h
  rw [← he] at h
  have := congrArg Mat.ncols h
  simpa [ofFn] using this

theorem ofMat_nonsquare {T : Type} [CommRing T] [Scalar T] [DecidableEq T] [LT T] [DecidableLT T] {m : Mat T} (hw : m.WF) (h : m.nrows ≠ m.ncols) :
    ScalarProduct.ofMat m = .panic := by
  unfold ScalarProduct.ofMat
  have ht := transpose_eq hw
  rw [bind_ok ht]
  have : ¬ m = ofFn m.ncols m.nrows (fun i j => m.ent j i) := by
    intro e; exact h (transpose_shape hw ht e)
  simp only [rassert, this, decide_false]
  rfl

theorem gridData_sum {T : Type} [CommRing T] (r c : Nat) (f : Nat → Nat → T) :
    (gridData r c f).sum = ∑ i : Fin r, ∑ j : Fin c, f i.1 j.1 := by
  induction r with
  | zero => simp [gridData]
  | succ r ih =>
    rw [gridData_succ, List.sum_append, ih, Fin.sum_univ_castSucc]
    simp [Fin.sum_univ_def, ← List.ofFn_eq_map]
    rw [← List.map_coe_finRange_eq_range, List.map_map, List.ofFn_eq_map]; rfl

theorem apply_ok {T : Type} [CommRing T] {d : ScalarProduct T} {G : Matrix (Fin n) (Fin n) T} {u v : Vec T} {x y : Fin n → T}
    (hd : Rep d.coeffs G) (hu : IsVec u x) (hv : IsVec v y) :
    d.apply u v = .ok (x ⬝ᵥ G.mulVec y) := by
  unfold ScalarProduct.apply
  rw [bind_ok (rassert_true (by simp [hu.dim_eq, hd.rows])),
    bind_ok (rassert_true (by simp [hv.dim_eq, hd.rows]))]
  rw [hu.dim_eq]
  have hg := grid_ok (nr := n) (nc := n) (f := fun i j => do
    let ui ← u.get i
    let c ← d.coeffs.get i j
    let vj ← v.get j
    .ok (ui * c * vj)) (g := fun i j => if h : i < n ∧ j < n then x ⟨i, h.1⟩ * G ⟨i, h.1⟩ ⟨j, h.2⟩ * y ⟨j, h.2⟩ else 0) (by
      intro i hi j hj
      have h1 := hu.get ⟨i, hi⟩
      have h2 := hd.entry ⟨i, hi⟩ ⟨j, hj⟩
      have h3 := hv.get ⟨j, hj⟩
      simp only at h1 h2 h3
      rw [bind_ok h1, bind_ok h2, bind_ok h3]
      simp [hi, hj])
  rw [bind_ok hg, foldl_add_sum, zero_add, gridData_sum]
  simp only [dotProduct, mulVec, Finset.mul_sum]
  congr 1
  apply Finset.sum_congr rfl; intro i _
  apply Finset.sum_congr rfl; intro j _
  simp [mul_assoc]

/-! ### reduction modulo ℤ -/

theorem rem1_eq (q : ℚ) : rem1 q = q - ((q.num.tdiv q.den : ℤ) : ℚ) := by
  have hd : (q.den : ℚ) ≠ 0 := by exact_mod_cast q.den_nz
  have h := Int.tmod_add_mul_tdiv q.num q.den
  have h' : ((q.num.tmod q.den : ℤ) : ℚ) = q.num - q.den * ((q.num.tdiv q.den : ℤ) : ℚ) := by
    rw [eq_sub_iff_add_eq]
    exact_mod_cast h
  unfold rem1
  rw [h', sub_div, Rat.num_div_den, mul_div_cancel_left₀ _ hd]

theorem rem1_abs (q : ℚ) : |rem1 q| < 1 := by
  have hd : (0 : ℚ) < q.den := by exact_mod_cast q.den_pos
  unfold rem1
  rw [abs_div, abs_of_pos hd, div_lt_one hd]
  have h := Int.natAbs_tmod q.num q.den
  have h1 : (q.num.tmod q.den).natAbs < q.den := by
    rw [h]; simpa using Nat.mod_lt _ q.den_pos
  rw [← Int.cast_abs, Int.abs_eq_natAbs]
  exact_mod_cast h1

theorem rem1_nonneg {q : ℚ} (h : 0 ≤ q) : 0 ≤ rem1 q := by
  unfold rem1
  apply div_nonneg _ (by positivity)
  exact_mod_cast Int.tmod_nonneg _ (Rat.num_nonneg.2 h)

theorem rem1_nonpos {q : ℚ} (h : q ≤ 0) : rem1 q ≤ 0 := by
  unfold rem1
  apply div_nonpos_of_nonpos_of_nonneg _ (by positivity)
  have h0 : q.num ≤ 0 := Rat.num_nonpos.2 h
  have : (q.num.tmod q.den : ℤ) ≤ 0 := by
    have h1 := Int.tmod_nonneg (q.den : ℤ) (a := -q.num) (by omega)
    rw [Int.neg_tmod] at h1; omega
  exact_mod_cast this

theorem int_of_abs_lt_one {z : ℤ} (h : |(z : ℚ)| < 1) : z = 0 := by
  rw [← Int.cast_abs] at h
  have : |z| < 1 := by exact_mod_cast h
  exact Int.abs_lt_one_iff.1 this

theorem rem1_of_abs_lt {q : ℚ} (h : |q| < 1) : rem1 q = q := by
  rw [rem1_eq, sub_eq_self]
  have hd : (0 : ℚ) < q.den := by exact_mod_cast q.den_pos
  have : q.num.tdiv q.den = 0 := by
    rw [← Rat.num_div_den q, abs_div, abs_of_pos hd, div_lt_one hd, ← Int.cast_abs, Int.abs_eq_natAbs] at h
    have : q.num.natAbs < q.den := by exact_mod_cast h
    rw [← Int.natAbs_eq_zero, Int.natAbs_tdiv]
    exact Nat.div_eq_of_lt this
  rw [this]; rfl

/-- exactly when two rationals have the same remainder -/
theorem rem1_eq_iff (x y : ℚ) :
    rem1 x = rem1 y ↔ (∃ z : ℤ, x - y = z) ∧ ((∃ z : ℤ, x = z) ∨ (0 < x ↔ 0 < y)) := by
  have key : ∀ q : ℚ, (∃ z : ℤ, q = z) ↔ rem1 q = 0 := by
    intro q
    constructor
    · rintro ⟨z, rfl⟩
      have h1 := rem1_abs (z : ℚ)
      rw [rem1_eq] at h1 ⊢
      rw [← Int.cast_sub] at h1 ⊢
      rw [int_of_abs_lt_one h1]; rfl
    · intro h
      rw [rem1_eq, sub_eq_zero] at h
      exact ⟨_, h⟩
  have hpos : ∀ q : ℚ, rem1 q ≠ 0 → (0 < q ↔ 0 < rem1 q) := by
    intro q h
    constructor
    · intro hq; exact lt_of_le_of_ne (rem1_nonneg hq.le) (Ne.symm h)
    · intro hq
      by_contra hn
      exact absurd (rem1_nonpos (not_lt.1 hn)) (not_le.2 hq)
  constructor
  · intro h
    have h1 := rem1_eq x
    have h2 := rem1_eq y
    refine ⟨⟨x.num.tdiv x.den - y.num.tdiv y.den, ?_⟩, ?_⟩
    · push_cast; linarith
    · by_cases h0 : rem1 x = 0
      · exact Or.inl ((key x).2 h0)
      · right
        rw [hpos x h0, hpos y (by rw [← h]; exact h0), h]
  · rintro ⟨⟨z, hz⟩, h⟩
    by_cases h0 : rem1 x = 0
    · obtain ⟨w, hw⟩ := (key x).2 h0
      rw [h0]
      exact ((key y).1 ⟨w - z, by push_cast; linarith⟩).symm
    · have hy0 : rem1 y ≠ 0 := by
        intro e
        obtain ⟨w, hw⟩ := (key y).2 e
        exact h0 ((key x).1 ⟨w + z, by push_cast; linarith⟩)
      have hs : 0 < x ↔ 0 < y := by
        rcases h with h | h
        · exact absurd ((key x).1 h) h0
        · exact h
      have hx1 := rem1_abs x
      have hy1 := rem1_abs y
      have hd : rem1 x - rem1 y = ((z - x.num.tdiv x.den + y.num.tdiv y.den : ℤ) : ℚ) := by
        rw [rem1_eq, rem1_eq]; push_cast; linarith
      have habs : |rem1 x - rem1 y| < 1 := by
        rw [abs_lt] at hx1 hy1 ⊢
        rcases lt_or_gt_of_ne h0 with hx | hx
        · have : ¬ 0 < y := by rw [← hs, hpos x h0]; exact not_lt.2 hx.le
          have := rem1_nonpos (not_lt.1 this)
          constructor <;> linarith
        · have : 0 < rem1 y := by rw [← hpos y hy0, ← hs, hpos x h0]; exact hx
          constructor <;> linarith
      rw [hd] at habs
      have := int_of_abs_lt_one habs
      rw [this] at hd
      simp at hd
      linarith

/-! ### coordinate maps -/

section
variable {T : Type} [CommRing T] [IsDomain T] [Scalar T] [DecidableEq T] [LawfulScalar T]

theorem coord_new_gen {a : AffineMap T} {A : Matrix (Fin n) (Fin n) T} {s : Fin n → T} (ha : IsAff a A s) :
    (IsUnit A.det → ∃ c B t, CoordMap.new a = .ok c ∧ IsCoordMap c A B s t) ∧
    (¬ IsUnit A.det → CoordMap.new a = .panic) := by
  unfold CoordMap.new
  rcases aff_inverse_gen ha with ⟨b, B, h1, h2, h3, h4⟩ | ⟨h1, h2⟩
  · have hdet : IsUnit A.det := by
      have := congrArg Matrix.det h3
      rw [Matrix.det_mul, Matrix.det_one] at this
      exact IsUnit.of_mul_eq_one _ this
    refine ⟨fun _ => ⟨⟨a, b⟩, B, _, ?_, ha, h2, h3, h4, ?_, ?_⟩, fun h0 => absurd hdet h0⟩
    · rw [bind_ok h1]; rfl
    · intro y
      rw [Matrix.mulVec_add, Matrix.mulVec_mulVec, h3, Matrix.mulVec_neg, Matrix.mulVec_mulVec, h3]
      simp
    · intro x
      rw [Matrix.mulVec_add, Matrix.mulVec_mulVec, h4]
      simp
  · refine ⟨fun h0 => absurd h0 h2, fun _ => ?_⟩
    rw [bind_ok h1]; rfl

theorem IsCoordMap.symm {c : CoordMap T} {A B : Matrix (Fin n) (Fin n) T} {s t : Fin n → T}
    (h : IsCoordMap c A B s t) : IsCoordMap c.inverse B A t s :=
  ⟨h.2.1, h.1, h.2.2.2.1, h.2.2.1, h.2.2.2.2.2, h.2.2.2.2.1⟩

theorem coord_mul {c d : CoordMap T} {A B A' B' : Matrix (Fin n) (Fin n) T} {s t s' t' : Fin n → T}
    (h : IsCoordMap c A B s t) (h' : IsCoordMap d A' B' s' t') :
    ∃ e, c.mul d = .ok e ∧ IsCoordMap e (A * A') (B' * B) (A.mulVec s' + s) (B'.mulVec t + t') := by
  obtain ⟨f, h1, h2⟩ := aff_mul h.1 h'.1
  obtain ⟨b, h3, h4⟩ := aff_mul h'.2.1 h.2.1
  refine ⟨⟨f, b⟩, by unfold CoordMap.mul; rw [bind_ok h1, bind_ok h3], h2, h4, ?_, ?_, ?_, ?_⟩
  · rw [Matrix.mul_assoc, ← Matrix.mul_assoc A', h'.2.2.1, Matrix.one_mul, h.2.2.1]
  · rw [Matrix.mul_assoc, ← Matrix.mul_assoc B, h.2.2.2.1, Matrix.one_mul, h'.2.2.2.1]
  · intro y
    have e1 := h.2.2.2.2.1 y
    have e2 := h'.2.2.2.2.1 (B.mulVec y + t)
    rw [← Matrix.mulVec_mulVec, ← Matrix.mulVec_mulVec]
    have : A'.mulVec (B'.mulVec (B.mulVec y) + (B'.mulVec t + t')) + s' = B.mulVec y + t := by
      rw [← e2, Matrix.mulVec_add B', add_assoc]
    calc _ = A.mulVec (A'.mulVec (B'.mulVec (B.mulVec y) + (B'.mulVec t + t')) + s') + s := by
          rw [Matrix.mulVec_add A, add_assoc]
      _ = y := by rw [this, e1]
  · intro y
    have e1 := h'.2.2.2.2.2 y
    have e2 := h.2.2.2.2.2 (A'.mulVec y + s')
    rw [← Matrix.mulVec_mulVec, ← Matrix.mulVec_mulVec]
    have : B.mulVec (A.mulVec (A'.mulVec y) + (A.mulVec s' + s)) + t = A'.mulVec y + s' := by
      rw [← e2, Matrix.mulVec_add A, add_assoc]
    calc _ = B'.mulVec (B.mulVec (A.mulVec (A'.mulVec y) + (A.mulVec s' + s)) + t) + t' := by
          rw [Matrix.mulVec_add B', add_assoc]
      _ = y := by rw [this, e1]

theorem hent_cols {parts : List (Mat T)} (h : ∀ p ∈ parts, p.ncols = 1) (i j : Nat) (hj : j < parts.length) :
    hent parts i j = (parts[j]).ent i 0 := by
  induction parts generalizing j with
  | nil => simp at hj
  | cons p ps ih =>
    have hp := h p (by simp)
    unfold hent
    rw [hp]
    rcases j with _ | j
    · simp
    · rw [if_neg (by omega)]
      simp only [Nat.add_sub_cancel, List.getElem_cons_succ]
      exact ih (fun q hq => h q (by simp [hq])) j (by simpa using hj)

/-- the matrix whose columns are the basis vectors -/
theorem hstack_basis {bs : List (Vec T)} (hl : bs.length = n) (x : Fin n → Fin n → T)
    (hx : ∀ k : Fin n, IsVec (bs[k.1]'(by omega)) (x k)) :
    ∃ m, Mat.hstack (bs.map Vec.coords) = .ok m ∧ Rep m (Matrix.of fun i k => x k i) := by
  rcases Nat.eq_zero_or_pos n with h0 | h0
  · subst h0
    have : bs = [] := List.length_eq_zero_iff.1 hl
    subst this
    exact ⟨⟨0, 0, []⟩, rfl, rfl, rfl, rfl, by simp, fun i => i.elim0⟩
  · have hmem : ∀ p ∈ bs.map Vec.coords, ∃ y : Fin n → T, Rep p (colM y) := by
      intro p hp
      rw [List.mem_map] at hp
      obtain ⟨b, hb, rfl⟩ := hp
      obtain ⟨k, hk, rfl⟩ := List.getElem_of_mem hb
      exact ⟨_, hx ⟨k, by omega⟩⟩
    have hw : ∀ p ∈ bs.map Vec.coords, p.WF := fun p hp => by
      obtain ⟨y, hy⟩ := hmem p hp; exact hy.wf
    have hr : ∀ p ∈ bs.map Vec.coords, p.nrows = n := fun p hp => by
      obtain ⟨y, hy⟩ := hmem p hp; exact hy.rows
    have hc : ∀ p ∈ bs.map Vec.coords, p.ncols = 1 := fun p hp => by
      obtain ⟨y, hy⟩ := hmem p hp; exact hy.cols
    have hne : bs.map Vec.coords ≠ [] := by
      intro h; have := congrArg List.length h; simp at this; subst this; simp at hl; omega
    refine ⟨_, hstack_eq hne hw hr, ?_⟩
    have hsum : ((bs.map Vec.coords).map (·.ncols)).sum = n := by
      rw [List.map_congr_left (g := fun _ => 1) (fun p hp => hc p hp)]
      simp [hl, Function.comp_def]
    rw [hsum]
    refine rep_ofFn' (fun _ => h0) (fun i j => ?_)
    rw [hent_cols hc i.1 j.1 (by simpa [hl] using j.2)]
    have h1 := Rep.ent (hx j) i 0
    simpa using h1

theorem fromBasis_gen {bs : List (Vec T)} (hl : bs.length = n) (x : Fin n → Fin n → T)
    (hx : ∀ k : Fin n, IsVec (bs[k.1]'(by omega)) (x k)) :
    (IsUnit (Matrix.of fun i k => x k i).det → ∃ c B t, CoordMap.fromBasis bs = .ok c ∧
      IsCoordMap c (Matrix.of fun i k => x k i) B 0 t) ∧
    (¬ IsUnit (Matrix.of fun i k => x k i).det → CoordMap.fromBasis bs = .panic) := by
  obtain ⟨m, h1, h2⟩ := hstack_basis hl x hx
  obtain ⟨a, h3, h4⟩ := aff_ofMat h2
  have e : CoordMap.fromBasis bs = CoordMap.new a := by
    unfold CoordMap.fromBasis; rw [bind_ok h1, bind_ok h3]
  rw [e]
  exact coord_new_gen h4

theorem built_coord {c : CoordMap T} (h : BuiltCoordMap n c) : ∃ A B s t, IsCoordMap (n := n) c A B s t := by
  induction h with
  | @new a A s c ha hc =>
    obtain ⟨h1, h2⟩ := coord_new_gen ha
    by_cases hd : IsUnit A.det
    · obtain ⟨c', B, t, h3, h4⟩ := h1 hd
      rw [h3] at hc; cases hc; exact ⟨_, _, _, _, h4⟩
    · rw [h2 hd] at hc; cases hc
  | @identity c hc =>
    obtain ⟨a, h1, h2⟩ := aff_identity (T := T) n
    unfold CoordMap.identity at hc
    rw [bind_ok h1] at hc
    obtain ⟨c', B, t, h3, h4⟩ := (coord_new_gen h2).1 (by simp)
    rw [h3] at hc; cases hc; exact ⟨_, _, _, _, h4⟩
  | @fromBasis bs c hl hb hc =>
    choose! f hf using hb
    have hx : ∀ k : Fin n, IsVec (bs[k.1]'(by omega)) (f (bs[k.1]'(by omega))) := fun k => hf _ (List.getElem_mem _)
    obtain ⟨h1, h2⟩ := fromBasis_gen hl (fun k => f (bs[k.1]'(by omega))) hx
    by_cases hd : IsUnit (Matrix.of fun i k : Fin n => f (bs[k.1]'(by omega)) i).det
    · obtain ⟨c', B, t, h3, h4⟩ := h1 hd
      rw [h3] at hc; cases hc; exact ⟨_, _, _, _, h4⟩
    · rw [h2 hd] at hc; cases hc
  | @toBasis bs c hl hb hc =>
    choose! f hf using hb
    have hx : ∀ k : Fin n, IsVec (bs[k.1]'(by omega)) (f (bs[k.1]'(by omega))) := fun k => hf _ (List.getElem_mem _)
    obtain ⟨h1, h2⟩ := fromBasis_gen hl (fun k => f (bs[k.1]'(by omega))) hx
    unfold CoordMap.toBasis at hc
    by_cases hd : IsUnit (Matrix.of fun i k : Fin n => f (bs[k.1]'(by omega)) i).det
    · obtain ⟨c', B, t, h3, h4⟩ := h1 hd
      rw [bind_ok h3] at hc; cases hc; exact ⟨_, _, _, _, h4.symm⟩
    · rw [h2 hd] at hc; cases hc
  | inverse _ ih =>
    obtain ⟨A, B, s, t, h⟩ := ih
    exact ⟨_, _, _, _, h.symm⟩
  | mul _ _ he ih1 ih2 =>
    obtain ⟨A, B, s, t, h⟩ := ih1
    obtain ⟨A', B', s', t', h'⟩ := ih2
    obtain ⟨e, h1, h2⟩ := coord_mul h h'
    rw [h1] at he; cases he; exact ⟨_, _, _, _, h2⟩

theorem vec_unit (k : Fin n) : ∃ v : Vec T, Vec.unit n k.1 = .ok v ∧ IsVec v (Pi.single k (1 : T)) := by
  obtain ⟨z, h1, h2⟩ := vec_zero (T := T) n
  have hr : k.1 < z.coords.nrows := by rw [h2.rows]; exact k.2
  have hz : z.coords.data.length = n := by rw [h2.size]; simp
  have hs : z.coords.set k.1 0 1 = .ok { z.coords with data := z.coords.data.set k.1 1 } := by
    have hc := h2.cols
    unfold Mat.set
    simp [hz, vecSet, hc]
  refine ⟨⟨{ z.coords with data := z.coords.data.set k.1 1 }⟩, ?_, ?_⟩
  · unfold Vec.unit
    rw [bind_ok (rassert_true (by simp)), bind_ok h1]
    unfold Vec.set
    rw [bind_ok hs]
  · refine ⟨h2.rows, h2.cols, by simp [hz], by simp, ?_⟩
    intro i j
    have hj : j.1 = 0 := by omega
    have hd := rep_col_data h2
    have hc := h2.cols
    simp only [Mat.get, hc, Matrix.of_apply, hj, hd, Nat.mul_one, List.length_set, List.length_ofFn,
      Nat.add_zero]
    rw [if_pos i.2, if_pos (by omega)]
    rw [vecGet_eq_ok, List.getElem?_set]
    by_cases hik : k.1 = i.1
    · have : k = i := Fin.ext hik
      subst this; simp
    · rw [if_neg hik]
      have : i ≠ k := fun h => hik (by rw [h])
      simp [Pi.single_eq_of_ne this]

end

theorem coord_new {a : AffineMap ℚ} {A : Matrix (Fin n) (Fin n) ℚ} {s : Fin n → ℚ} (ha : IsAff a A s) :
    (A.det ≠ 0 → ∃ c B t, CoordMap.new a = .ok c ∧ IsCoordMap c A B s t) ∧
    (A.det = 0 → CoordMap.new a = .panic) := by
  obtain ⟨h1, h2⟩ := coord_new_gen ha
  exact ⟨fun h => h1 (isUnit_iff_ne_zero.2 h), fun h => h2 (by simp [h])⟩

theorem fromBasis_ok {bs : List (Vec ℚ)} (hl : bs.length = n) (x : Fin n → Fin n → ℚ)
    (hx : ∀ k : Fin n, IsVec (bs[k.1]'(by omega)) (x k)) :
    (LinearIndependent ℚ x → ∃ c B t, CoordMap.fromBasis bs = .ok c ∧
      IsCoordMap c (Matrix.of fun i k => x k i) B 0 t) ∧
    (¬ LinearIndependent ℚ x → CoordMap.fromBasis bs = .panic) := by
  have hli : LinearIndependent ℚ x ↔ IsUnit (Matrix.of fun i k => x k i).det := by
    rw [← Matrix.isUnit_iff_isUnit_det, ← Matrix.linearIndependent_cols_iff_isUnit]
    rfl
  rw [hli]
  exact fromBasis_gen hl x hx

theorem vec_set {T : Type} [Zero T] {v : Vec T} {x : Fin n → T} (hv : IsVec v x) (i : Fin n) (a : T) :
    ∃ r, v.set i a = .ok r ∧ IsVec r (Function.update x i a) := by
  obtain ⟨m, h1, h2⟩ := rep_set hv i 0 a
  refine ⟨⟨m⟩, by unfold Vec.set; exact bind_ok h1, ?_⟩
  have e : (Matrix.of fun k (l : Fin 1) => if k = i ∧ l = 0 then a else
      (Matrix.of fun i (_ : Fin 1) => x i) k l) = Matrix.of fun k (_ : Fin 1) => Function.update x i a k := by
    ext k l
    have : l = 0 := Subsingleton.elim _ _
    simp [this, Function.update_apply]
  rw [e] at h2
  exact h2

theorem vec_unit_ring {T : Type} [CommRing T] (k : Fin n) :
    ∃ v : Vec T, Vec.unit n k.1 = .ok v ∧ IsVec v (Pi.single k (1 : T)) := by
  obtain ⟨z, h1, h2⟩ := vec_zero (T := T) n
  obtain ⟨r, h3, h4⟩ := vec_set h2 k 1
  refine ⟨r, ?_, h4⟩
  unfold Vec.unit
  rw [bind_ok (rassert_true (by simp)), bind_ok h1]
  exact h3

end Systre
