import Verif.Spec.Finder
import Verif.Lemmas.Rotation
import Verif.Lemmas.GeomExtra
import Verif.Lemmas.ConfigSpace
import Verif.Lemmas.Determinant
import Verif.Spec.Lattices

/-! Helper lemmas about finder.rs. -/

namespace Systre.Finder
open Matrix

variable {n : Nat}

theorem rep_eq_iff {a b : Mat ℚ} {A B : Matrix (Fin n) (Fin n) ℚ} (ha : Rep a A) (hb : Rep b B) : a = b ↔ A = B := by
  constructor
  · rintro rfl; exact ha.inj hb
  · rintro rfl; exact rep_unique ha hb

theorem orderLoop_ok {m i : Mat ℚ} {M : Matrix (Fin n) (Fin n) ℚ} (hm : Rep m M) (hi : Rep i (1 : Matrix (Fin n) (Fin n) ℚ)) :
    ∀ (todo k : Nat) (a : Mat ℚ), Rep a (M ^ k) → ∃ r, orderLoop m i todo (k + 1) a = .ok r ∧
      ((r = 0 ∧ ∀ j, k < j → j ≤ k + todo → M ^ j ≠ 1) ∨
        (k < r ∧ r ≤ k + todo ∧ M ^ r = 1 ∧ ∀ j, k < j → j < r → M ^ j ≠ 1))
  | 0, k, a, _ => ⟨0, rfl, Or.inl ⟨rfl, fun j h1 h2 => by omega⟩⟩
  | todo + 1, k, a, ha => by
    obtain ⟨b, h1, h2⟩ := rep_mul ha hm
    rw [← pow_succ] at h2
    unfold orderLoop
    rw [bind_ok h1]
    by_cases he : b = i
    · rw [if_pos he]
      exact ⟨k + 1, rfl, Or.inr ⟨by omega, by omega, (rep_eq_iff h2 hi).1 he, fun j h3 h4 => by omega⟩⟩
    · rw [if_neg he]
      have hne : M ^ (k + 1) ≠ 1 := fun h => he ((rep_eq_iff h2 hi).2 h)
      obtain ⟨r, h3, h4⟩ := orderLoop_ok hm hi todo (k + 1) b h2
      refine ⟨r, h3, ?_⟩
      rcases h4 with ⟨h4, h5⟩ | ⟨h4, h5, h6, h7⟩
      · refine Or.inl ⟨h4, fun j h6 h7 => ?_⟩
        rcases Nat.lt_or_ge (k + 1) j with h | h
        · exact h5 j h (by omega)
        · rw [show j = k + 1 by omega]; exact hne
      · refine Or.inr ⟨by omega, by omega, h6, fun j h8 h9 => ?_⟩
        rcases Nat.lt_or_ge (k + 1) j with h | h
        · exact h7 j h h9
        · rw [show j = k + 1 by omega]; exact hne

theorem matrixOrder_ok {m : Mat ℚ} {M : Matrix (Fin n) (Fin n) ℚ} (hm : Rep m M) (max : Nat) :
    ∃ r, matrixOrder m max = .ok r ∧
      ((r = 0 ∧ ∀ j, 1 ≤ j → j ≤ max → M ^ j ≠ 1) ∨
        (1 ≤ r ∧ r ≤ max ∧ M ^ r = 1 ∧ ∀ j, 1 ≤ j → j < r → M ^ j ≠ 1)) := by
  obtain ⟨i, hi, hi'⟩ := rep_identity (T := ℚ) n
  obtain ⟨r, h1, h2⟩ := orderLoop_ok hm hi' max 0 i (by rw [pow_zero]; exact hi')
  refine ⟨r, ?_, ?_⟩
  · unfold matrixOrder
    rw [bind_ok (rassert_true (by simp [hm.rows, hm.cols])), hm.rows, bind_ok hi]
    exact h1
  · rcases h2 with ⟨a, b⟩ | ⟨a, b, c, d⟩
    · exact Or.inl ⟨a, fun j h1 h2 => b j (by omega) (by omega)⟩
    · exact Or.inr ⟨by omega, by omega, c, fun j h1 h2 => d j (by omega) h2⟩

theorem order_six (hn : n ≤ 3) {m : Mat ℚ} {M : Matrix (Fin n) (Fin n) ℚ} (hm : Rep m M) :
    matrixOrder m 6 = .ok (orderOf M) := by
  obtain ⟨r, h1, h2⟩ := matrixOrder_ok hm 6
  rw [h1]
  congr 1
  rcases h2 with ⟨rfl, h⟩ | ⟨h3, h4, h5, h6⟩
  · symm
    rw [orderOf_eq_zero_iff']
    intro k hk hk1
    rcases restriction hn M hk hk1 with h' | h'
    · exact h 4 (by omega) (by omega) h'
    · exact h 6 (by omega) (by omega) h'
  · symm
    rw [orderOf_eq_iff (by omega)]
    exact ⟨h5, fun j h7 h8 => h6 j h8 h7⟩

theorem isLeftHanded_ok {m : Mat ℚ} {M : Matrix (Fin n) (Fin n) ℚ} (hm : Rep m M) :
    isLeftHanded m = .ok (decide (M.det < 0)) := by
  unfold isLeftHanded
  rw [bind_ok (determinant_rep hm)]

theorem axisMatrix_ok {m : Mat ℚ} {M : Matrix (Fin n) (Fin n) ℚ} (hm : Rep m M) :
    ∃ r, axisMatrix m = .ok r ∧ Rep r (M - axisSign M • 1) := by
  obtain ⟨i, hi, hi'⟩ := rep_identity (T := ℚ) n
  unfold axisMatrix axisSign
  rw [hm.rows]
  by_cases h : n % 2 ≠ 0
  · rw [if_pos h, bind_ok (isLeftHanded_ok hm)]
    simp only
    rw [bind_ok hi]
    by_cases hd : M.det < 0
    · obtain ⟨r, h1, h2⟩ := rep_add hm hi'
      refine ⟨r, by simp [hd, h1], ?_⟩
      rw [if_pos ⟨h, hd⟩, neg_one_smul, sub_neg_eq_add]
      exact h2
    · obtain ⟨r, h1, h2⟩ := rep_sub hm hi'
      refine ⟨r, by simp [hd, h1], ?_⟩
      rw [if_neg (fun h => hd h.2), one_smul]
      exact h2
  · obtain ⟨r, h1, h2⟩ := rep_sub hm hi'
    rw [if_neg h, bind_ok (rfl : (Outcome.ok false) = .ok false)]
    simp only
    rw [bind_ok hi]
    refine ⟨r, by simp [h1], ?_⟩
    rw [if_neg (fun h' => h h'.1), one_smul]
    exact h2

theorem positive_ok (v : List ℚ) (hv : v.length = n) (hz : rowVec n v ≠ 0) :
    (positiveDirection v).length = n ∧ IsPositive (rowVec n (positiveDirection v)) ∧
      (rowVec n (positiveDirection v) = rowVec n v ∨ rowVec n (positiveDirection v) = - rowVec n v) := by
  have hfind : ∃ x, v.find? (fun x => decide (x ≠ 0)) = some x := by
    rw [← Option.isSome_iff_exists, List.find?_isSome]
    by_contra hc
    push Not at hc
    apply hz
    funext j
    have hj : j.1 < v.length := by rw [hv]; exact j.2
    have := hc v[j.1] (List.getElem_mem hj)
    simpa [rowVec, hj] using this
  obtain ⟨x, hx⟩ := hfind
  obtain ⟨hx0, as, bs, hab, has⟩ := List.find?_eq_some_iff_append.1 hx
  have hlt : as.length < n := by rw [← hv, hab]; simp
  have hk : rowVec n v ⟨as.length, hlt⟩ = x := by simp [rowVec, hab]
  have hj : ∀ j < (⟨as.length, hlt⟩ : Fin n), rowVec n v j = 0 := by
    intro j hj
    have hj' : j.1 < as.length := hj
    have := has as[j.1] (List.getElem_mem hj')
    simp [rowVec, hab, List.getElem?_append_left hj', hj']
    simpa using this
  have hx0 : x ≠ 0 := by simpa using hx0
  unfold positiveDirection
  rw [hx]
  simp only
  have hneg : rowVec n (v.map fun x => -x) = - rowVec n v := by
    funext j
    have hj : j.1 < v.length := by rw [hv]; exact j.2
    simp [rowVec, hj]
  by_cases h : x < 0
  · rw [if_pos h, hneg]
    refine ⟨by rw [List.length_map, hv], ⟨⟨as.length, hlt⟩, ?_, ?_⟩, Or.inr rfl⟩
    · rw [Pi.neg_apply, hk]; linarith
    · intro j h'; rw [Pi.neg_apply, hj j h', neg_zero]
  · rw [if_neg h]
    exact ⟨hv, ⟨⟨as.length, hlt⟩, by rw [hk]; exact lt_of_le_of_ne (not_lt.1 h) hx0.symm, hj⟩, Or.inl rfl⟩

theorem operatorAxis_ok (hn : 0 < n) {m : Mat ℚ} {M : Matrix (Fin n) (Fin n) ℚ} (hm : Rep m M) :
    (∃ v, operatorAxis m = .ok (some v) ∧ v.length = n ∧ IsPositive (rowVec n v) ∧
      IsAxis M (axisSign M) (rowVec n v)) ∨
    (operatorAxis m = .ok none ∧ ¬ ∃ u, IsAxis M (axisSign M) u) := by
  obtain ⟨r, h1, h2⟩ := axisMatrix_ok hm
  have hker : ∀ x, (M - axisSign M • 1).mulVec x = 0 ↔ M.mulVec x = axisSign M • x := by
    intro x
    rw [sub_mulVec, smul_mulVec, one_mulVec, sub_eq_zero]
  have hstart : operatorAxis m = (do
      let z ← nullSpace r
      match z with
      | some z =>
        if z.ncols = 1 then do
          let c ← z.getCol 0
          .ok (some (positiveDirection c))
        else .ok none
      | none => .ok none) := by
    unfold operatorAxis
    rw [bind_ok (rassert_true (by simp [hm.rows, hm.cols])), bind_ok h1]
    all_goals rfl
  rcases gen_nullSpace h2 hn with ⟨z, d, X, e1, e2, e3, e4, e5, e6⟩ | ⟨e1, e2⟩
  · have hiff : ∀ x, M.mulVec x = axisSign M • x ↔ ∃ g : Fin d → ℚ, x = X.mulVec g := by
      intro x
      rw [← hker]
      refine ⟨e6 x, ?_⟩
      rintro ⟨g, rfl⟩
      rw [mulVec_mulVec, e4, zero_mulVec]
    rw [hstart, bind_ok e1]
    simp only [e3.cols]
    by_cases hd : d = 1
    · left
      subst hd
      rw [if_pos rfl, bind_ok (Mat.getCol_eq e3.wf (by rw [e3.cols]; omega))]
      set c := (List.range z.nrows).map (fun i => z.ent i 0) with hc
      have hcl : c.length = n := by rw [hc]; simp [e3.rows]
      have hcv : rowVec n c = X.col 0 := by
        funext j
        have := e3.ent j 0
        simp [rowVec, hc, e3.rows, this, Matrix.col_apply]
        exact this
      have hcz : rowVec n c ≠ 0 := by rw [hcv]; exact e5.ne_zero 0
      obtain ⟨p1, p2, p3⟩ := positive_ok c hcl hcz
      refine ⟨_, rfl, p1, p2, ?_, fun x => ?_⟩
      · rcases p3 with h | h <;> rw [h]
        · exact hcz
        · exact neg_ne_zero.2 hcz
      · rw [hiff]
        have hmul : ∀ g : Fin 1 → ℚ, X.mulVec g = g 0 • rowVec n c := by
          intro g
          rw [hcv]
          funext j
          simp [Matrix.mulVec, dotProduct, Matrix.col_apply, mul_comm]
        constructor
        · rintro ⟨g, rfl⟩
          rw [hmul]
          rcases p3 with h | h <;> rw [h]
          · exact ⟨g 0, rfl⟩
          · exact ⟨-g 0, by simp⟩
        · rintro ⟨a, rfl⟩
          rcases p3 with h | h <;> rw [h]
          · exact ⟨fun _ => a, by rw [hmul]⟩
          · exact ⟨fun _ => -a, by rw [hmul]; simp⟩
    · right
      rw [if_neg hd]
      refine ⟨rfl, ?_⟩
      rintro ⟨u, hu, h⟩
      have hcol : ∀ k, ∃ a : ℚ, X.col k = a • u := by
        intro k
        apply (h _).1
        rw [hiff]
        exact ⟨Pi.single k 1, by rw [Matrix.mulVec_single_one]⟩
      obtain ⟨a, ha⟩ := hcol ⟨0, by omega⟩
      obtain ⟨b, hb⟩ := hcol ⟨1, by omega⟩
      have ha0 : a ≠ 0 := by rintro rfl; rw [zero_smul] at ha; exact e5.ne_zero _ ha
      have := e5.eq_of_smul_apply_eq_smul_apply b a ⟨0, by omega⟩ ⟨1, by omega⟩ (by
        rintro rfl; rw [zero_smul] at hb; exact e5.ne_zero _ hb) (by rw [ha, hb, smul_smul, smul_smul, mul_comm])
      simp at this
  · right
    rw [hstart, bind_ok e1]
    refine ⟨rfl, ?_⟩
    rintro ⟨u, hu, h⟩
    exact hu (e2 u ((hker u).2 ((h u).2 ⟨1, (one_smul _ _).symm⟩)))

theorem dot_ok {v w : List ℚ} (hv : v.length = n) (hw : w.length = n) :
    dot v w = .ok (rowVec n v ⬝ᵥ rowVec n w) := by
  unfold dot
  rw [bind_ok (rassert_true (by simp [hv, hw]))]
  congr 1
  rw [hv, ← List.foldl_map, ← List.sum_eq_foldl, ← List.sum_toFinset _ List.nodup_range, List.toFinset_range,
    Finset.sum_range]
  rfl

theorem areCollinear_ok {v w : List ℚ} (hv : v.length = n) (hw : w.length = n) :
    areCollinear v w = .ok (decide (∀ i j, rowVec n v i * rowVec n w j = rowVec n v j * rowVec n w i)) := by
  unfold areCollinear
  rw [bind_ok (dot_ok hv hw), bind_ok (dot_ok hv hw), bind_ok (dot_ok hv hv), bind_ok (dot_ok hw hw)]
  congr 1
  rw [decide_eq_decide]
  set x := rowVec n v
  set y := rowVec n w
  have key : ∑ i, ∑ j, (x i * y j - x j * y i) ^ 2 = 2 * ((x ⬝ᵥ x) * (y ⬝ᵥ y) - (x ⬝ᵥ y) * (x ⬝ᵥ y)) := by
    have e : ∀ i j, (x i * y j - x j * y i) ^ 2 =
        (x i * x i) * (y j * y j) + (y i * y i) * (x j * x j) - 2 * ((x i * y i) * (x j * y j)) := by
      intro i j; ring
    simp only [e, Finset.sum_sub_distrib, Finset.sum_add_distrib, ← Finset.mul_sum, ← Finset.sum_mul]
    simp only [dotProduct]
    ring
  constructor
  · intro h i j
    rw [h, sub_self, mul_zero] at key
    have h1 := (Finset.sum_eq_zero_iff_of_nonneg (fun i _ => Finset.sum_nonneg fun j _ => sq_nonneg _)).1 key i (Finset.mem_univ _)
    have h2 := (Finset.sum_eq_zero_iff_of_nonneg (fun j _ => sq_nonneg _)).1 h1 j (Finset.mem_univ _)
    have := pow_eq_zero_iff (two_ne_zero) |>.1 h2
    linarith
  · intro h
    have : ∑ i, ∑ j, (x i * y j - x j * y i) ^ 2 = 0 := by
      apply Finset.sum_eq_zero; intro i _; apply Finset.sum_eq_zero; intro j _
      rw [h i j, sub_self]; ring
    rw [this] at key
    linarith

theorem det_cols3 (a v w : Fin 3 → ℚ) : (Matrix.of fun i k => (![a, v, w] : Fin 3 → Fin 3 → ℚ) k i).det =
    (Matrix.of ![a, v, w]).det := by
  rw [← det_transpose]; rfl

/-- the two candidates for a vector off the axis -/
def offAxis (a : Fin 3 → ℚ) : Fin 3 → ℚ := if a 1 = 0 ∧ a 2 = 0 then ![0, 1, 0] else ![1, 0, 0]

theorem offAxis_off {a : Fin 3 → ℚ} (ha : a ≠ 0) (c : ℚ) : offAxis a ≠ c • a := by
  intro h
  unfold offAxis at h
  split_ifs at h with h1
  · have := congrFun h 1; simp [h1.1] at this
  · have e0 := congrFun h 0; have e1 := congrFun h 1; have e2 := congrFun h 2
    simp at e0 e1 e2
    rcases e1 with rfl | e1
    · simp at e0
    · rcases e2 with rfl | e2
      · simp at e0
      · exact h1 ⟨e1, e2⟩

theorem clockwise3 {m : Mat ℚ} {M : Matrix (Fin 3) (Fin 3) ℚ} (hm : Rep m M) {order : Nat} (ho : order = 0 ∨ order > 2)
    {axis : List ℚ} (hl : axis.length = 3) (p : Bool) :
    clockwise m 3 order p (some axis) =
      .ok (decide (0 ≤ (Matrix.of ![rowVec 3 axis, offAxis (rowVec 3 axis), M.mulVec (offAxis (rowVec 3 axis))]).det)) := by
  unfold clockwise
  rw [if_neg (by omega)]
  simp only
  rw [if_pos ho, bind_ok (areCollinear_ok hl (w := [1, 0, 0]) rfl)]
  set a := rowVec 3 axis with ha
  have hcol : (∀ i j, a i * rowVec 3 [1, 0, 0] j = a j * rowVec 3 [1, 0, 0] i) ↔ (a 1 = 0 ∧ a 2 = 0) := by
    simp only [Fin.forall_fin_succ, Fin.forall_fin_zero_pi]
    simp [rowVec]
    intro h1 h2
    exact ⟨h1.symm, h2.symm⟩
  obtain ⟨mv, hv1, hv2⟩ : ∃ mv, Mat.col (if decide (∀ i j, a i * rowVec 3 [1, 0, 0] j = a j * rowVec 3 [1, 0, 0] i) = true
      then ([0, 1, 0] : List ℚ) else [1, 0, 0]) = .ok mv ∧ Rep mv (colM (offAxis a)) := by
    by_cases h : a 1 = 0 ∧ a 2 = 0
    · rw [if_pos (by rw [decide_eq_true_eq]; exact hcol.2 h), offAxis, if_pos h]
      exact col_ofFn _ _ (by simp)
    · rw [if_neg (by rw [decide_eq_true_eq]; exact fun h' => h (hcol.1 h')), offAxis, if_neg h]
      exact col_ofFn _ _ (by simp)
  obtain ⟨mw, hw1, hw2⟩ := mul_col hm hv2
  obtain ⟨ma, ha1, ha2⟩ := col_ofFn axis a (by
    match axis, hl with
    | [x, y, z], _ => simp [ha, rowVec])
  obtain ⟨mh, hh1, hh2⟩ := hstack_basis (n := 3) (bs := [⟨ma⟩, ⟨mv⟩, ⟨mw⟩]) rfl
    ![a, offAxis a, M.mulVec (offAxis a)] (by
      intro k; fin_cases k
      · exact ha2
      · exact hv2
      · exact hw2)
  have hh1 : Mat.hstack [ma, mv, mw] = .ok mh := hh1
  rw [bind_ok hv1, bind_ok hw1, bind_ok ha1, bind_ok hh1, bind_ok (isLeftHanded_ok hh2), det_cols3]
  congr 1
  rw [← decide_not, decide_eq_decide, not_lt]

theorem positiveSign_finite {M : Matrix (Fin n) (Fin n) ℚ} {k : Nat} (hk : 0 < k) (h : M ^ k = 1) (hn : n % 2 = 1) :
    axisSign M = M.det := by
  unfold axisSign
  rcases det_sq_one hk h with h | h
  · rw [h, if_neg (by norm_num)]
  · rw [h, if_pos ⟨by omega, by norm_num⟩]

/-- the classification never panics in dimensions one to three -/
theorem details_ok (h1 : 1 ≤ n) (h3 : n ≤ 3) {m : Mat ℚ} {M : Matrix (Fin n) (Fin n) ℚ} (hm : Rep m M) :
    ∃ (axis : Option (List ℚ)) (c : Bool), operatorAxis m = .ok axis ∧
      clockwise m n (orderOf M) (decide (0 ≤ M.det)) axis = .ok c ∧
      OperatorDetails.from m = .ok ⟨m, n, axis, orderOf M, decide (0 ≤ M.det), c⟩ := by
  have hax : ∃ axis, operatorAxis m = .ok axis ∧ ∀ v, axis = some v → v.length = n ∧ IsAxis M (axisSign M) (rowVec n v) := by
    rcases operatorAxis_ok h1 hm with ⟨v, e1, e2, _, e3⟩ | ⟨e1, _⟩
    · exact ⟨_, e1, fun w hw => by cases hw; exact ⟨e2, e3⟩⟩
    · exact ⟨_, e1, fun w hw => by cases hw⟩
  obtain ⟨axis, e1, e2⟩ := hax
  have hc : ∃ c, clockwise m n (orderOf M) (decide (0 ≤ M.det)) axis = .ok c := by
    by_cases hn2 : n = 2
    · subst hn2
      unfold clockwise
      rw [if_pos rfl]
      split_ifs
      · exact ⟨_, rfl⟩
      · have h01 : m.get 0 1 = .ok (M 0 1) := hm.entry 0 1
        rw [bind_ok h01]; exact ⟨_, rfl⟩
      · exact ⟨_, rfl⟩
    · cases axis with
      | none => exact ⟨true, by unfold clockwise; rw [if_neg hn2]⟩
      | some v =>
        by_cases ho : orderOf M = 0 ∨ orderOf M > 2
        · have hn : n = 1 ∨ n = 3 := by omega
          rcases hn with rfl | rfl
          · exfalso
            obtain ⟨hl, hv0, hv⟩ := e2 v rfl
            have h5 := (hv (rowVec 1 v)).2 ⟨1, (one_smul _ _).symm⟩
            have h6 : M 0 0 * rowVec 1 v 0 = axisSign M * rowVec 1 v 0 := by
              have := congrFun h5 0
              simpa [mulVec, dotProduct] using this
            have h7 : rowVec 1 v 0 ≠ 0 := fun h => hv0 (funext fun i => by rw [Subsingleton.elim i 0]; exact h)
            have h8 := mul_right_cancel₀ h7 h6
            have h9 : M ^ 2 = 1 := by
              have : axisSign M * axisSign M = 1 := by unfold axisSign; split_ifs <;> norm_num
              rw [← h8] at this
              ext i j
              rw [Subsingleton.elim i 0, Subsingleton.elim j 0, pow_two, mul_apply]
              simpa using this
            have h10 := Nat.le_of_dvd (by norm_num) (orderOf_dvd_of_pow_eq_one h9)
            have h11 : 0 < orderOf M := orderOf_pos_iff.2 (isOfFinOrder_iff_pow_eq_one.2 ⟨2, by norm_num, h9⟩)
            omega
          · exact ⟨_, clockwise3 hm ho (e2 v rfl).1 _⟩
        · refine ⟨true, ?_⟩
          unfold clockwise
          rw [if_neg hn2]
          simp only
          rw [if_neg ho]
  obtain ⟨c, hc⟩ := hc
  refine ⟨axis, c, e1, hc, ?_⟩
  have hb : (!decide (M.det < 0)) = decide (0 ≤ M.det) := by rw [← decide_not, decide_eq_decide, not_lt]
  unfold OperatorDetails.from
  rw [bind_ok (rassert_true (by simp [hm.rows, hm.cols])), bind_ok (rassert_true (by rw [hm.rows]; simp [h1, h3])),
    bind_ok (isLeftHanded_ok hm), bind_ok (order_six h3 hm), bind_ok e1, hb, hm.rows, bind_ok hc]

end Systre.Finder
