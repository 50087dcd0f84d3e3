import Verif.Lemmas.Solve

/-! Helper lemmas: `solve`, `null_space`, `inverse` as a whole. -/

set_option linter.unusedSectionVars false

namespace Systre
open Submodule Mat

variable {T : Type} [CommRing T] [IsDomain T] [Scalar T] [DecidableEq T] [LawfulScalar T]

theorem rowsL_length (m : Mat T) : (rowsL m).length = m.nrows := by simp [rowsL]

theorem rw'_rowsL {m : Mat T} {i : Nat} (hi : i < m.nrows) (j : Nat) :
    rw' (rowsL m) i j = if j < m.ncols then m.ent i j else 0 := by
  have : (rowsL m).getD i [] = m.rowL i := by simp [rowsL, List.getD, hi]
  unfold rw'
  rw [this, rent_rowL]

theorem li_iff_sum {bs : List (List T)} : LinearIndependent T (bv bs) ↔
    ∀ g : Nat → T, (∀ j, ∑ i ∈ Finset.range bs.length, g i * rw' bs i j = 0) → ∀ i, i < bs.length → g i = 0 := by
  rw [Fintype.linearIndependent_iff]
  constructor
  · intro h g hg i hi
    refine h (fun i => g i.1) ?_ ⟨i, hi⟩
    ext j
    have := hg j
    rw [Finset.sum_range] at this
    simp only [Finset.sum_apply, Pi.smul_apply, smul_eq_mul, Pi.zero_apply]
    rw [← this]
    apply Finset.sum_congr rfl
    intro i _
    rw [rw'_lt i.2]; rfl
  · intro h g hg i
    have := h (fun l => if hl : l < bs.length then g ⟨l, hl⟩ else 0) ?_ i.1 i.2
    · simpa using this
    · intro j
      have := congrFun hg j
      simp only [Finset.sum_apply, Pi.smul_apply, smul_eq_mul, Pi.zero_apply] at this
      rw [Finset.sum_range, ← this]
      apply Finset.sum_congr rfl
      intro i _
      rw [rw'_lt i.2]; simp [bv]

theorem rank_li {m : Mat T} (h : m.WF) : ∃ k, rank m = .ok k ∧ k ≤ m.nrows ∧
    (k = m.nrows ↔ ∀ g : Nat → T, (∀ j, j < m.ncols → ∑ i ∈ Finset.range m.nrows, g i * m.ent i j = 0) →
      ∀ i, i < m.nrows → g i = 0) := by
  obtain ⟨bs, h1, h2, h3, h4, _⟩ := rowBasis_ok h
  refine ⟨bs.length, by unfold rank; rw [h1]; rfl, h4, ?_⟩
  have key := linearIndependent_iff_card_eq_finrank_span (R := T) (b := bv (rowsL m))
  rw [Fintype.card_fin, Set.finrank, ← rspan_eq_range, ← h3, h2.finrank, li_iff_sum, rowsL_length] at key
  rw [eq_comm, ← key]
  constructor
  · intro hh g hg
    apply hh g
    intro j
    by_cases hj : j < m.ncols
    · rw [← hg j hj]
      apply Finset.sum_congr rfl
      intro i hi
      rw [rw'_rowsL (Finset.mem_range.1 hi), if_pos hj]
    · apply Finset.sum_eq_zero
      intro i hi
      rw [rw'_rowsL (Finset.mem_range.1 hi), if_neg hj, mul_zero]
  · intro hh g hg
    apply hh g
    intro j hj
    rw [← hg j]
    apply Finset.sum_congr rfl
    intro i hi
    rw [rw'_rowsL (Finset.mem_range.1 hi), if_pos hj]

theorem matOf_ent {n : Nat} {bs : List (List T)} (hne : bs ≠ []) {i j : Nat} (hi : i < bs.length)
    (hj : j < n) : (matOf n bs).ent i j = rw' bs i j := by
  unfold matOf
  rw [if_neg hne]
  unfold ofRows
  rw [ofFn_ent _ hi hj]; rfl

theorem matOf_wf (n : Nat) (bs : List (List T)) : (matOf n bs).WF := by
  unfold matOf
  split
  · exact ⟨rfl, fun _ => rfl⟩
  · exact ofFn_wf _ _ _

theorem matOf_nrows {n : Nat} {bs : List (List T)} (hn : 0 < n) : (matOf n bs).nrows = bs.length := by
  unfold matOf
  split
  · rename_i h; subst h; rfl
  · exact ofFn_nrows _ _ _ hn

theorem matOf_ncols {n : Nat} {bs : List (List T)} (hne : bs ≠ []) : (matOf n bs).ncols = n := by
  unfold matOf; rw [if_neg hne]; rfl

/-- `A X = B` for entry functions -/
def IsSol (m n k : Nat) (A B X : Nat → Nat → T) : Prop :=
  ∀ i, i < m → ∀ c, c < k → ∑ j ∈ Finset.range n, A i j * X j c = B i c

theorem sol_functional {n k : Nat} {bs : List (List T)} (X : Nat → Nat → T) :
    IsSol bs.length n k (rw' bs) (fun i c => rw' bs i (n + c)) X ↔
      ∀ c, c < k → ∀ i, i < bs.length →
        (lf (Finset.range n) (fun j => X j c) - evl (n + c) : (Nat → T) →ₗ[T] T) (rw' bs i) = 0 := by
  unfold IsSol
  simp only [LinearMap.sub_apply, lf_apply, evl, LinearMap.proj_apply, sub_eq_zero]
  constructor
  · intro h c hc i hi; exact h i hi c hc
  · intro h i hi c hc; exact h c hc i hi

theorem sol_span {n k : Nat} {bs bs' : List (List T)} (h : rspan bs = rspan bs') (X : Nat → Nat → T) :
    IsSol bs.length n k (rw' bs) (fun i c => rw' bs i (n + c)) X ↔
    IsSol bs'.length n k (rw' bs') (fun i c => rw' bs' i (n + c)) X := by
  rw [sol_functional, sol_functional]
  constructor
  · intro hh c hc; exact (rel_iff h _).1 (hh c hc)
  · intro hh c hc; exact (rel_iff h _).2 (hh c hc)

/-- the rows of `[Lᵀ | I]` as the code builds them -/
theorem aug_rows {r n : Nat} (hn : 0 < n) {m : Mat T} {L : Nat → Nat → T} (hw : m.WF) (hnr : m.nrows = n)
    (hnc : m.ncols = r) (he : ∀ i, i < n → ∀ j, j < r → m.ent i j = L j i) :
    ∃ id st, Mat.identity n = .ok id ∧ Mat.hstack [m, id] = .ok st ∧ st.WF ∧ st.ncols = r + n ∧
      st.nrows = n ∧ AugRow r n L (rowsL st) := by
  have hidw : (ofFn n n (fun i j => if i = j then (1 : T) else 0)).WF := ofFn_wf _ _ _
  have hidr : (ofFn n n (fun i j => if i = j then (1 : T) else 0)).nrows = n := ofFn_nrows _ _ _ hn
  refine ⟨_, _, identity_eq n, hstack2_eq hw hidw (by rw [hnr, hidr]), ofFn_wf _ _ _, ?_, ?_, ?_, ?_⟩
  · simp [hnc]
  · rw [ofFn_nrows _ _ _ (by simp; omega), hnr]
  · rw [rowsL_length, ofFn_nrows _ _ _ (by simp; omega), hnr]
  · intro i hi j
    rw [rw'_rowsL (by rw [ofFn_nrows _ _ _ (by simp; omega), hnr]; exact hi)]
    simp only [ofFn_ncols, hnc]
    by_cases hj : j < r + n
    · rw [if_pos hj, ofFn_ent _ (by omega) (by omega)]
      by_cases h1 : j < r
      · rw [if_pos h1, if_pos h1, he i hi j h1]
      · rw [if_neg h1, if_neg h1, ofFn_ent _ hi (by omega)]
        by_cases h2 : j = r + i
        · rw [if_pos h2, if_pos (by omega)]
        · rw [if_neg h2, if_neg (by omega)]
    · rw [if_neg hj, if_neg (by omega), if_neg (by omega)]

theorem getD_append_replicate (x : List (List T)) (d k i c : Nat) :
    rw' (x ++ List.replicate d (List.replicate k 0)) i c = rw' x i c := by
  unfold rw'
  by_cases h : i < x.length
  · rw [List.getD, List.getD, List.getElem?_append_left h]
  · have e : x.getD i [] = [] := by simp [List.getD, Nat.not_lt.1 h]
    rw [e, List.getD, List.getElem?_append_right (by omega), List.getElem?_replicate]
    split
    · simp only [Option.getD_some]
      unfold rent
      rw [List.getD, List.getElem?_replicate]
      split <;> simp
    · simp

theorem solveFull_ok {lm rm : Mat T} {r n k : Nat} (hlw : lm.WF) (hrw : rm.WF) (hlmr : lm.nrows = r)
    (hlmc : lm.ncols = n) (hrmr : rm.nrows = r) (hrmc : rm.ncols = k) (hbl : 0 < r) (hn0 : 0 < n)
    (hk0 : 0 < k) (hli : ∀ g : Nat → T, (∀ j, j < n → ∑ i ∈ Finset.range r, g i * lm.ent i j = 0) →
          ∀ i, i < r → g i = 0) :
    (∃ x, solveFull lm rm = .ok (some x) ∧ x.WF ∧ x.nrows = n ∧ x.ncols = k ∧
      IsSol r n k lm.ent rm.ent x.ent) ∨
    (solveFull lm rm = .ok none ∧ ∀ X, ¬ IsSol r n k lm.ent rm.ent X) := by
  unfold solveFull
  rw [transpose_eq hlw]
  simp only [Outcome.ok_bind]
  rw [hlmr, hlmc]
  set lt := ofFn n r (fun j i => lm.ent i j) with hltd
  have hltr : lt.nrows = n := ofFn_nrows _ _ _ hbl
  obtain ⟨id, st2, hid, hst2, hst2w, hst2c, hst2r, haug⟩ := aug_rows (r := r) (n := n) hn0 (m := lt)
    (L := lm.ent) (ofFn_wf _ _ _) hltr rfl (by
      intro i hi j hj
      rw [hltd, ofFn_ent _ hi hj])
  rw [hid]
  simp only [Outcome.ok_bind]
  rw [hst2]
  simp only [Outcome.ok_bind]
  obtain ⟨qs, hq1, hqE, hqR, hqspan, -⟩ := reducedBasis_ok hst2w
  rw [hst2c] at hq1 hqE
  rw [hq1]
  simp only [Outcome.ok_bind]
  have hql := aug_length haug hqE hqspan
  have hqne : qs ≠ [] := by intro h; rw [h] at hql; simp at hql; omega
  have hqw := matOf_wf (r + n) qs
  have hqr : (matOf (r + n) qs).nrows = n := by rw [matOf_nrows (by omega), hql]
  have hqc : (matOf (r + n) qs).ncols = r + n := matOf_ncols hqne
  rw [submatrix_eq hqw le_rfl (by omega) (by omega) (by omega),
    submatrix_eq hqw le_rfl le_rfl (by omega) (by omega)]
  simp only [Outcome.ok_bind, Nat.sub_zero, Nat.add_zero]
  rw [hqr, hqc, transpose_eq (ofFn_wf _ _ _), transpose_eq (ofFn_wf _ _ _)]
  simp only [Outcome.ok_bind, ofFn_ncols]
  have hnrn : ∀ f : Nat → Nat → T, (ofFn n r f).nrows = n := fun f => ofFn_nrows _ _ _ hbl
  have hnrn' : ∀ f : Nat → Nat → T, (ofFn n (r + n - r) f).nrows = n :=
    fun f => ofFn_nrows _ _ _ (by omega)
  rw [hnrn, hnrn']
  set bm := ofFn r n (fun j i => (ofFn n r (fun i j => (matOf (r + n) qs).ent i j)).ent i j) with hbm
  set um := ofFn (r + n - r) n
    (fun j i => (ofFn n (r + n - r) (fun i j => (matOf (r + n) qs).ent i (j + r))).ent i j) with hum
  have hbe : ∀ i, i < r → ∀ j, j < n → bm.ent i j = rw' qs j i := by
    intro i hi j hj
    rw [hbm, ofFn_ent _ hi hj, ofFn_ent _ hj hi, matOf_ent hqne (by omega) (by omega)]
  have hue : ∀ i, i < n → ∀ j, j < n → um.ent i j = rw' qs j (r + i) := by
    intro i hi j hj
    rw [hum, ofFn_ent _ (by omega) hj, ofFn_ent _ hj (by omega), matOf_ent hqne (by omega) (by omega),
      Nat.add_comm]
  have hpiv := aug_pivots haug hqE hqspan hli
  have hrn : r ≤ n := by
    have := (hpiv (r - 1) (by omega)).1; omega
  have hnorm : ∀ i, i < r → LawfulScalar.Norm (rw' qs i i) := by
    intro i hi
    have := (hpiv i hi).2
    rw [rw'_lt (by omega)] at this ⊢
    exact hqR.norm _ (List.getElem_mem _) i this
  have hred : ∀ i, i < r → ∀ j, j < i → LawfulScalar.Red (rw' qs j i) (rw' qs i i) := by
    intro i hi j hj
    have := (hpiv i hi).2
    rw [rw'_lt (by omega)] at this
    rw [rw'_lt (by omega), rw'_lt (by omega)]
    exact List.pairwise_iff_getElem.1 hqR.red j i (by omega) (by omega) hj i this
  obtain ⟨V, hV1, hV2, hV3⟩ := aug_inv haug hqE hqspan
  have hrel := fun i hi j hj => aug_rel haug hqspan i hi j hj
  -- triangular form of the system
  have htri : ∀ Y : Nat → Nat → T, ∀ i, i < r → ∀ c,
      ∑ j ∈ Finset.range n, rw' qs j i * Y j c =
        ∑ j ∈ Finset.range i, rw' qs j i * Y j c + rw' qs i i * Y i c := by
    intro Y i hi c
    have : Finset.range n = Finset.range (i + 1 + (n - (i + 1))) := by congr 1; omega
    rw [this, Finset.sum_range_add, Finset.sum_range_succ]
    rw [Finset.sum_eq_zero (s := Finset.range (n - (i + 1))), add_zero]
    intro j hj
    have := hqE.lower_zero (i := i + 1 + j) (j := i) (by omega)
    have e : rw' qs (i + 1 + j) i = 0 := this
    rw [e, zero_mul]
  -- a solution of the triangular system in new unknowns
  have hUY : ∀ Y : Nat → Nat → T, ∀ i, i < r → ∀ c,
      ∑ l ∈ Finset.range n, lm.ent i l * (∑ j ∈ Finset.range n, rw' qs j (r + l) * Y j c) =
        ∑ j ∈ Finset.range n, rw' qs j i * Y j c := by
    intro Y i hi c
    have : ∀ j ∈ Finset.range n, rw' qs j i * Y j c =
        ∑ l ∈ Finset.range n, lm.ent i l * (rw' qs j (r + l) * Y j c) := by
      intro j hj
      rw [hrel i hi j (by rw [hql]; exact Finset.mem_range.1 hj), Finset.sum_mul]
      apply Finset.sum_congr rfl
      intros; ring
    rw [Finset.sum_congr rfl this, Finset.sum_comm]
    apply Finset.sum_congr rfl
    intro l _
    rw [Finset.mul_sum]
  have hloop := solveLoop_ok (bm := bm) (rm := rm) (b := fun i j => rw' qs j i) (n := n) (k := k)
    (ofFn_wf _ _ _) hrw (by rw [hrmr]; exact ofFn_nrows _ _ _ hn0) rfl hrmc
    (by rw [hrmr]; exact hrn) (by rw [hrmr]; exact hbe) (by rw [hrmr]; exact hnorm)
    (by rw [hrmr]; exact hred) r 0 [] (by rw [hrmr]; omega) rfl (by simp) (by intros; omega)
  rw [hrmr] at hloop
  rw [hrmr, List.range_eq_range']
  rcases hloop with ⟨x, hx1, hx2, hx3, hx4⟩ | ⟨hx1, c, hc, hx2⟩
  · rw [hx1]
    simp only [Outcome.ok_bind]
    have humc : um.ncols = n := rfl
    set x' := x ++ List.replicate (n - r) (List.replicate rm.ncols 0) with hx'
    have hx'l : x'.length = n := by rw [hx']; simp [hx2]; omega
    have hx'ne : x' ≠ [] := by intro h; rw [h] at hx'l; simp at hx'l; omega
    rw [stackRows_ok (n := k) (by
      intro y hy
      rw [hx', List.mem_append] at hy
      rcases hy with hy | hy
      · exact hx3 y hy
      · rw [(List.mem_replicate.1 hy).2, List.length_replicate, hrmc]) (fun _ => hk0)]
    simp only [Outcome.ok_bind]
    have hxmr : (matOf k x').nrows = n := by rw [matOf_nrows hk0, hx'l]
    have hxmc : (matOf k x').ncols = k := matOf_ncols hx'ne
    rw [mul_eq (ofFn_wf _ _ _) (matOf_wf _ _) (by rw [hxmr]; rfl)]
    simp only [Outcome.ok_bind]
    left
    have humr : um.nrows = n := by
      rw [hum, ofFn_nrows _ _ _ hn0]; omega
    refine ⟨_, rfl, ofFn_wf _ _ _, ?_, by rw [ofFn_ncols, hxmc], ?_⟩
    · rw [ofFn_nrows _ _ _ (by rw [hxmc]; exact hk0), humr]
    · intro i hi c hc
      have hval : ∀ l, l < n → (ofFn um.nrows (matOf k x').ncols (fun i j =>
          ∑ k_1 ∈ Finset.range um.ncols, um.ent i k_1 * (matOf k x').ent k_1 j)).ent l c =
          ∑ j ∈ Finset.range n, rw' qs j (r + l) * rw' x j c := by
        intro l hl
        rw [ofFn_ent _ (by omega) (by omega), humc]
        apply Finset.sum_congr rfl
        intro j hj
        have hj := Finset.mem_range.1 hj
        rw [hue l hl j hj, matOf_ent hx'ne (by omega) hc, hx', getD_append_replicate]
      have : ∀ l ∈ Finset.range n, lm.ent i l * (ofFn um.nrows (matOf k x').ncols (fun i j =>
          ∑ k_1 ∈ Finset.range um.ncols, um.ent i k_1 * (matOf k x').ent k_1 j)).ent l c =
          lm.ent i l * ∑ j ∈ Finset.range n, rw' qs j (r + l) * rw' x j c := by
        intro l hl
        rw [hval l (Finset.mem_range.1 hl)]
      rw [Finset.sum_congr rfl this, hUY (rw' x) i hi c, htri (rw' x) i hi c]
      have := hx4 i hi c hc
      unfold TriEq at this
      rw [this]
  · rw [hx1]
    right
    refine ⟨rfl, fun X hX => ?_⟩
    -- new unknowns
    apply hx2 (fun j c => ∑ l ∈ Finset.range n, V l j * X l c)
    intro i hi
    unfold TriEq
    rw [← htri (fun j c => ∑ l ∈ Finset.range n, V l j * X l c) i hi c]
    rw [← hUY (fun j c => ∑ l ∈ Finset.range n, V l j * X l c) i hi c]
    rw [← hX i hi c hc]
    apply Finset.sum_congr rfl
    intro l hl
    have hl := Finset.mem_range.1 hl
    congr 1
    have : ∀ j ∈ Finset.range n, rw' qs j (r + l) * ∑ l' ∈ Finset.range n, V l' j * X l' c =
        ∑ l' ∈ Finset.range n, (V l' j * rw' qs j (r + l)) * X l' c := by
      intro j _
      rw [Finset.mul_sum]
      apply Finset.sum_congr rfl
      intros; ring
    rw [Finset.sum_congr rfl this, Finset.sum_comm, Finset.sum_eq_single l]
    · rw [← Finset.sum_mul, hV3 l hl l hl, if_pos rfl, one_mul]
    · intro l' hl' hne
      rw [← Finset.sum_mul, hV3 l' (Finset.mem_range.1 hl') l hl, if_neg hne, zero_mul]
    · intro h; exact absurd (Finset.mem_range.2 hl) h

theorem solve_ok {lft rgt : Mat T} (hl : lft.WF) (hr : rgt.WF) (hmr : lft.nrows = rgt.nrows)
    (hnk : 0 < lft.ncols → 0 < rgt.ncols) :
    (∃ x, solve lft rgt = .ok (some x) ∧ x.WF ∧ x.nrows = lft.ncols ∧ x.ncols = rgt.ncols ∧
      IsSol lft.nrows lft.ncols rgt.ncols lft.ent rgt.ent x.ent) ∨
    (solve lft rgt = .ok none ∧ ∀ X, ¬ IsSol lft.nrows lft.ncols rgt.ncols lft.ent rgt.ent X) := by
  set n := lft.ncols with hn
  set k := rgt.ncols with hk
  have hst := hstack2_eq hl hr hmr
  set st := ofFn lft.nrows (lft.ncols + rgt.ncols)
      (fun i j => if j < lft.ncols then lft.ent i j else rgt.ent i (j - lft.ncols)) with hstdef
  have hstw : st.WF := ofFn_wf _ _ _
  obtain ⟨bs, hb1, hE, hR, hspan, hlen⟩ := reducedBasis_ok hstw
  have hstc : st.ncols = n + k := rfl
  rw [hstc] at hb1 hE
  -- the original system in terms of the rows of `st`
  have hstn : st.nrows = lft.nrows := by
    by_cases h0 : 0 < n + k
    · exact ofFn_nrows _ _ _ h0
    · have h1 := ofFn_nrows_le lft.nrows (lft.ncols + rgt.ncols)
        (fun i j => if j < lft.ncols then lft.ent i j else rgt.ent i (j - lft.ncols))
      rw [← hstdef] at h1
      by_contra h2
      have := hl.ncols_pos (by omega)
      omega
  have horig : ∀ X, IsSol lft.nrows n k lft.ent rgt.ent X ↔
      IsSol bs.length n k (rw' bs) (fun i c => rw' bs i (n + c)) X := by
    intro X
    rw [sol_span hspan X]
    unfold IsSol
    rw [rowsL_length, hstn]
    have e1 : ∀ i, i < lft.nrows → ∀ j, j < n → rw' (rowsL st) i j = lft.ent i j := by
      intro i hi j hj
      rw [rw'_rowsL (by omega), if_pos (by omega), hstdef, ofFn_ent _ hi (by omega), if_pos hj]
    have e2 : ∀ i, i < lft.nrows → ∀ c, c < k → rw' (rowsL st) i (n + c) = rgt.ent i c := by
      intro i hi c hc
      rw [rw'_rowsL (by omega), if_pos (by omega), hstdef, ofFn_ent _ hi (by omega), if_neg (by omega)]
      congr 1; omega
    have e3 : ∀ i, i < lft.nrows → ∀ c, ∑ j ∈ Finset.range n, rw' (rowsL st) i j * X j c =
        ∑ j ∈ Finset.range n, lft.ent i j * X j c := by
      intro i hi c
      apply Finset.sum_congr rfl
      intro j hj
      rw [e1 i hi j (Finset.mem_range.1 hj)]
    constructor
    · intro h i hi c hc; show _ = rw' (rowsL st) i (n + c); rw [e3 i hi, e2 i hi c hc]; exact h i hi c hc
    · intro h i hi c hc; rw [← e3 i hi, ← e2 i hi c hc]; exact h i hi c hc
  have hunf : solve lft rgt = (do
      let t : Mat T ← (.ok (matOf (n + k) bs) : Outcome (Mat T))
      if t.nrows = 0 then do
        let z ← Mat.zero lft.ncols rgt.ncols
        .ok (some z)
      else do
        let l ← t.submatrix 0 t.nrows 0 lft.ncols
        let r ← t.submatrix 0 t.nrows lft.ncols t.ncols
        let rk ← rank l
        if rk < l.nrows then .ok none else solveFull l r) := by
    unfold solve
    rw [show rassert (decide (lft.nrows = rgt.nrows)) = .ok () by simp [rassert, hmr]]
    simp only [Outcome.ok_bind]
    rw [hst]
    simp only [Outcome.ok_bind]
    rw [hb1]
    rfl
  rw [hunf]
  clear hunf
  simp only [Outcome.ok_bind]
  by_cases hbs : bs = []
  · -- all rows vanish
    subst hbs
    rw [if_pos (by simp [matOf])]
    rw [zero_eq]
    left
    refine ⟨_, rfl, ofFn_wf _ _ _, ?_, rfl, ?_⟩
    · by_cases hk0 : 0 < k
      · exact ofFn_nrows _ _ _ hk0
      · have h1 := ofFn_nrows_le (T := T) n k (fun _ _ => 0)
        have : n = 0 := by by_contra h; exact hk0 (hnk (by omega))
        show (ofFn n k _).nrows = n
        omega
    · rw [horig]
      intro i hi
      simp at hi
  · have hbl : 0 < bs.length := List.length_pos_iff.2 hbs
    have hm : 0 < lft.nrows := by omega
    have hn0 : 0 < n := hl.ncols_pos hm
    have hk0 : 0 < k := hr.ncols_pos (by omega)
    have htw := matOf_wf (n + k) bs
    have htr : (matOf (n + k) bs).nrows = bs.length := matOf_nrows (by omega)
    have htc : (matOf (n + k) bs).ncols = n + k := matOf_ncols hbs
    rw [if_neg (by omega), submatrix_eq htw le_rfl (by omega) (by omega) (by omega),
      submatrix_eq htw le_rfl le_rfl (by omega) (by omega)]
    simp only [Outcome.ok_bind, Nat.sub_zero, Nat.add_zero]
    rw [htr, htc]
    set r := bs.length with hrdef
    set lm := ofFn r n (fun i j => (matOf (n + k) bs).ent i j) with hlm
    set rm := ofFn r (n + k - n) (fun i j => (matOf (n + k) bs).ent i (j + n)) with hrm
    have hlmr : lm.nrows = r := ofFn_nrows _ _ _ hn0
    have hlmc : lm.ncols = n := rfl
    have hrmr : rm.nrows = r := ofFn_nrows _ _ _ (by omega)
    have hrmc : rm.ncols = k := by rw [hrm, ofFn_ncols]; omega
    have hle : ∀ i, i < r → ∀ j, j < n → lm.ent i j = rw' bs i j := by
      intro i hi j hj
      rw [hlm, ofFn_ent _ hi hj, matOf_ent hbs hi (by omega)]
    have hre : ∀ i, i < r → ∀ c, c < k → rm.ent i c = rw' bs i (n + c) := by
      intro i hi c hc
      rw [hrm, ofFn_ent _ hi (by omega), matOf_ent hbs hi (by omega), Nat.add_comm]
    obtain ⟨rk, hrk, hrkle, hrkli⟩ := rank_li (m := lm) (ofFn_wf _ _ _)
    rw [hlmr, hlmc] at hrkli
    rw [hrk]
    simp only [Outcome.ok_bind]
    rw [hlmr]
    rw [hlmr] at hrkle
    by_cases hlt : rk < r
    · -- inconsistent
      rw [if_pos hlt]
      right
      refine ⟨rfl, fun X hX => ?_⟩
      rw [horig] at hX
      have hne : ¬ ∀ g : Nat → T, (∀ j, j < n → ∑ i ∈ Finset.range r, g i * lm.ent i j = 0) →
          ∀ i, i < r → g i = 0 := fun h => absurd (hrkli.2 h) (by omega)
      apply hne
      intro g hg
      apply li_iff_sum.1 hE.li g
      have hcol : ∀ j, j < n → ∑ i ∈ Finset.range bs.length, g i * rw' bs i j = 0 := by
        intro j hj
        rw [← hg j hj]
        apply Finset.sum_congr rfl
        intro i hi
        rw [hle i (Finset.mem_range.1 hi) j hj]
      intro j
      by_cases h1 : j < n
      · exact hcol j h1
      · by_cases h2 : j < n + k
        · obtain ⟨c, rfl⟩ : ∃ c, j = n + c := ⟨j - n, by omega⟩
          have : ∀ i ∈ Finset.range bs.length, g i * rw' bs i (n + c) =
              ∑ j ∈ Finset.range n, (g i * rw' bs i j) * X j c := by
            intro i hi
            have := hX i (Finset.mem_range.1 hi) c (by omega)
            simp only at this
            rw [← this, Finset.mul_sum]
            apply Finset.sum_congr rfl
            intros; ring
          rw [Finset.sum_congr rfl this, Finset.sum_comm]
          apply Finset.sum_eq_zero
          intro j hj
          rw [← Finset.sum_mul, hcol j (Finset.mem_range.1 hj), zero_mul]
        · apply Finset.sum_eq_zero
          intro i hi
          have hi := Finset.mem_range.1 hi
          rw [rw'_lt hi, rent_ge, mul_zero]
          rw [(hE.row _ (List.getElem_mem hi)).1]; omega
    · rw [if_neg hlt]
      have hli := hrkli.1 (by omega)
      rcases solveFull_ok (ofFn_wf _ _ _) (ofFn_wf _ _ _) hlmr hlmc hrmr hrmc hbl hn0 hk0 hli with
        ⟨x, h1, h2, h3, h4, h5⟩ | ⟨h1, h2⟩
      · left
        refine ⟨x, h1, h2, h3, h4, (horig _).2 ?_⟩
        intro i hi c hc
        show _ = rw' bs i (n + c)
        rw [← hre i hi c hc, ← h5 i hi c hc]
        apply Finset.sum_congr rfl
        intro j hj
        rw [hle i hi j (Finset.mem_range.1 hj)]
      · right
        refine ⟨h1, fun X hX => h2 X ?_⟩
        rw [horig] at hX
        intro i hi c hc
        rw [hre i hi c hc]
        have := hX i hi c hc
        simp only at this
        rw [← this]
        apply Finset.sum_congr rfl
        intro j hj
        rw [hle i hi j (Finset.mem_range.1 hj)]

end Systre
