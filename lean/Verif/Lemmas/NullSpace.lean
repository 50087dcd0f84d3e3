import Verif.Lemmas.Solve2

/-! Helper lemmas: `null_space`. -/

set_option linter.unusedSectionVars false

namespace Systre
open Submodule Mat

variable {T : Type} [CommRing T] [IsDomain T] [Scalar T] [DecidableEq T] [LawfulScalar T]

theorem ech_of_pivots {n : Nat} {bs : List (List T)} (c : Fin bs.length → Nat) (hc : StrictMono c)
    (hp : ∀ i, Piv (bv bs i) (c i)) (hl : ∀ b ∈ bs, b.length = n) : Ech n bs := by
  refine ⟨?_, ?_⟩
  · intro b hb
    obtain ⟨i, hi, rfl⟩ := List.getElem_of_mem hb
    exact ⟨hl _ hb, c ⟨i, hi⟩, hp ⟨i, hi⟩⟩
  · rw [List.pairwise_iff_getElem]
    intro i j hi hj hij d hd k hk
    have h1 := hd.unique (hp ⟨i, hi⟩)
    have h2 : c ⟨i, hi⟩ < c ⟨j, hj⟩ := hc hij
    exact (hp ⟨j, hj⟩).1 k (by omega)

theorem initial_seg {n m : Nat} {c : Fin n → Nat} (hc : StrictMono c) :
    ∃ s, s ≤ n ∧ ∀ i : Fin n, c i < m ↔ i.1 < s := by
  classical
  have hex : ∃ s, ∀ h : s < n, m ≤ c ⟨s, h⟩ := ⟨n, fun h => absurd h (by omega)⟩
  refine ⟨Nat.find hex, Nat.find_min' hex (fun h => absurd h (by omega)), fun i => ?_⟩
  constructor
  · intro h
    by_contra hle
    have h1 := Nat.find_spec hex (by omega)
    have h2 : c ⟨Nat.find hex, by omega⟩ ≤ c i := hc.monotone (by simp [Fin.le_def]; simpa using hle)
    omega
  · intro h
    have := Nat.find_min hex h
    push Not at this
    obtain ⟨_, h2⟩ := this
    exact h2

theorem rspan_zero {bs : List (List T)} (h : ∀ b ∈ bs, ∀ j, rent b j = 0) : rspan bs = ⊥ := by
  rw [eq_bot_iff, rspan_le]
  intro b hb
  have : rent b = 0 := by ext j; exact h b hb j
  rw [this]; exact zero_mem _

/-- rank of the left part of an echelon matrix -/
theorem rank_left {qs : List (List T)} {m w : Nat} (hE : Ech w qs) (hm : 0 < m) (hmw : m ≤ w) :
    ∃ s, s ≤ qs.length ∧ rank (ofFn qs.length m (fun i j => rw' qs i j)) = .ok s ∧
      (∀ i, s ≤ i → ∀ j, j < m → rw' qs i j = 0) ∧
      (∀ i, i < s → ∃ c, c < m ∧ Piv (rw' qs i) c) := by
  obtain ⟨c, hc, hp⟩ := hE.pivots
  obtain ⟨s, hs, hiff⟩ := initial_seg (m := m) hc
  have hz : ∀ i, s ≤ i → ∀ j, j < m → rw' qs i j = 0 := by
    intro i hi j hj
    by_cases h : i < qs.length
    · have h1 := hiff ⟨i, h⟩
      have h2 := (hp ⟨i, h⟩).1.1 j (by simp only at h1; omega)
      rw [rw'_lt h]; exact h2
    · exact rw'_ge (by omega) j
  have hpv : ∀ i, i < s → ∃ c, c < m ∧ Piv (rw' qs i) c := by
    intro i hi
    have h : i < qs.length := by omega
    refine ⟨c ⟨i, h⟩, (hiff ⟨i, h⟩).2 hi, ?_⟩
    rw [rw'_lt h]; exact (hp ⟨i, h⟩).1
  refine ⟨s, hs, ?_, hz, hpv⟩
  set l := ofFn qs.length m (fun i j => rw' qs i j) with hl
  have hlr : l.nrows = qs.length := ofFn_nrows _ _ _ hm
  have hlc : l.ncols = m := rfl
  have hrow : ∀ i, i < qs.length → ∀ j, rw' (rowsL l) i j = if j < m then rw' qs i j else 0 := by
    intro i hi j
    rw [rw'_rowsL (by omega), hlc]
    split
    · rw [hl, ofFn_ent _ hi (by assumption)]
    · rfl
  rw [rank_ok (ofFn_wf _ _ _)]
  congr 1
  have htake : rspan (rowsL l) = rspan ((rowsL l).take s) := by
    conv_lhs => rw [← List.take_append_drop s (rowsL l)]
    rw [rspan_append, rspan_zero (bs := (rowsL l).drop s), sup_bot_eq]
    intro b hb j
    obtain ⟨i, hi, rfl⟩ := List.getElem_of_mem hb
    rw [List.getElem_drop]
    have hi' : s + i < (rowsL l).length := by simp at hi; omega
    have := hrow (s + i) (by rw [rowsL_length, hlr] at hi'; exact hi') j
    rw [rw'_lt hi'] at this
    rw [this]
    split
    · exact hz _ (by omega) j (by assumption)
    · rfl
  have hlen : ((rowsL l).take s).length = s := by
    rw [List.length_take, rowsL_length, hlr]; omega
  have hE' : Ech m ((rowsL l).take s) := by
    refine ech_of_pivots (fun i => c ⟨i.1, by have := i.2; omega⟩) ?_ ?_ ?_
    · intro i j hij
      exact hc hij
    · intro i
      have hi : i.1 < s := by have := i.2; omega
      have e : bv ((rowsL l).take s) i = fun j => if j < m then rw' qs i.1 j else 0 := by
        ext j
        rw [← hrow i.1 (by omega) j]
        unfold bv
        rw [List.getElem_take, rw'_lt]
      have h1 := (hp ⟨i.1, by omega⟩).1
      have h2 := (hiff ⟨i.1, by omega⟩).2 hi
      rw [e]
      have e2 : bv qs ⟨i.1, by omega⟩ = rw' qs i.1 := by rw [rw'_lt (by omega)]; rfl
      rw [e2] at h1
      refine ⟨fun j hj => ?_, ?_⟩
      · simp only; rw [h1.1 j hj]; simp
      · simp only; rw [if_pos h2]; exact h1.2
    · intro b hb
      exact rowsL_len b (List.mem_of_mem_take hb)
  rw [htake, hE'.finrank, hlen]

theorem nullSpace_ok {a : Mat T} (ha : a.WF) (hm : 0 < a.nrows) :
    (∃ x d, nullSpace a = .ok (some x) ∧ x.WF ∧ x.nrows = a.ncols ∧ x.ncols = d ∧ 0 < d ∧
      (∀ i, i < a.nrows → ∀ c, c < d → ∑ j ∈ Finset.range a.ncols, a.ent i j * x.ent j c = 0) ∧
      (∀ g : Nat → T, (∀ j, j < a.ncols → ∑ c ∈ Finset.range d, x.ent j c * g c = 0) →
        ∀ c, c < d → g c = 0) ∧
      (∀ y : Nat → T, (∀ i, i < a.nrows → ∑ j ∈ Finset.range a.ncols, a.ent i j * y j = 0) →
        ∃ g : Nat → T, ∀ j, j < a.ncols → y j = ∑ c ∈ Finset.range d, x.ent j c * g c)) ∨
    (nullSpace a = .ok none ∧
      ∀ y : Nat → T, (∀ i, i < a.nrows → ∑ j ∈ Finset.range a.ncols, a.ent i j * y j = 0) →
        ∀ j, j < a.ncols → y j = 0) := by
  have hn := ha.ncols_pos hm
  set m := a.nrows with hmd
  set n := a.ncols with hnd
  unfold nullSpace
  rw [transpose_eq ha]
  simp only [Outcome.ok_bind]
  set at' := ofFn n m (fun j i => a.ent i j) with hat
  have hatr : at'.nrows = n := ofFn_nrows _ _ _ hm
  obtain ⟨id, st, hid, hst, hstw, hstc, hstr, haug⟩ := aug_rows (r := m) (n := n) hn (m := at')
    (L := a.ent) (ofFn_wf _ _ _) hatr rfl (by
      intro i hi j hj
      rw [hat, ofFn_ent _ hi hj])
  rw [hatr, hid]
  simp only [Outcome.ok_bind]
  rw [hst]
  simp only [Outcome.ok_bind]
  obtain ⟨qs, hq1, hqE, hqR, hqspan, -⟩ := reducedBasis_ok hstw
  rw [hstc] at hq1 hqE
  rw [hq1]
  simp only [Outcome.ok_bind]
  have hql := aug_length haug hqE hqspan
  have hqne : qs ≠ [] := by intro h; rw [h] at hql; simp at hql; omega
  have hqw := matOf_wf (m + n) qs
  have hqr : (matOf (m + n) qs).nrows = n := by rw [matOf_nrows (by omega), hql]
  have hqc : (matOf (m + n) qs).ncols = m + n := matOf_ncols hqne
  have hatc : at'.ncols = m := rfl
  rw [submatrix_eq hqw le_rfl (by omega) (by omega) (by omega),
    submatrix_eq hqw le_rfl le_rfl (by omega) (by omega)]
  simp only [Outcome.ok_bind, Nat.sub_zero, Nat.add_zero]
  rw [hqr, hqc, hatc]
  have hleft : ofFn n m (fun i j => (matOf (m + n) qs).ent i j) =
      ofFn qs.length m (fun i j => rw' qs i j) := by
    rw [hql]
    exact ofFn_congr (fun i hi j hj => matOf_ent hqne (by omega) (by omega))
  rw [hleft]
  obtain ⟨s, hs, hrank, hz, hpv⟩ := rank_left hqE hm (by omega)
  rw [hrank]
  simp only [Outcome.ok_bind]
  set rm := ofFn n (m + n - m) (fun i j => (matOf (m + n) qs).ent i (j + m)) with hrm
  have hrmr : rm.nrows = n := ofFn_nrows _ _ _ (by omega)
  have hrmc : rm.ncols = n := by rw [hrm, ofFn_ncols]; omega
  have hre : ∀ i, i < n → ∀ j, j < n → rm.ent i j = rw' qs i (m + j) := by
    intro i hi j hj
    rw [hrm, ofFn_ent _ hi (by omega), matOf_ent hqne (by omega) (by omega), Nat.add_comm]
  have hrel := fun i hi j hj => aug_rel haug hqspan i hi j hj
  -- kernel vectors are combinations of the last rows
  have hker : ∀ y : Nat → T, (∀ i, i < m → ∑ j ∈ Finset.range n, a.ent i j * y j = 0) →
      ∃ g : Nat → T, (∀ l, l < s → g l = 0) ∧ ∀ j, j < n → y j = ∑ l ∈ Finset.range n, g l * rw' qs l (m + j) := by
    intro y hy
    have hmem : (fun j => if j < m then 0 else if j < m + n then y (j - m) else 0) ∈ rspan qs := by
      rw [hqspan, mem_rspan_sum]
      refine ⟨y, fun j => ?_⟩
      rw [haug.1]
      by_cases h1 : j < m
      · rw [if_pos h1, ← hy j h1]
        apply Finset.sum_congr rfl
        intro l hl
        rw [haug.2 l (Finset.mem_range.1 hl), if_pos h1, mul_comm]
      · rw [if_neg h1]
        by_cases h2 : j < m + n
        · rw [if_pos h2, Finset.sum_eq_single (j - m)]
          · rw [haug.2 (j - m) (by omega), if_neg h1, if_pos (by omega), mul_one]
          · intro l hl hne
            rw [haug.2 l (Finset.mem_range.1 hl), if_neg h1, if_neg (by omega), mul_zero]
          · intro h; exact absurd (Finset.mem_range.2 (by omega)) h
        · rw [if_neg h2]
          symm
          apply Finset.sum_eq_zero
          intro l hl
          have := Finset.mem_range.1 hl
          rw [haug.2 l this, if_neg h1, if_neg (by omega), mul_zero]
    obtain ⟨g, hg⟩ := mem_rspan_sum.1 hmem
    rw [hql] at hg
    refine ⟨g, ?_, fun j hj => ?_⟩
    · obtain ⟨c, hc, hp⟩ := hqE.pivots
      intro l hl
      have hlq : l < qs.length := by omega
      have := piv_coeff hc (fun i => (hp i).1) (fun i => g i.1) m ?_ ⟨l, hlq⟩ ?_
      · exact this
      · intro j hj
        have h1 := hg j
        rw [if_pos hj, ← hql, Finset.sum_range] at h1
        rw [h1]
        apply Finset.sum_congr rfl
        intro i _
        rw [rw'_lt i.2]; rfl
      · obtain ⟨d, hd, hpd⟩ := hpv l hl
        rw [rw'_lt hlq] at hpd
        rw [(hp ⟨l, hlq⟩).1.unique hpd]
        exact hd
    · have h1 := hg (m + j)
      rw [if_neg (by omega), if_pos (by omega), Nat.add_sub_cancel_left] at h1
      exact h1
  rw [hrmr]
  have hsn : s ≤ n := by omega
  by_cases hlt : s < n
  · rw [if_pos hlt, submatrix_eq (ofFn_wf _ _ _) (by rw [hrmr]) le_rfl hsn (by omega)]
    simp only [Outcome.ok_bind, Nat.sub_zero, Nat.add_zero]
    rw [transpose_eq (ofFn_wf _ _ _)]
    simp only [Outcome.ok_bind]
    left
    have e1 : (ofFn (n - s) rm.ncols (fun i j => rm.ent (i + s) j)).ncols = n := hrmc
    have e2 : (ofFn (n - s) rm.ncols (fun i j => rm.ent (i + s) j)).nrows = n - s :=
      ofFn_nrows _ _ _ (by omega)
    rw [e1, e2]
    set x := ofFn n (n - s) (fun j i => (ofFn (n - s) rm.ncols (fun i j => rm.ent (i + s) j)).ent i j) with hx
    have hxe : ∀ j, j < n → ∀ c, c < n - s → x.ent j c = rw' qs (s + c) (m + j) := by
      intro j hj c hc
      rw [hx, ofFn_ent _ hj hc, ofFn_ent _ hc (by omega), hre _ (by omega) j hj, Nat.add_comm c s]
    have hsplit : ∀ (g : Nat → T) (j : Nat), (∀ l, l < s → g l = 0) → j < n →
        ∑ l ∈ Finset.range n, g l * rw' qs l (m + j) = ∑ c ∈ Finset.range (n - s), x.ent j c * g (s + c) := by
      intro g j hg hj
      have : Finset.range n = Finset.range (s + (n - s)) := by congr 1; omega
      rw [this, Finset.sum_range_add, Finset.sum_eq_zero (s := Finset.range s), zero_add]
      · apply Finset.sum_congr rfl
        intro c hc
        rw [hxe j hj c (Finset.mem_range.1 hc), mul_comm]
      · intro l hl; rw [hg l (Finset.mem_range.1 hl), zero_mul]
    refine ⟨x, n - s, rfl, ofFn_wf _ _ _, ofFn_nrows _ _ _ (by omega), rfl, by omega, ?_, ?_, ?_⟩
    · intro i hi c hc
      have h1 := hrel i hi (s + c) (by omega)
      rw [hz (s + c) (by omega) i hi] at h1
      rw [h1]
      apply Finset.sum_congr rfl
      intro j hj
      rw [hxe j (Finset.mem_range.1 hj) c hc, mul_comm]
    · intro g hg c hc
      have hli := li_iff_sum.1 hqE.li (fun l => if l < s then 0 else g (l - s)) ?_ (s + c) (by omega)
      · simpa using hli
      · intro j
        rw [hql]
        by_cases h1 : j < m
        · apply Finset.sum_eq_zero
          intro l _
          by_cases h2 : l < s
          · rw [if_pos h2, zero_mul]
          · rw [hz l (by omega) j h1, mul_zero]
        · by_cases h2 : j < m + n
          · obtain ⟨j', rfl⟩ : ∃ j', j = m + j' := ⟨j - m, by omega⟩
            rw [hsplit _ j' (fun l hl => by rw [if_pos hl]) (by omega), ← hg j' (by omega)]
            apply Finset.sum_congr rfl
            intro c _
            simp
          · apply Finset.sum_eq_zero
            intro l hl
            have hl := Finset.mem_range.1 hl
            rw [rw'_lt (by omega), rent_ge, mul_zero]
            rw [(hqE.row _ (List.getElem_mem _)).1]; omega
    · intro y hy
      obtain ⟨g, hg0, hg⟩ := hker y hy
      refine ⟨fun c => g (s + c), fun j hj => ?_⟩
      rw [hg j hj, hsplit g j hg0 hj]
  · rw [if_neg hlt]
    right
    refine ⟨rfl, fun y hy j hj => ?_⟩
    obtain ⟨g, hg0, hg⟩ := hker y hy
    rw [hg j hj]
    apply Finset.sum_eq_zero
    intro l hl
    rw [hg0 l (by have := Finset.mem_range.1 hl; omega), zero_mul]

end Systre
