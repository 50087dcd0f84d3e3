import Verif.Lemmas.FloatShape
import Verif.Spec.LinearAlgebra

/-! Helper lemmas: `rank`, `determinant`, `reduced_basis`, `solve`, `null_space` over `f64` always return, and the shape of
what they return. -/

namespace Systre.FloatShape

open Systre Mat

variable {F : Type} [FloatArith F] [DecidableEq F]

omit [DecidableEq F] in
theorem rent_rowL (m : Mat F) (i j : Nat) : rent (m.rowL i) j = if j < m.ncols then m.ent i j else 0 := by
  split
  · rename_i h; exact m.rowL_getD i j h
  · rename_i h; exact rent_ge (by simpa using h)

/-- the rows of a matrix -/
def rowsL (m : Mat F) : List (List F) := (List.range m.nrows).map m.rowL

omit [DecidableEq F] in
theorem rowsL_len {m : Mat F} : ∀ b ∈ rowsL m, b.length = m.ncols := by
  intro b hb
  obtain ⟨i, _, rfl⟩ := List.mem_map.1 hb
  simp

/-- the matrix `reduced_basis` makes of a list of rows -/
def matOf (n : Nat) (bs : List (List F)) : Mat F := if bs = [] then ⟨0, 0, []⟩ else ofRows n bs

theorem stackRows_ok {n : Nat} {bs : List (List F)} (hl : ∀ b ∈ bs, b.length = n) (hn : bs ≠ [] → 0 < n) :
    stackRows bs = .ok (matOf n bs) := by
  unfold stackRows matOf
  by_cases h : bs = []
  · subst h; rfl
  · rw [if_neg h, omap_ok (g := fun r => ofRows n [r]) (fun b hb => row_eq b (hl b hb) (hn h))]
    simp only [Outcome.ok_bind]
    exact vstack_rows (hn h) bs hl h

theorem matOf_ent {n : Nat} {bs : List (List F)} (hne : bs ≠ []) {i j : Nat} (hi : i < bs.length)
    (hj : j < n) : (matOf n bs).ent i j = rent bs[i] j := by
  unfold matOf
  rw [if_neg hne]
  unfold ofRows
  rw [ofFn_ent _ hi hj]
  simp [List.getD, hi, rent]

theorem matOf_wf (n : Nat) (bs : List (List F)) : (matOf n bs).WF := by
  unfold matOf
  split
  · exact ⟨rfl, fun _ => rfl⟩
  · exact ofFn_wf _ _ _

theorem matOf_nrows {n : Nat} {bs : List (List F)} (hn : 0 < n) : (matOf n bs).nrows = bs.length := by
  unfold matOf
  split
  · rename_i h; subst h; rfl
  · exact ofFn_nrows _ _ _ hn

theorem matOf_ncols {n : Nat} {bs : List (List F)} (hne : bs ≠ []) : (matOf n bs).ncols = n := by
  unfold matOf; rw [if_neg hne]; rfl

theorem rowBasis_ok {m : Mat F} (h : m.WF) : ∃ bs, rowBasis m = .ok bs ∧ Ech m.ncols bs ∧
    bs.length ≤ m.nrows ∧ ∀ c, Has (rowsL m) c → Has bs c := by
  obtain ⟨bs, h1, h2, h3, -, h4⟩ := extendAll_ok m.ncols (rowsL m) [] (Ech.nil _) rowsL_len
  refine ⟨bs, ?_, h2, by simpa [rowsL] using h3, h4⟩
  unfold rowBasis
  rw [getRows_eq h]
  exact h1

theorem rank_ok {m : Mat F} (h : m.WF) : ∃ k, rank m = .ok k ∧ k ≤ m.nrows ∧ k ≤ m.ncols := by
  obtain ⟨bs, h1, h2, h3, -⟩ := rowBasis_ok h
  exact ⟨bs.length, by unfold rank; rw [h1]; rfl, h3, h2.length_le⟩

theorem determinant_ok {m : Mat F} (h : m.WF) (hs : m.nrows = m.ncols) :
    ∃ d, determinant m = .ok d ∧ (4 ≤ m.nrows → rank m ≠ .ok m.nrows → d = 0) := by
  have hg : ∀ i j, i < m.nrows → j < m.nrows → m.get i j = .ok (m.ent i j) :=
    fun i j hi hj => get_ok h hi (by omega)
  unfold determinant
  rw [if_neg (by simp [hs])]
  split
  · exact ⟨1, rfl, by omega⟩
  · rename_i e
    exact ⟨_, hg 0 0 (by omega) (by omega), by omega⟩
  · rename_i e
    rw [hg 0 0 (by omega) (by omega), hg 1 1 (by omega) (by omega), hg 0 1 (by omega) (by omega),
      hg 1 0 (by omega) (by omega)]
    exact ⟨_, rfl, by omega⟩
  · rename_i e
    rw [hg 0 0 (by omega) (by omega), hg 0 1 (by omega) (by omega), hg 0 2 (by omega) (by omega),
      hg 1 0 (by omega) (by omega), hg 1 1 (by omega) (by omega), hg 1 2 (by omega) (by omega),
      hg 2 0 (by omega) (by omega), hg 2 1 (by omega) (by omega), hg 2 2 (by omega) (by omega)]
    exact ⟨_, rfl, by omega⟩
  · obtain ⟨bs, h1, h2, h3, -⟩ := rowBasis_ok h
    rw [h1]
    simp only [Outcome.ok_bind]
    split
    · exact ⟨0, rfl, fun _ _ => rfl⟩
    · rename_i hlt
      have hbl : bs.length = m.nrows := by omega
      have hd : ∀ i ∈ List.range m.nrows, diagEntry bs i = .ok (rent (bs.getD i []) i) := by
        intro i hi
        have hi := List.mem_range.1 hi
        have hl : bs[i].length = m.ncols := (h2.row _ (List.getElem_mem _)).1
        unfold diagEntry vecGet
        rw [List.getElem?_eq_getElem (by omega)]
        simp only [Outcome.ok_bind]
        rw [List.getElem?_eq_getElem (by omega)]
        simp only
        have e : bs.getD i [] = bs[i] := by simp [List.getD, show i < bs.length by omega]
        rw [e, rent_lt (by omega)]
      rw [omap_ok hd]
      refine ⟨_, rfl, fun _ hr => absurd ?_ hr⟩
      unfold rank
      rw [h1]
      simp [hbl]

theorem reducedBasis_ok {m : Mat F} (h : m.WF) : ∃ bs, reducedBasis m = .ok (matOf m.ncols bs) ∧
    rank m = .ok bs.length ∧ Ech m.ncols bs ∧ Red bs ∧ bs.length ≤ m.nrows ∧ ∀ c, Has (rowsL m) c → Has bs c := by
  obtain ⟨bs0, h1, h2, h3, h4⟩ := rowBasis_ok h
  obtain ⟨bs, h5, h6, h7, h8⟩ := reduceRows_ok m.ncols bs0 [] 0 (by simpa using h2)
    ⟨by simp, by simp⟩ (by intros; omega)
  rw [List.nil_append] at h8
  have hlen : bs.length = bs0.length := h8.length_eq.symm
  refine ⟨bs, ?_, ?_, h6, h7, by omega, ?_⟩
  · unfold reducedBasis
    rw [h1]
    simp only [Outcome.ok_bind]
    rw [h5]
    simp only [Outcome.ok_bind]
    refine stackRows_ok (fun b hb => (h6.row b hb).1) (fun hne => ?_)
    obtain ⟨b, hb⟩ := List.exists_mem_of_ne_nil _ hne
    obtain ⟨hl, c, hc⟩ := h6.row b hb
    have := hc.lt_length
    omega
  · unfold rank; rw [h1, hlen]; rfl
  · intro c hc
    obtain ⟨b, hb, hp⟩ := h4 c hc
    obtain ⟨b', hb', hr⟩ := forall₂_mem_right h8.flip b hb
    exact ⟨b', hb', (hr c).1 hp⟩

/-- The pivot columns of the matrix `reduced_basis` returns. -/
theorem Red.rref {n : Nat} {bs : List (List F)} (hE : Ech n bs) (hR : Red bs) {p : Fin bs.length → Fin n}
    (hp : ∀ i, Piv (rent bs[i.1]) (p i).1) (i i' : Fin bs.length) :
    rent bs[i'.1] (p i).1 = if i' = i then 1 else 0 := by
  split
  · rename_i h; subst h
    exact hR.one _ (List.getElem_mem _) _ (hp i')
  · rename_i h
    rcases lt_or_gt_of_ne (fun e => h (Fin.ext e) : i'.1 ≠ i.1) with hlt | hgt
    · exact List.pairwise_iff_getElem.1 hR.zero i'.1 i.1 i'.2 i.2 hlt _ (hp i)
    · exact List.pairwise_iff_getElem.1 hE.inc i.1 i'.1 i.2 i'.2 hgt _ (hp i) _ le_rfl

/-! ### `rank` of rows that are in echelon form, with some zero rows -/

theorem extendAll_filter (n : Nat) : ∀ (vs bs : List (List F)), (∀ v ∈ vs, v.length = n) →
    Ech n (bs ++ vs.filter (fun v => (pivotColumn v).isSome)) →
    extendAll vs bs = .ok (bs ++ vs.filter (fun v => (pivotColumn v).isSome)) := by
  intro vs
  induction vs with
  | nil => intro bs _ _; simp [extendAll]
  | cons v vs ih =>
    intro bs hl h
    unfold extendAll
    have h1 : Ech n bs := ⟨fun b hb => h.row b (by simp [hb]), (List.pairwise_append.1 h.inc).1⟩
    cases hp : pivotColumn v with
    | none =>
      rw [extendBasis_append n bs v h1 (hl v (by simp)) (fun b hb c hc j hj => pivotColumn_none.1 hp j), hp]
      rw [List.filter_cons_of_neg (by simp [hp])] at h ⊢
      simp only [Option.isSome_none, Bool.false_eq_true, if_false, Outcome.ok_bind]
      exact ih bs (fun w hw => hl w (by simp [hw])) h
    | some c =>
      rw [List.filter_cons_of_pos (by simp [hp])] at h ⊢
      rw [extendBasis_append n bs v h1 (hl v (by simp)) (fun b hb c hc j hj =>
        (List.pairwise_append.1 h.inc).2.2 b hb v (by simp) c hc j hj), hp]
      simp only [Option.isSome_some, if_true, Outcome.ok_bind]
      rw [ih (bs ++ [v]) (fun w hw => hl w (by simp [hw])) (by simpa using h)]
      simp

omit [DecidableEq F] in
/-- the first `n` entries of rows in echelon form -/
theorem Ech.restrict {N n : Nat} {bs : List (List F)} (h : Ech N bs) {rows : List (List F)}
    (hl : ∀ v ∈ rows, v.length = n)
    (hr : List.Forall₂ (fun b v => ∀ j, j < n → rent v j = rent b j) bs rows) :
    rows.Pairwise (fun b d => ∀ c, Piv (rent b) c → ∀ j, j ≤ c → rent d j = 0) := by
  have hr' : List.Forall₂ (fun b v => v.length = n ∧ ∀ j, j < n → rent v j = rent b j) bs rows :=
    ((List.forall₂_and_left _ _).2 ⟨hl, hr.flip⟩).flip
  refine forall₂_pairwise hr' h.inc ?_
  intro b hb d v w hd hv hw hbd c hc j hj
  have hcn : c < n := by have := hc.lt_length; rwa [hv.1] at this
  have hc' : Piv (rent b) c := ⟨fun k hk => by rw [← hv.2 k (by omega)]; exact hc.1 k hk,
    by rw [← hv.2 c hcn]; exact hc.2⟩
  rw [hw.2 j (by omega)]
  exact hbd c hc' j hj

/-- `rank` of the first columns of a reduced matrix: the number of rows with a pivot there. -/
theorem rank_left {N n r : Nat} {bs : List (List F)} (hE : Ech N bs) (hr : bs.length = r) {m : Mat F} (hw : m.WF)
    (hnr : m.nrows = r) (hnc : m.ncols = n)
    (hent : ∀ (i : Nat) (hi : i < bs.length) (j : Nat), j < n → m.ent i j = rent bs[i] j) :
    ∃ k, rank m = .ok k ∧ k ≤ r ∧ (k = r ↔ ∀ b ∈ bs, ∀ c, Piv (rent b) c → c < n) := by
  have hlen : (rowsL m).length = r := by simp [rowsL, hnr]
  have hl : ∀ v ∈ rowsL m, v.length = n := fun v hv => by rw [rowsL_len v hv, hnc]
  have hf : List.Forall₂ (fun b v => ∀ j, j < n → rent v j = rent b j) bs (rowsL m) := by
    rw [List.forall₂_iff_get]
    refine ⟨by omega, fun i h1 h2 j hj => ?_⟩
    have e : (rowsL m)[i] = m.rowL i := by simp [rowsL]
    simp only [List.get_eq_getElem, e]
    rw [rent_rowL, if_pos (by omega), hent i h1 j hj]
  have hpw := hE.restrict hl hf
  have hE' : Ech n (([] : List (List F)) ++ (rowsL m).filter (fun v => (pivotColumn v).isSome)) := by
    rw [List.nil_append]
    refine ⟨?_, hpw.sublist List.filter_sublist⟩
    intro v hv
    obtain ⟨hv1, hv2⟩ := List.mem_filter.1 hv
    obtain ⟨c, hc⟩ := Option.isSome_iff_exists.1 hv2
    exact ⟨hl v hv1, c, pivotColumn_some.1 hc⟩
  refine ⟨((rowsL m).filter (fun v => (pivotColumn v).isSome)).length, ?_, ?_, ?_⟩
  · unfold rank rowBasis
    rw [getRows_eq hw]
    simp only [Outcome.ok_bind]
    have := extendAll_filter n (rowsL m) [] hl hE'
    unfold rowsL at this
    rw [this]
    rfl
  · rw [← hlen]; exact List.length_filter_le _ _
  · rw [← hlen, List.length_filter_eq_length_iff]
    constructor
    · intro h b hb c hc
      obtain ⟨v, hv, hbv⟩ := forall₂_mem_right hf.flip b hb
      obtain ⟨d, hd⟩ := Option.isSome_iff_exists.1 (h v hv)
      have hd := pivotColumn_some.1 hd
      have hdn : d < n := by have := hd.lt_length; rwa [hl v hv] at this
      have : Piv (rent b) d := ⟨fun k hk => by rw [← hbv k (by omega)]; exact hd.1 k hk,
        by rw [← hbv d hdn]; exact hd.2⟩
      rw [hc.unique this]; exact hdn
    · intro h v hv
      obtain ⟨b, hb, hbv⟩ := forall₂_mem_right hf v hv
      obtain ⟨-, c, hc⟩ := hE.row b hb
      have hcn := h b hb c hc
      have : Piv (rent v) c := ⟨fun k hk => by rw [hbv k (by omega)]; exact hc.1 k hk,
        by rw [hbv c hcn]; exact hc.2⟩
      rw [pivotColumn_some.2 this]; rfl

/-! ### `solve` -/

omit [DecidableEq F] in
theorem mul_ok {a b : Mat F} (ha : a.WF) (hb : b.WF) (h : a.ncols = b.nrows) :
    ∃ f, Mat.mul a b = .ok (ofFn a.nrows b.ncols f) := by
  refine ⟨fun i j => ((List.range a.ncols).map (fun k => a.ent i k * b.ent k j)).foldl (· + ·) 0, ?_⟩
  unfold Mat.mul
  simp only [h, rassert, decide_true, if_true, Outcome.ok_bind]
  rw [grid_ok (g := fun i j => ((List.range b.nrows).map (fun k => a.ent i k * b.ent k j)).foldl (· + ·) 0)]
  · exact new_grid _ _ _
  · intro i hi j hj
    rw [omap_ok (g := fun k => a.ent i k * b.ent k j)]
    · rfl
    · intro k hk
      have hk := List.mem_range.1 hk
      rw [get_ok ha hi (h ▸ hk), get_ok hb hk hj]; rfl

theorem solveLoop_ok {bm rm : Mat F} (hb : bm.WF) (hr : rm.WF) (hn : bm.nrows = rm.nrows) :
    ∀ (is : List Nat) (x : List (List F)), (∀ i ∈ is, i < rm.nrows) →
      solveLoop bm rm is x = .ok (some (x ++ is.map rm.rowL)) := by
  intro is
  induction is with
  | nil => intro x _; simp [solveLoop]
  | cons i is ih =>
    intro x h
    unfold solveLoop
    rw [getRow_eq hb (by rw [hn]; exact h i (by simp)), getRow_eq hr (h i (by simp))]
    simp only [Outcome.ok_bind]
    have e : (Scalar.solveRow (bm.rowL i) x (rm.rowL i) : Outcome (Option (List F))) = .ok (some (rm.rowL i)) := rfl
    rw [e]
    simp only [Outcome.ok_bind]
    rw [ih _ (fun j hj => h j (by simp [hj]))]
    simp

theorem solveFull_ok {lm rm : Mat F} {r n k : Nat} (hlw : lm.WF) (hrw : rm.WF) (hlmr : lm.nrows = r)
    (hlmc : lm.ncols = n) (hrmr : rm.nrows = r) (hrmc : rm.ncols = k) (hr0 : 0 < r) (hn0 : 0 < n) (hk0 : 0 < k)
    (p : Fin r → Fin n) (hp : ∀ i j : Fin r, lm.ent j.1 (p i).1 = if j = i then 1 else 0) :
    ∃ x, solveFull lm rm = .ok (some x) ∧ x.WF ∧ x.nrows = n ∧ x.ncols = k := by
  unfold solveFull
  rw [transpose_eq hlw]
  simp only [Outcome.ok_bind]
  rw [hlmr, hlmc]
  set lt := ofFn n r (fun j i => lm.ent i j) with hltd
  have hltr : lt.nrows = n := ofFn_nrows _ _ _ hr0
  rw [identity_eq]
  simp only [Outcome.ok_bind]
  set id := ofFn n n (fun i j => if i = j then (1 : F) else 0) with hid
  have hidr : id.nrows = n := ofFn_nrows _ _ _ hn0
  rw [hstack2_eq (ofFn_wf _ _ _) (ofFn_wf _ _ _) (by rw [← hltd, ← hid, hltr, hidr])]
  simp only [Outcome.ok_bind]
  rw [← hltd, ← hid, hltr]
  have hltc : lt.ncols = r := rfl
  have hidc : id.ncols = n := rfl
  rw [hltc, hidc]
  set st := ofFn n (r + n) (fun i j => if j < r then lt.ent i j else id.ent i (j - r)) with hst
  have hstw : st.WF := ofFn_wf _ _ _
  have hstr : st.nrows = n := ofFn_nrows _ _ _ (by omega)
  have hstc : st.ncols = r + n := rfl
  obtain ⟨qs, hq1, -, hqE, hqR, -, hqh⟩ := reducedBasis_ok hstw
  rw [hstc] at hq1 hqE
  rw [hq1]
  simp only [Outcome.ok_bind]
  have hHas : ∀ c, c < r → Has qs c := by
    intro c hc
    apply hqh
    have hrow : ∀ j, j < r → rent (st.rowL (p ⟨c, hc⟩).1) j = if j = c then 1 else 0 := by
      intro j hj
      rw [rent_rowL, hstc, if_pos (by omega), hst, ofFn_ent _ (p ⟨c, hc⟩).2 (by omega), if_pos hj, hltd,
        ofFn_ent _ (p ⟨c, hc⟩).2 hj, hp ⟨c, hc⟩ ⟨j, hj⟩]
      simp [Fin.ext_iff]
    refine ⟨st.rowL (p ⟨c, hc⟩).1, List.mem_map.2 ⟨(p ⟨c, hc⟩).1, by simp [hstr], rfl⟩, ?_, ?_⟩
    · intro j hj; rw [hrow j (by omega), if_neg (by omega)]
    · rw [hrow c hc, if_pos rfl]; exact FloatArith.one_ne_zero
  have hqge : r ≤ qs.length := by
    have hidx : ∀ c : Fin r, ∃ i : Fin qs.length, Piv (rent qs[i.1]) c.1 := by
      intro c
      obtain ⟨b, hb, hc⟩ := hHas c.1 c.2
      obtain ⟨i, hi, rfl⟩ := List.getElem_of_mem hb
      exact ⟨⟨i, hi⟩, hc⟩
    choose f hf using hidx
    have : Function.Injective f := by
      intro a b h
      have h1 := hf a
      rw [h] at h1
      exact Fin.ext (h1.unique (hf b))
    simpa using Fintype.card_le_of_injective f this
  have hqne : qs ≠ [] := by intro h; rw [h] at hqge; simp at hqge; omega
  have hqw := matOf_wf (r + n) qs
  have hqr : (matOf (r + n) qs).nrows = qs.length := matOf_nrows (by omega)
  have hqc : (matOf (r + n) qs).ncols = r + n := matOf_ncols hqne
  rw [submatrix_eq hqw le_rfl (by omega) (by omega) (by omega),
    submatrix_eq hqw le_rfl le_rfl (by omega) (by omega)]
  simp only [Outcome.ok_bind, Nat.sub_zero, Nat.add_zero]
  rw [hqr, hqc, transpose_eq (ofFn_wf _ _ _), transpose_eq (ofFn_wf _ _ _)]
  simp only [Outcome.ok_bind, ofFn_ncols]
  have hnr1 : ∀ f : Nat → Nat → F, (ofFn qs.length r f).nrows = qs.length := fun f => ofFn_nrows _ _ _ hr0
  have hnr2 : ∀ f : Nat → Nat → F, (ofFn qs.length (r + n - r) f).nrows = qs.length :=
    fun f => ofFn_nrows _ _ _ (by omega)
  rw [hnr1, hnr2]
  rw [solveLoop_ok (ofFn_wf _ _ _) hrw (by rw [hrmr]; exact ofFn_nrows _ _ _ (by omega)) _ _
    (fun i hi => List.mem_range.1 hi)]
  simp only [Outcome.ok_bind, List.nil_append]
  rw [hrmr, hrmc]
  set x' := (List.range r).map rm.rowL ++ List.replicate (qs.length - r) (List.replicate k (0 : F)) with hx'
  have hx'l : x'.length = qs.length := by rw [hx']; simp; omega
  have hx'ne : x' ≠ [] := by intro h; rw [h] at hx'l; simp at hx'l; omega
  rw [stackRows_ok (n := k) (by
    intro y hy
    rw [hx', List.mem_append] at hy
    rcases hy with hy | hy
    · obtain ⟨i, -, rfl⟩ := List.mem_map.1 hy
      simp [hrmc]
    · rw [(List.mem_replicate.1 hy).2, List.length_replicate]) (fun _ => hk0)]
  simp only [Outcome.ok_bind]
  have hxmr : (matOf k x').nrows = qs.length := by rw [matOf_nrows hk0, hx'l]
  have hxmc : (matOf k x').ncols = k := matOf_ncols hx'ne
  obtain ⟨f, hf⟩ := mul_ok (a := ofFn (r + n - r) qs.length (fun j i => (ofFn qs.length (r + n - r)
    (fun i j => (matOf (r + n) qs).ent i (j + r))).ent i j)) (b := matOf k x') (ofFn_wf _ _ _) (matOf_wf _ _)
    (by rw [hxmr]; rfl)
  rw [hf]
  simp only [Outcome.ok_bind]
  refine ⟨_, rfl, ofFn_wf _ _ _, ?_, by rw [ofFn_ncols, hxmc]⟩
  rw [ofFn_nrows _ _ _ (by rw [hxmc]; exact hk0), ofFn_nrows _ _ _ (by omega)]
  omega

theorem solve_ok {lft rgt : Mat F} (hl : lft.WF) (hr : rgt.WF) (hmr : lft.nrows = rgt.nrows)
    (hnk : 0 < lft.ncols → 0 < rgt.ncols) :
    ∃ st bs, Mat.hstack [lft, rgt] = .ok st ∧ st.WF ∧ st.nrows = lft.nrows ∧ st.ncols = lft.ncols + rgt.ncols ∧
      reducedBasis st = .ok (matOf st.ncols bs) ∧ Ech st.ncols bs ∧ Red bs ∧
      ((solve lft rgt = .ok none ∧ ∃ b ∈ bs, ∃ c, Piv (rent b) c ∧ lft.ncols ≤ c) ∨
       ((∃ x, solve lft rgt = .ok (some x) ∧ x.WF ∧ x.nrows = lft.ncols ∧ x.ncols = rgt.ncols) ∧
        ∀ b ∈ bs, ∀ c, Piv (rent b) c → c < lft.ncols)) := by
  set n := lft.ncols with hn
  set k := rgt.ncols with hk
  have hst := hstack2_eq hl hr hmr
  set st := ofFn lft.nrows (lft.ncols + rgt.ncols)
      (fun i j => if j < lft.ncols then lft.ent i j else rgt.ent i (j - lft.ncols)) with hstdef
  have hstw : st.WF := ofFn_wf _ _ _
  obtain ⟨bs, hb1, -, hE, hR, hlen, -⟩ := reducedBasis_ok hstw
  have hstc : st.ncols = n + k := rfl
  have hstn : st.nrows = lft.nrows := by
    by_cases h0 : 0 < n + k
    · exact ofFn_nrows _ _ _ h0
    · have h1 := ofFn_nrows_le lft.nrows (lft.ncols + rgt.ncols)
        (fun i j => if j < lft.ncols then lft.ent i j else rgt.ent i (j - lft.ncols))
      rw [← hstdef] at h1
      by_contra h2
      have := hl.ncols_pos (by omega)
      omega
  refine ⟨st, bs, hst, hstw, hstn, hstc, hb1, hE, hR, ?_⟩
  rw [hstc] at hb1 hE
  have hunf : solve lft rgt = (do
      let t : Mat F ← (.ok (matOf (n + k) bs) : Outcome (Mat F))
      if t.nrows = 0 then do
        let z ← Mat.zero lft.ncols rgt.ncols
        .ok (some z)
      else do
        let l ← t.submatrix 0 t.nrows 0 lft.ncols
        let r ← t.submatrix 0 t.nrows lft.ncols t.ncols
        let rk ← rank l
        if rk < l.nrows then .ok none else solveFull l r) := by
    unfold solve
    rw [show rassert (decide (lft.nrows = rgt.nrows)) = .ok () by simp [rassert, hmr]]
    simp only [Outcome.ok_bind]
    rw [hst]
    simp only [Outcome.ok_bind]
    rw [hb1]
    rfl
  rw [hunf]
  clear hunf
  simp only [Outcome.ok_bind]
  by_cases hbs : bs = []
  · subst hbs
    rw [if_pos (by simp [matOf])]
    rw [zero_eq]
    right
    refine ⟨⟨_, rfl, ofFn_wf _ _ _, ?_, rfl⟩, by simp⟩
    by_cases hk0 : 0 < k
    · exact ofFn_nrows _ _ _ hk0
    · have h1 := ofFn_nrows_le (T := F) n k (fun _ _ => 0)
      have : n = 0 := by by_contra h; exact hk0 (hnk (by omega))
      show (ofFn n k _).nrows = n
      omega
  · have hbl : 0 < bs.length := List.length_pos_iff.2 hbs
    have hm : 0 < lft.nrows := by omega
    have hn0 : 0 < n := hl.ncols_pos hm
    have hk0 : 0 < k := hr.ncols_pos (by omega)
    have htw := matOf_wf (n + k) bs
    have htr : (matOf (n + k) bs).nrows = bs.length := matOf_nrows (by omega)
    have htc : (matOf (n + k) bs).ncols = n + k := matOf_ncols hbs
    rw [if_neg (by omega), submatrix_eq htw le_rfl (by omega) (by omega) (by omega),
      submatrix_eq htw le_rfl le_rfl (by omega) (by omega)]
    simp only [Outcome.ok_bind, Nat.sub_zero, Nat.add_zero]
    rw [htr, htc]
    set r := bs.length with hrdef
    set lm := ofFn r n (fun i j => (matOf (n + k) bs).ent i j) with hlm
    set rm := ofFn r (n + k - n) (fun i j => (matOf (n + k) bs).ent i (j + n)) with hrm
    have hlmr : lm.nrows = r := ofFn_nrows _ _ _ hn0
    have hlmc : lm.ncols = n := rfl
    have hrmr : rm.nrows = r := ofFn_nrows _ _ _ (by omega)
    have hrmc : rm.ncols = k := by rw [hrm, ofFn_ncols]; omega
    have hle : ∀ (i : Nat) (hi : i < bs.length) (j : Nat), j < n → lm.ent i j = rent bs[i] j := by
      intro i hi j hj
      rw [hlm, ofFn_ent _ hi hj, matOf_ent hbs hi (by omega)]
    obtain ⟨rk, hrk, hrkle, hrkli⟩ := rank_left hE hrdef.symm (m := lm) (ofFn_wf _ _ _) hlmr hlmc hle
    rw [hrk]
    simp only [Outcome.ok_bind]
    rw [hlmr]
    by_cases hlt : rk < r
    · rw [if_pos hlt]
      left
      refine ⟨rfl, ?_⟩
      by_contra hcon
      push Not at hcon
      exact absurd (hrkli.2 (fun b hb c hc => hcon b hb c hc)) (by omega)
    · rw [if_neg hlt]
      right
      have hall := hrkli.1 (by omega)
      refine ⟨?_, hall⟩
      obtain ⟨p, hpm, hp⟩ := hE.pivots
      have hpn : ∀ i, (p i).1 < n := fun i => hall _ (List.getElem_mem i.2) _ (hp i)
      exact solveFull_ok (ofFn_wf _ _ _) (ofFn_wf _ _ _) hlmr hlmc hrmr hrmc hbl hn0 hk0
        (fun i => ⟨(p i).1, hpn i⟩) (fun i j => by
          rw [hle j.1 j.2 _ (hpn i)]
          exact Red.rref hE hR hp i j)

theorem inverse_ok {a : Mat F} (ha : a.WF) (hs : a.nrows = a.ncols) :
    inverse a = .ok none ∨ ∃ x, inverse a = .ok (some x) ∧ x.WF ∧ x.nrows = a.nrows ∧ x.ncols = a.nrows := by
  unfold inverse
  rw [show rassert (decide (a.nrows = a.ncols)) = .ok () by simp [rassert, hs]]
  simp only [Outcome.ok_bind]
  rw [identity_eq]
  simp only [Outcome.ok_bind]
  have hr : (ofFn a.nrows a.nrows (fun i j => if i = j then (1 : F) else 0)).nrows = a.nrows := by
    by_cases h : 0 < a.nrows
    · exact ofFn_nrows _ _ _ h
    · have := ofFn_nrows_le a.nrows a.nrows (fun i j => if i = j then (1 : F) else 0)
      omega
  obtain ⟨_, _, -, -, -, -, -, -, -, h⟩ := solve_ok ha (ofFn_wf _ _ _) hr.symm
    (by intro h; rw [ofFn_ncols]; omega)
  rcases h with ⟨h, -⟩ | ⟨⟨x, h1, h2, h3, h4⟩, -⟩
  · exact Or.inl h
  · exact Or.inr ⟨x, h1, h2, by omega, by rw [h4]; rfl⟩

theorem nullSpace_ok {a : Mat F} (ha : a.WF) (hm : 0 < a.nrows) :
    nullSpace a = .ok none ∨ ∃ x, nullSpace a = .ok (some x) ∧ x.WF ∧ x.nrows = a.ncols ∧ 0 < x.ncols ∧
      x.ncols ≤ a.ncols := by
  have hn0 : 0 < a.ncols := ha.ncols_pos hm
  set m := a.nrows with hmd
  set n := a.ncols with hnd
  unfold nullSpace
  rw [transpose_eq ha]
  simp only [Outcome.ok_bind]
  rw [← hmd, ← hnd]
  set at' := ofFn n m (fun j i => a.ent i j) with hat
  have hatr : at'.nrows = n := ofFn_nrows _ _ _ hm
  have hatc : at'.ncols = m := rfl
  rw [hatr, hatc, identity_eq]
  simp only [Outcome.ok_bind]
  set id := ofFn n n (fun i j => if i = j then (1 : F) else 0) with hid
  have hidr : id.nrows = n := ofFn_nrows _ _ _ hn0
  have hidc : id.ncols = n := rfl
  rw [hstack2_eq (ofFn_wf _ _ _) (ofFn_wf _ _ _) (by rw [← hat, ← hid, hatr, hidr])]
  simp only [Outcome.ok_bind]
  rw [← hat, ← hid, hatr, hatc, hidc]
  set st := ofFn n (m + n) (fun i j => if j < m then at'.ent i j else id.ent i (j - m)) with hst
  have hstw : st.WF := ofFn_wf _ _ _
  have hstr : st.nrows = n := ofFn_nrows _ _ _ (by omega)
  have hstc : st.ncols = m + n := rfl
  obtain ⟨qs, hq1, -, hqE, hqR, hql, hqh⟩ := reducedBasis_ok hstw
  rw [hstc] at hq1 hqE
  rw [hstr] at hql
  rw [hq1]
  simp only [Outcome.ok_bind]
  have hqne : qs ≠ [] := by
    -- the first row of `st` has a 1 in it
    intro h0
    have h1 : ∃ c, Has (rowsL st) c := by
      have hx : rent (st.rowL 0) m ≠ 0 := by
        rw [rent_rowL, hstc, if_pos (by omega), hst, ofFn_ent _ hn0 (by omega), if_neg (by omega), hid,
          ofFn_ent _ hn0 (by omega), Nat.sub_self, if_pos rfl]
        exact FloatArith.one_ne_zero
      have hs : ∃ c, rent (st.rowL 0) c ≠ 0 := ⟨m, hx⟩
      classical
      exact ⟨Nat.find hs, st.rowL 0, List.mem_map.2 ⟨0, by simp [hstr, hn0], rfl⟩,
        fun k hk => not_not.1 (Nat.find_min hs hk), Nat.find_spec hs⟩
    obtain ⟨c, hc⟩ := h1
    obtain ⟨b, hb, -⟩ := hqh c hc
    rw [h0] at hb; simp at hb
  have hqw := matOf_wf (m + n) qs
  have hqr : (matOf (m + n) qs).nrows = qs.length := matOf_nrows (by omega)
  have hqc : (matOf (m + n) qs).ncols = m + n := matOf_ncols hqne
  rw [submatrix_eq hqw le_rfl (by omega) (by omega) (by omega),
    submatrix_eq hqw le_rfl le_rfl (by omega) (by omega)]
  simp only [Outcome.ok_bind, Nat.sub_zero, Nat.add_zero]
  rw [hqr, hqc]
  set lm := ofFn qs.length m (fun i j => (matOf (m + n) qs).ent i j) with hlm
  set rm := ofFn qs.length (m + n - m) (fun i j => (matOf (m + n) qs).ent i (j + m)) with hrm
  have hlmr : lm.nrows = qs.length := ofFn_nrows _ _ _ hm
  have hrmr : rm.nrows = qs.length := ofFn_nrows _ _ _ (by omega)
  have hrmc : rm.ncols = n := by rw [hrm, ofFn_ncols]; omega
  have hle : ∀ (i : Nat) (hi : i < qs.length) (j : Nat), j < m → lm.ent i j = rent qs[i] j := by
    intro i hi j hj
    rw [hlm, ofFn_ent _ hi hj, matOf_ent hqne hi (by omega)]
  obtain ⟨rk, hrk, hrkle, -⟩ := rank_left hqE rfl (m := lm) (ofFn_wf _ _ _) hlmr rfl hle
  rw [hrk]
  simp only [Outcome.ok_bind]
  rw [hrmr]
  by_cases hlt : rk < qs.length
  · rw [if_pos hlt]
    right
    rw [hrmc, submatrix_eq (ofFn_wf _ _ _) (by rw [← hrm, hrmr]) (by rw [← hrm, hrmc]) (by omega) (by omega)]
    simp only [Outcome.ok_bind, Nat.sub_zero]
    rw [transpose_eq (ofFn_wf _ _ _)]
    simp only [Outcome.ok_bind]
    refine ⟨_, rfl, ofFn_wf _ _ _, ?_, ?_, ?_⟩
    · rw [ofFn_ncols, ofFn_nrows _ _ _ (by rw [ofFn_nrows _ _ _ hn0]; omega)]
    · rw [ofFn_ncols, ofFn_nrows _ _ _ hn0]; omega
    · rw [ofFn_ncols, ofFn_nrows _ _ _ hn0]; omega
  · rw [if_neg hlt]
    exact Or.inl rfl

end Systre.FloatShape
