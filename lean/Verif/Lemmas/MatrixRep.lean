import Verif.Spec.Matrices
import Verif.Lemmas.Matrices

/-! Helper lemmas linking the stored matrices to Mathlib matrices, and block operations. -/

namespace Systre
open Mat

section
variable {T : Type} [Zero T]

theorem Rep.wf {m : Mat T} {r c : Nat} {M : Matrix (Fin r) (Fin c) T} (h : Rep m M) : m.WF := by
  refine ⟨by rw [h.size, h.rows, h.cols], fun h0 => ?_⟩
  have := h.size
  rw [h0] at this
  rw [h.rows]
  by_contra hr
  have hc := h.empty (by omega)
  have : 0 < r * c := Nat.mul_pos (by omega) hc
  simp at *; omega

theorem Rep.ent {m : Mat T} {r c : Nat} {M : Matrix (Fin r) (Fin c) T} (h : Rep m M) (i : Fin r)
    (j : Fin c) : m.ent i.1 j.1 = M i j := by
  have h1 := h.entry i j
  rw [get_ok h.wf (by rw [h.rows]; exact i.2) (by rw [h.cols]; exact j.2)] at h1
  exact Outcome.ok.inj h1

theorem rep_of_ent {m : Mat T} {r c : Nat} {M : Matrix (Fin r) (Fin c) T} (hw : m.WF)
    (hr : m.nrows = r) (hc : m.ncols = c) (h : ∀ (i : Fin r) (j : Fin c), m.ent i.1 j.1 = M i j) :
    Rep m M := by
  refine ⟨hr, hc, by rw [hw.len, hr, hc], fun h0 => ?_, fun i j => ?_⟩
  · rw [← hc]; exact hw.ncols_pos (by omega)
  · rw [get_ok hw (by rw [hr]; exact i.2) (by rw [hc]; exact j.2), h]

/-- `ofFn` as a representation -/
theorem rep_ofFn {r c : Nat} (f : Nat → Nat → T) (hrc : 0 < r → 0 < c) :
    Rep (ofFn r c f) (fun (i : Fin r) (j : Fin c) => f i.1 j.1) := by
  refine rep_of_ent (ofFn_wf _ _ _) ?_ rfl (fun i j => ofFn_ent f i.2 j.2)
  by_cases h : 0 < c
  · exact ofFn_nrows _ _ _ h
  · have : r = 0 := by by_contra h1; exact h (hrc (by omega))
    have := ofFn_nrows_le r c f
    omega

theorem rep_ofFn' {r c : Nat} {f : Nat → Nat → T} {M : Matrix (Fin r) (Fin c) T}
    (hrc : 0 < r → 0 < c) (h : ∀ (i : Fin r) (j : Fin c), f i.1 j.1 = M i j) : Rep (ofFn r c f) M := by
  have := rep_ofFn f hrc
  have e : (fun (i : Fin r) (j : Fin c) => f i.1 j.1) = M := by ext i j; exact h i j
  rwa [e] at this

theorem col_ofFn' {n : Nat} (x : Fin n → T) :
    Mat.col (List.ofFn x) = .ok (ofFn n 1 (fun i _ => (List.ofFn x).getD i 0)) := by
  unfold Mat.col
  rw [← new_grid]
  congr 1
  apply List.ext_getElem
  · simp
  · intro i h1 h2
    have hi : i < n := by simpa using h1
    have := gridData_get (nr := n) (nc := 1) (fun i _ => (List.ofFn x).getD i 0) hi Nat.one_pos
    rw [Nat.mul_one, Nat.add_zero, List.getElem?_eq_getElem h2] at this
    rw [Option.some.inj this]
    simp [List.getD, hi]

theorem rep_set {m : Mat T} {r c : Nat} {M : Matrix (Fin r) (Fin c) T} (h : Rep m M) (i : Fin r) (j : Fin c)
    (x : T) : ∃ m', m.set i j x = .ok m' ∧ Rep m' (Matrix.of fun k l => if k = i ∧ l = j then x else M k l) := by
  have hlt := idx_lt (nr := m.nrows) (nc := m.ncols) (i := i) (j := j) (by rw [h.rows]; exact i.2)
    (by rw [h.cols]; exact j.2)
  have hlen := h.wf.len
  rw [← hlen] at hlt
  have hm : m.set i j x = .ok { m with data := m.data.set (i * m.ncols + j) x } := by
    unfold Mat.set
    rw [if_pos (by omega), if_pos (by rw [h.cols]; exact j.2)]
    simp [vecSet, hlt]
  have hw : ({ m with data := m.data.set (i * m.ncols + j) x } : Mat T).WF :=
    ⟨by simp [hlen], fun h0 => h.wf.2 (by simpa using h0)⟩
  refine ⟨_, hm, rep_of_ent hw h.rows h.cols ?_⟩
  intro k l
  have hcol := h.cols
  subst hcol
  have hiff : k.1 * m.ncols + l.1 = i.1 * m.ncols + j.1 ↔ k = i ∧ l = j := by
    constructor
    · intro he
      have hj := j.2
      have hl := l.2
      have h1 : (k.1 * m.ncols + l.1) / m.ncols = (i.1 * m.ncols + j.1) / m.ncols := by rw [he]
      have hc : 0 < m.ncols := by omega
      rw [Nat.mul_comm k.1, Nat.mul_comm i.1, Nat.mul_add_div hc, Nat.mul_add_div hc,
        Nat.div_eq_of_lt l.2, Nat.div_eq_of_lt j.2] at h1
      have h2 : k = i := Fin.ext (by omega)
      subst h2; exact ⟨rfl, Fin.ext (by omega)⟩
    · rintro ⟨rfl, rfl⟩; rfl
  have he := h.ent k l
  simp only [Mat.ent, List.getD] at he ⊢
  by_cases hkl : k = i ∧ l = j
  · obtain ⟨rfl, rfl⟩ := hkl
    simp [hlt]
  · rw [List.getElem?_set_ne (fun h1 => hkl (hiff.1 h1.symm)), he]
    simp [hkl]


theorem rep_unique {m m' : Mat T} {r c : Nat} {M : Matrix (Fin r) (Fin c) T} (h : Rep m M)
    (h' : Rep m' M) : m = m' := by
  apply ext_ent h.wf h'.wf (by rw [h.rows, h'.rows]) (by rw [h.cols, h'.cols])
  intro i hi j hj
  rw [h.rows] at hi; rw [h.cols] at hj
  exact (h.ent ⟨i, hi⟩ ⟨j, hj⟩).trans (h'.ent ⟨i, hi⟩ ⟨j, hj⟩).symm

/-- the mathematical matrix of given shape -/
def toM (m : Mat T) (r c : Nat) : Matrix (Fin r) (Fin c) T := fun i j => m.ent i.1 j.1

theorem rep_toM {m : Mat T} (h : m.WF) : Rep m (toM m m.nrows m.ncols) :=
  rep_of_ent h rfl rfl (fun _ _ => rfl)

theorem rep_toM' {m : Mat T} (h : m.WF) {r c : Nat} (hr : m.nrows = r) (hc : m.ncols = c) :
    Rep m (toM m r c) := rep_of_ent h hr hc (fun _ _ => rfl)

theorem Rep.eq_toM {m : Mat T} {r c : Nat} {M : Matrix (Fin r) (Fin c) T} (h : Rep m M) :
    M = toM m r c := by ext i j; exact (h.ent i j).symm

theorem rep_transpose {m : Mat T} {r c : Nat} {M : Matrix (Fin r) (Fin c) T} (h : Rep m M)
    (hr : 0 < r) : ∃ m', m.transpose = .ok m' ∧ Rep m' M.transpose := by
  refine ⟨_, transpose_eq h.wf, ?_⟩
  rw [h.rows, h.cols]
  exact rep_ofFn' (fun _ => hr) (fun i j => h.ent j i)

theorem rep_identity [One T] (n : Nat) :
    ∃ m : Mat T, Mat.identity n = .ok m ∧ Rep m (1 : Matrix (Fin n) (Fin n) T) := by
  refine ⟨_, identity_eq n, rep_ofFn' id (fun i j => ?_)⟩
  rw [Matrix.one_apply]
  simp [Fin.ext_iff]

theorem rep_isIdentity [One T] [DecidableEq T] {a : Mat T} {r c : Nat}
    {A : Matrix (Fin r) (Fin c) T} (ha : Rep a A) :
    ∃ b, Mat.isIdentity a = .ok b ∧ (b = true ↔ r = c ∧ ∀ i j, A i j = if i.1 = j.1 then 1 else 0) := by
  refine ⟨_, isIdentity_eq ha.wf, ?_⟩
  rw [decide_eq_true_eq, ha.rows, ha.cols]
  constructor
  · rintro ⟨h1, h2⟩; exact ⟨h1, fun i j => by rw [← ha.ent]; exact h2 i.1 i.2 j.1 j.2⟩
  · rintro ⟨h1, h2⟩; exact ⟨h1, fun i hi j hj => (ha.ent ⟨i, hi⟩ ⟨j, hj⟩).trans (h2 _ _)⟩

end

section
variable {T : Type} [CommRing T] {r c k : Nat}

theorem rep_mul {a b : Mat T} {A : Matrix (Fin r) (Fin k) T} {B : Matrix (Fin k) (Fin c) T}
    (ha : Rep a A) (hb : Rep b B) : ∃ m, Mat.mul a b = .ok m ∧ Rep m (A * B) := by
  refine ⟨_, mul_eq ha.wf hb.wf (by rw [ha.cols, hb.rows]), ?_⟩
  rw [ha.rows, hb.cols, ha.cols]
  refine rep_ofFn' (fun h => hb.empty (ha.empty h)) (fun i j => ?_)
  rw [Matrix.mul_apply, Finset.sum_range]
  apply Finset.sum_congr rfl
  intro x _
  rw [← ha.ent, ← hb.ent]

theorem rep_add {a b : Mat T} {A B : Matrix (Fin r) (Fin c) T} (ha : Rep a A) (hb : Rep b B) :
    ∃ m, Mat.add a b = .ok m ∧ Rep m (A + B) := by
  refine ⟨_, add_eq ha.wf hb.wf (by rw [ha.rows, hb.rows]) (by rw [ha.cols, hb.cols]), ?_⟩
  rw [ha.rows, ha.cols]
  exact rep_ofFn' ha.empty (fun i j => by rw [Matrix.add_apply, ← ha.ent, ← hb.ent])

theorem rep_sub {a b : Mat T} {A B : Matrix (Fin r) (Fin c) T} (ha : Rep a A) (hb : Rep b B) :
    ∃ m, Mat.sub a b = .ok m ∧ Rep m (A - B) := by
  refine ⟨_, sub_eq ha.wf hb.wf (by rw [ha.rows, hb.rows]) (by rw [ha.cols, hb.cols]), ?_⟩
  rw [ha.rows, ha.cols]
  exact rep_ofFn' ha.empty (fun i j => by rw [Matrix.sub_apply, ← ha.ent, ← hb.ent])

theorem rep_neg {a : Mat T} {A : Matrix (Fin r) (Fin c) T} (ha : Rep a A) :
    ∃ m, Mat.neg a = .ok m ∧ Rep m (-A) := by
  refine ⟨_, neg_eq ha.wf, ?_⟩
  rw [ha.rows, ha.cols]
  exact rep_ofFn' ha.empty (fun i j => by rw [Matrix.neg_apply, ← ha.ent])

theorem rep_smul {a : Mat T} {A : Matrix (Fin r) (Fin c) T} (x : T) (ha : Rep a A) :
    Rep (Mat.smul a x) (x • A) := by
  rw [smul_eq ha.wf, ha.rows, ha.cols]
  exact rep_ofFn' ha.empty (fun i j => by rw [Matrix.smul_apply, ← ha.ent, smul_eq_mul, mul_comm])

theorem rep_mismatch {a b : Mat T} (ha : a.WF) (hb : b.WF) :
    (a.ncols ≠ b.nrows → Mat.mul a b = .panic) ∧
    (a.shape ≠ b.shape → Mat.add a b = .panic ∧ Mat.sub a b = .panic) := by
  refine ⟨mul_panic, fun h => ?_⟩
  have key : a.data.length ≠ b.data.length ∨ a.ncols ≠ b.ncols := by
    by_contra hc
    simp only [not_or, not_not] at hc
    obtain ⟨h1, h2⟩ := hc
    apply h
    unfold shape
    rw [h2]
    congr 1
    rw [ha.len, hb.len, h2] at h1
    rcases Nat.eq_zero_or_pos b.ncols with h0 | h0
    · have e1 : a.nrows = 0 := by
        by_contra h3; have := ha.ncols_pos (by omega); omega
      have e2 : b.nrows = 0 := by
        by_contra h3; have := hb.ncols_pos (by omega); omega
      rw [e1, e2]
    · exact Nat.eq_of_mul_eq_mul_right h0 h1
  unfold Mat.add Mat.sub
  by_cases h1 : a.data.length = b.data.length
  · have h2 : a.ncols ≠ b.ncols := by
      rcases key with h3 | h3
      · exact absurd h1 h3
      · exact h3
    simp [rassert, h1, h2]
  · simp [rassert, h1]

end

section
variable {T : Type} [Zero T] [One T] [Neg T] [Add T] [Sub T] [Mul T]

omit [Zero T] [One T] [Neg T] [Add T] [Sub T] [Mul T] in
theorem wf_of_same_len {a b : Mat T} (ha : a.WF) (hr : b.nrows = a.nrows) (hc : b.ncols = a.ncols)
    (hl : b.data.length = a.data.length) : b.WF := by
  refine ⟨by rw [hl, ha.len, hr, hc], fun h => ?_⟩
  rw [hr]; apply ha.empty
  rw [h] at hl
  exact List.length_eq_zero_iff.1 hl.symm

omit [Zero T] [One T] [Neg T] [Add T] [Sub T] [Mul T] in
theorem wf_bind_new {α : Type} {x : Outcome α} {n : Nat} {f : α → List T} {m : Mat T}
    (h : (x >>= fun d => Mat.new n (f d)) = .ok m) : m.WF := by
  cases x with
  | ok d => exact (new_eq_ok h).1
  | panic => cases h
  | diverge => cases h

theorem built_wf {m : Mat T} (h : Built m) : m.WF := by
  induction h with
  | new h => exact (new_eq_ok h).1
  | row h => exact (new_eq_ok h).1
  | col h => exact (new_eq_ok h).1
  | fromIter h => exact (new_eq_ok h).1
  | zero h => exact (new_eq_ok h).1
  | identity h => exact wf_bind_new h
  | @unitVector n k m h =>
    unfold Mat.unitVector at h
    rw [zero_eq] at h
    by_cases hk : k < n
    · simp only [rassert, hk, decide_true, if_true, Outcome.ok_bind, Mat.set] at h
      split at h
      · split at h
        · unfold vecSet at h
          split at h
          · cases h; rename_i hd; split at hd
            · cases hd
              exact wf_of_same_len (ofFn_wf 1 n (fun _ _ => (0 : T))) rfl rfl (by simp)
            · cases hd
          · cases h
          · cases h
        · cases h
      · cases h
    · simp [rassert, hk] at h
  | reshape _ h _ => exact (new_eq_ok h).1
  | @set i j x a m _ h ih =>
    unfold Mat.set at h
    split at h
    · split at h
      · unfold vecSet at h
        split at h
        · cases h; rename_i hd; split at hd
          · cases hd; exact wf_of_same_len ih rfl rfl (by simp)
          · cases hd
        · cases h
        · cases h
      · cases h
    · cases h
  | @hstack ps m _ h _ =>
    unfold Mat.hstack at h
    cases ps with
    | nil => exact (new_eq_ok h).1
    | cons p ps =>
      simp only at h
      rw [Outcome.bind_eq_ok] at h
      obtain ⟨_, _, h⟩ := h
      exact wf_bind_new h
  | @vstack ps m _ h _ =>
    unfold Mat.vstack at h
    cases ps with
    | nil => exact (new_eq_ok h).1
    | cons p ps =>
      simp only at h
      rw [Outcome.bind_eq_ok] at h
      obtain ⟨_, _, h⟩ := h
      exact wf_bind_new h
  | @submatrix r0 r1 c0 c1 a m _ h _ =>
    unfold Mat.submatrix at h
    split at h
    · split at h
      · exact wf_bind_new h
      · cases h
    · cases h
  | transpose _ h _ => exact wf_bind_new h
  | neg _ h _ => exact (new_eq_ok h).1
  | @add a b m _ _ h ih _ =>
    unfold Mat.add at h
    simp only [Outcome.bind_eq_ok, rassert] at h
    obtain ⟨_, h1, _, _, h⟩ := h
    split at h1
    · rename_i hl
      cases h
      exact wf_of_same_len ih rfl rfl (by simp at hl; simp [hl])
    · cases h1
  | @sub a b m _ _ h ih _ =>
    unfold Mat.sub at h
    simp only [Outcome.bind_eq_ok, rassert] at h
    obtain ⟨_, h1, _, _, h⟩ := h
    split at h1
    · rename_i hl
      cases h
      exact wf_of_same_len ih rfl rfl (by simp at hl; simp [hl])
    · cases h1
  | addScalar c _ ih => exact wf_of_same_len ih rfl rfl (by simp [Mat.addScalar])
  | subScalar c _ ih => exact wf_of_same_len ih rfl rfl (by simp [Mat.subScalar])
  | smul c _ ih => exact wf_of_same_len ih rfl rfl (by simp [Mat.smul])
  | mul _ _ h _ _ =>
    unfold Mat.mul at h
    simp only [Outcome.bind_eq_ok] at h
    obtain ⟨_, _, _, _, h⟩ := h
    exact (new_eq_ok h).1

theorem built_rep {m : Mat T} (h : Built m) : ∃ M : Matrix (Fin m.nrows) (Fin m.ncols) T, Rep m M :=
  ⟨_, rep_toM (built_wf h)⟩

end

section
variable {T : Type} [Zero T]

/-- entry of a horizontal concatenation -/
def hent : List (Mat T) → Nat → Nat → T
  | [], _, _ => 0
  | p :: ps, i, j => if j < p.ncols then p.ent i j else hent ps i (j - p.ncols)

theorem hent_row (parts : List (Mat T)) (i : Nat) :
    (parts.map (fun p => (List.range p.ncols).map (p.ent i))).flatten =
      (List.range ((parts.map (·.ncols)).sum)).map (hent parts i) := by
  induction parts with
  | nil => rfl
  | cons p ps ih =>
    simp only [List.map_cons, List.flatten_cons, List.sum_cons]
    rw [ih, List.range_add, List.map_append, List.map_map]
    congr 1
    · apply List.map_congr_left; intro j hj; simp [hent, List.mem_range.1 hj]
    · apply List.map_congr_left; intro j hj; simp [hent]

theorem hent_block (pre : List (Mat T)) (p : Mat T) (post : List (Mat T)) (i j : Nat)
    (hj : j < p.ncols) : hent (pre ++ p :: post) i ((pre.map (·.ncols)).sum + j) = p.ent i j := by
  induction pre with
  | nil => simp [hent, hj]
  | cons q pre ih =>
    simp only [List.cons_append, List.map_cons, List.sum_cons, hent]
    rw [if_neg (by omega)]
    have : q.ncols + (pre.map (·.ncols)).sum + j - q.ncols = (pre.map (·.ncols)).sum + j := by omega
    rw [this]; exact ih

theorem hstack_eq {parts : List (Mat T)} (hne : parts ≠ []) {r : Nat} (hw : ∀ p ∈ parts, p.WF)
    (hr : ∀ p ∈ parts, p.nrows = r) :
    Mat.hstack parts = .ok (ofFn r ((parts.map (·.ncols)).sum) (hent parts)) := by
  cases parts with
  | nil => exact absurd rfl hne
  | cons p ps =>
    unfold Mat.hstack
    have hp := hr p (by simp)
    have h1 : ((p :: ps).all (fun m => m.nrows = p.nrows)) = true := by
      rw [List.all_eq_true]; intro m hm; simp [hr m hm, hp]
    simp only [h1, rassert, if_true, Outcome.ok_bind]
    rw [hp]
    rw [omap_ok (g := fun i => (List.range (((p :: ps).map (·.ncols)).sum)).map (hent (p :: ps) i))]
    · exact new_grid _ _ _
    · intro i hi
      rw [omap_ok (g := fun q : Mat T => (List.range q.ncols).map (q.ent i))]
      · simp only [Outcome.ok_bind]
        rw [hent_row]
      · intro q hq
        apply omap_ok
        intro j hj
        exact get_ok (hw q hq) (by rw [hr q hq]; exact List.mem_range.1 hi) (List.mem_range.1 hj)

theorem hstack_sub (parts : List (Mat T)) (hne : parts ≠ []) (r : Nat)
    (hw : ∀ p ∈ parts, p.WF) (hr : ∀ p ∈ parts, p.nrows = r) :
    ∃ h, Mat.hstack parts = .ok h ∧ h.WF ∧ h.nrows = r ∧ h.ncols = (parts.map (·.ncols)).sum ∧
      ∀ pre p post, parts = pre ++ p :: post →
        h.submatrix 0 r ((pre.map (·.ncols)).sum) ((pre.map (·.ncols)).sum + p.ncols) = .ok p := by
  have hn : (ofFn r ((parts.map (·.ncols)).sum) (hent parts)).nrows = r := by
    rcases Nat.eq_zero_or_pos r with h0 | h0
    · subst h0; unfold ofFn; simp
    · apply ofFn_nrows
      cases parts with
      | nil => exact absurd rfl hne
      | cons p ps =>
        have := (hw p (by simp)).ncols_pos (by rw [hr p (by simp)]; exact h0)
        simp; omega
  refine ⟨_, hstack_eq hne hw hr, ofFn_wf _ _ _, hn, rfl, ?_⟩
  intro pre p post he
  subst he
  have hs : ((pre ++ p :: post).map (·.ncols)).sum =
      (pre.map (·.ncols)).sum + p.ncols + (post.map (·.ncols)).sum := by
    simp [List.sum_append]; omega
  rw [submatrix_eq (ofFn_wf _ _ _) (le_of_eq hn.symm) (by simp only [ofFn_ncols, hs]; omega)
    (Nat.zero_le _) (by omega)]
  have hp := hr p (by simp)
  conv_rhs => rw [eq_ofFn (hw p (by simp)), hp]
  congr 1
  rw [Nat.sub_zero, Nat.add_sub_cancel_left]
  apply ofFn_congr
  intro i hi j hj
  rw [ofFn_ent _ (by omega) (by rw [hs]; omega), Nat.add_zero, Nat.add_comm j, hent_block _ _ _ _ _ hj]

/-- entry of a vertical concatenation -/
def vent : List (Mat T) → Nat → Nat → T
  | [], _, _ => 0
  | p :: ps, i, j => if i < p.nrows then p.ent i j else vent ps (i - p.nrows) j

theorem gridData_append {β : Type} (r1 r2 n : Nat) (f g : Nat → Nat → β) :
    gridData r1 n f ++ gridData r2 n g =
      gridData (r1 + r2) n (fun i j => if i < r1 then f i j else g (i - r1) j) := by
  unfold gridData
  rw [List.range_add, List.flatMap_append, List.flatMap_map]
  simp only [List.flatMap]
  congr 1
  · congr 1; apply List.map_congr_left; intro i hi; simp [List.mem_range.1 hi]
  · congr 1; apply List.map_congr_left; intro i hi; simp

theorem vent_data (parts : List (Mat T)) (c : Nat) (hw : ∀ p ∈ parts, p.WF)
    (hc : ∀ p ∈ parts, p.ncols = c) :
    (parts.map (·.data)).flatten = gridData ((parts.map (·.nrows)).sum) c (vent parts) := by
  induction parts with
  | nil => rfl
  | cons p ps ih =>
    simp only [List.map_cons, List.flatten_cons, List.sum_cons]
    rw [ih (fun q hq => hw q (by simp [hq])) (fun q hq => hc q (by simp [hq]))]
    have hp : p.data = gridData p.nrows c p.ent := by
      conv_lhs => rw [eq_ofFn (hw p (by simp))]
      simp [ofFn, hc p (by simp)]
    rw [hp, gridData_append]
    rfl

theorem vent_block (pre : List (Mat T)) (p : Mat T) (post : List (Mat T)) (i j : Nat)
    (hi : i < p.nrows) : vent (pre ++ p :: post) ((pre.map (·.nrows)).sum + i) j = p.ent i j := by
  induction pre with
  | nil => simp [vent, hi]
  | cons q pre ih =>
    simp only [List.cons_append, List.map_cons, List.sum_cons, vent]
    rw [if_neg (by omega)]
    have : q.nrows + (pre.map (·.nrows)).sum + i - q.nrows = (pre.map (·.nrows)).sum + i := by omega
    rw [this]; exact ih

theorem vstack_eq {parts : List (Mat T)} (hne : parts ≠ []) {c : Nat} (hw : ∀ p ∈ parts, p.WF)
    (hc : ∀ p ∈ parts, p.ncols = c) :
    Mat.vstack parts = .ok (ofFn ((parts.map (·.nrows)).sum) c (vent parts)) := by
  cases parts with
  | nil => exact absurd rfl hne
  | cons p ps =>
    unfold Mat.vstack
    have hp := hc p (by simp)
    have h1 : ((p :: ps).all (fun m => m.ncols = p.ncols)) = true := by
      rw [List.all_eq_true]; intro m hm; simp [hc m hm, hp]
    simp only [h1, rassert, if_true, Outcome.ok_bind]
    rw [omap_ok (g := fun q : Mat T => q.data)]
    · simp only [Outcome.ok_bind]
      rw [hp, vent_data (p :: ps) c hw hc]
      exact new_grid _ _ _
    · intro q hq
      rw [grid_ok (g := q.ent) (fun i hi j hj => get_ok (hw q hq) hi hj)]
      congr 1
      conv_rhs => rw [eq_ofFn (hw q hq)]
      rfl

theorem vstack_sub (parts : List (Mat T)) (hne : parts ≠ []) (c : Nat)
    (hw : ∀ p ∈ parts, p.WF) (hc : ∀ p ∈ parts, p.ncols = c) :
    ∃ h, Mat.vstack parts = .ok h ∧ h.WF ∧ h.ncols = c ∧ h.nrows = (parts.map (·.nrows)).sum ∧
      ∀ pre p post, parts = pre ++ p :: post →
        h.submatrix ((pre.map (·.nrows)).sum) ((pre.map (·.nrows)).sum + p.nrows) 0 c = .ok p := by
  have hn : (ofFn ((parts.map (·.nrows)).sum) c (vent parts)).nrows = (parts.map (·.nrows)).sum := by
    rcases Nat.eq_zero_or_pos c with h0 | h0
    · subst h0
      have : (parts.map (·.nrows)).sum = 0 := by
        have : ∀ n ∈ parts.map (·.nrows), n = 0 := by
          intro n hn
          obtain ⟨p, hp, rfl⟩ := List.mem_map.1 hn
          by_contra h
          have := (hw p hp).ncols_pos (by omega)
          rw [hc p hp] at this; omega
        exact List.sum_eq_zero_iff.2 this
      rw [this]; simp [ofFn]
    · exact ofFn_nrows _ _ _ h0
  refine ⟨_, vstack_eq hne hw hc, ofFn_wf _ _ _, rfl, hn, ?_⟩
  intro pre p post he
  subst he
  have hs : ((pre ++ p :: post).map (·.nrows)).sum =
      (pre.map (·.nrows)).sum + p.nrows + (post.map (·.nrows)).sum := by
    simp [List.sum_append]; omega
  rw [submatrix_eq (ofFn_wf _ _ _) (by rw [hn, hs]; omega) (le_of_eq (ofFn_ncols _ _ _).symm) (by omega) (Nat.zero_le _)]
  have hp := hc p (by simp)
  conv_rhs => rw [eq_ofFn (hw p (by simp)), hp]
  congr 1
  rw [Nat.sub_zero, Nat.add_sub_cancel_left]
  apply ofFn_congr
  intro i hi j hj
  rw [ofFn_ent _ (by rw [hs]; omega) (by omega), Nat.add_zero, Nat.add_comm i, vent_block _ _ _ _ _ hi]

theorem rows_vstack (m : Mat T) (hw : m.WF) (hr : 0 < m.nrows) :
    (do let rows ← m.getRows
        let parts ← omap Mat.row rows
        Mat.vstack parts) = .ok m := by
  have hc := hw.ncols_pos hr
  rw [getRows_eq hw]
  simp only [Outcome.ok_bind]
  have hlen : ∀ r ∈ (List.range m.nrows).map m.rowL, r.length = m.ncols := by
    intro r hr; obtain ⟨i, _, rfl⟩ := List.mem_map.1 hr; simp
  rw [omap_ok (g := fun r => ofRows m.ncols [r]) (fun r hr => row_eq r (hlen r hr) hc)]
  simp only [Outcome.ok_bind]
  rw [vstack_rows hc _ hlen (by simp; omega)]
  congr 1
  conv_rhs => rw [eq_ofFn hw]
  unfold ofRows
  simp only [List.length_map, List.length_range]
  apply ofFn_congr
  intro i hi j hj
  simp [List.getD, hi, rowL, hj]

end

end Systre
