import Verif.Model.Matrices
import Mathlib.Data.Matrix.Mul
import Mathlib.Tactic.Ring
import Mathlib.Tactic.Linarith
import Mathlib.Data.List.Basic
import Mathlib.Algebra.BigOperators.Fin

/-! Helper lemmas: every matrix operation on well-formed matrices, entry by entry. -/

namespace Systre

theorem omap_ok {α : Type u} {β : Type v} {f : α → Outcome β} {g : α → β} {l : List α}
    (h : ∀ a ∈ l, f a = .ok (g a)) : omap f l = .ok (l.map g) := by
  induction l with
  | nil => rfl
  | cons a l ih =>
    simp only [omap, h a (by simp), ih (fun b hb => h b (by simp [hb])), List.map_cons]

theorem omap_panic {α : Type u} {β : Type v} {f : α → Outcome β} {g : α → β} {l : List α} {a : α}
    (ha : a ∈ l) (hp : f a = .panic) (h : ∀ b ∈ l, f b = .panic ∨ f b = .ok (g b)) :
    omap f l = .panic := by
  induction l with
  | nil => simp at ha
  | cons b l ih =>
    rcases h b (by simp) with hb | hb
    · simp [omap, hb]
    · have : a ∈ l := by
        rcases List.mem_cons.1 ha with rfl | h1
        · rw [hp] at hb; cases hb
        · exact h1
      simp [omap, hb, ih this (fun c hc => h c (by simp [hc]))]

/-- row-major list of the values of `f` -/
def gridData {β : Type v} (nr nc : Nat) (f : Nat → Nat → β) : List β :=
  (List.range nr).flatMap (fun i => (List.range nc).map (f i))

theorem grid_ok {β : Type v} {nr nc : Nat} {f : Nat → Nat → Outcome β} {g : Nat → Nat → β}
    (h : ∀ i, i < nr → ∀ j, j < nc → f i j = .ok (g i j)) : grid nr nc f = .ok (gridData nr nc g) := by
  unfold grid
  have : omap (fun i => omap (fun j => f i j) (List.range nc)) (List.range nr) =
      .ok ((List.range nr).map (fun i => (List.range nc).map (g i))) := by
    apply omap_ok
    intro i hi
    apply omap_ok
    intro j hj
    exact h i (List.mem_range.1 hi) j (List.mem_range.1 hj)
  rw [this]
  simp [gridData, List.flatMap]

theorem gridData_congr {β : Type v} {nr nc : Nat} {f g : Nat → Nat → β}
    (h : ∀ i, i < nr → ∀ j, j < nc → f i j = g i j) : gridData nr nc f = gridData nr nc g := by
  unfold gridData
  simp only [List.flatMap]
  congr 1
  apply List.map_congr_left
  intro i hi
  apply List.map_congr_left
  intro j hj
  exact h i (List.mem_range.1 hi) j (List.mem_range.1 hj)

@[simp] theorem gridData_length {β : Type v} (nr nc : Nat) (f : Nat → Nat → β) :
    (gridData nr nc f).length = nr * nc := by
  unfold gridData
  induction nr with
  | zero => simp
  | succ n ih => rw [List.range_succ, List.flatMap_append, List.length_append, ih]; simp; ring

theorem gridData_succ {β : Type v} (nr nc : Nat) (f : Nat → Nat → β) :
    gridData (nr + 1) nc f = gridData nr nc f ++ (List.range nc).map (f nr) := by
  simp [gridData, List.range_succ, List.flatMap_append]

theorem gridData_get {β : Type v} {nr nc : Nat} (f : Nat → Nat → β) {i j : Nat} (hi : i < nr)
    (hj : j < nc) : (gridData nr nc f)[i * nc + j]? = some (f i j) := by
  induction nr with
  | zero => omega
  | succ n ih =>
    rw [gridData_succ, List.getElem?_append, gridData_length]
    rcases Nat.lt_succ_iff_lt_or_eq.1 hi with h | h
    · have : i * nc + j < n * nc := by
        have : (i + 1) * nc ≤ n * nc := Nat.mul_le_mul_right _ h
        rw [Nat.add_mul] at this; omega
      rw [if_pos this]; exact ih h
    · subst h
      rw [if_neg (by omega)]
      simp [hj]

theorem idx_lt {nr nc i j : Nat} (hi : i < nr) (hj : j < nc) : i * nc + j < nr * nc := by
  have : (i + 1) * nc ≤ nr * nc := Nat.mul_le_mul_right _ hi
  rw [Nat.add_mul] at this; omega

namespace Mat

variable {T : Type}

/-- Well-formed matrix: what every constructor produces. -/
structure WF (m : Mat T) : Prop where
  len : m.data.length = m.nrows * m.ncols
  empty : m.data = [] → m.nrows = 0

theorem WF.ncols_pos {m : Mat T} (h : m.WF) (hr : 0 < m.nrows) : 0 < m.ncols := by
  by_contra hc
  have h0 : m.ncols = 0 := by omega
  have hl := h.len
  rw [h0, Nat.mul_zero] at hl
  have := h.empty (List.length_eq_zero_iff.1 hl)
  omega

theorem new_eq_ok {n : Nat} {d : List T} {m : Mat T} (h : new n d = .ok m) :
    m.WF ∧ m.ncols = n ∧ m.data = d := by
  unfold new at h
  split at h
  · rename_i h0; cases h; exact ⟨⟨by simpa using h0, fun _ => rfl⟩, rfl, rfl⟩
  · rename_i h0
    split at h
    · cases h
    · simp only at h
      split at h
      · rename_i h1 h2; cases h
        refine ⟨⟨h2, ?_⟩, rfl, rfl⟩
        intro h3; simp at h3; subst h3; simp at h0
      · cases h

/-- canonical well-formed matrix with given entries -/
def ofFn (nr nc : Nat) (f : Nat → Nat → T) : Mat T :=
  { nrows := if nc = 0 then 0 else nr, ncols := nc, data := gridData nr nc f }

theorem new_grid (nr nc : Nat) (f : Nat → Nat → T) :
    new nc (gridData nr nc f) = .ok (ofFn nr nc f) := by
  unfold new ofFn
  simp only [gridData_length]
  by_cases h : nr * nc = 0
  · rw [if_pos h]
    congr 1
    congr 1
    rcases Nat.mul_eq_zero.1 h with h1 | h1
    · subst h1; split <;> rfl
    · rw [if_pos h1]
  · have hc : nc ≠ 0 := by rintro rfl; simp at h
    rw [if_neg h, if_neg hc, Nat.mul_div_cancel _ (by omega), if_pos rfl, if_neg hc]

theorem ofFn_wf (nr nc : Nat) (f : Nat → Nat → T) : (ofFn nr nc f).WF :=
  (new_eq_ok (new_grid nr nc f)).1

@[simp] theorem ofFn_ncols (nr nc : Nat) (f : Nat → Nat → T) : (ofFn nr nc f).ncols = nc := rfl

theorem ofFn_nrows (nr nc : Nat) (f : Nat → Nat → T) (h : 0 < nc) : (ofFn nr nc f).nrows = nr := by
  simp [ofFn, Nat.pos_iff_ne_zero.1 h]

theorem ofFn_nrows_le (nr nc : Nat) (f : Nat → Nat → T) : (ofFn nr nc f).nrows ≤ nr := by
  unfold ofFn; dsimp only; split <;> omega

theorem ofFn_congr {nr nc : Nat} {f g : Nat → Nat → T}
    (h : ∀ i, i < nr → ∀ j, j < nc → f i j = g i j) : ofFn nr nc f = ofFn nr nc g := by
  unfold ofFn; rw [gridData_congr h]

section zero
variable [Zero T]

/-- entry as a total function -/
def ent (m : Mat T) (i j : Nat) : T := m.data.getD (i * m.ncols + j) 0

theorem ofFn_ent {nr nc : Nat} (f : Nat → Nat → T) {i j : Nat} (hi : i < nr) (hj : j < nc) :
    (ofFn nr nc f).ent i j = f i j := by
  simp [ent, ofFn, List.getD, gridData_get f hi hj]

theorem get_ok {m : Mat T} (h : m.WF) {i j : Nat} (hi : i < m.nrows) (hj : j < m.ncols) :
    m.get i j = .ok (m.ent i j) := by
  have hlt : i * m.ncols + j < m.data.length := by rw [h.len]; exact idx_lt hi hj
  unfold get
  rw [if_pos (by omega), if_pos hj, vecGet_eq_ok]
  simp [ent, List.getD, hlt]

theorem get_panic {m : Mat T} (h : m.WF) {i j : Nat} (hij : ¬(i < m.nrows ∧ j < m.ncols)) :
    m.get i j = .panic := by
  unfold get
  split
  · rename_i h1
    rw [h.len] at h1
    have := Nat.lt_of_mul_lt_mul_right h1
    rw [if_neg (fun h2 => hij ⟨this, h2⟩)]
  · rfl

theorem eq_ofFn {m : Mat T} (h : m.WF) : m = ofFn m.nrows m.ncols m.ent := by
  have hd : m.data = gridData m.nrows m.ncols m.ent := by
    apply List.ext_getElem?
    intro k
    by_cases hk : k < m.nrows * m.ncols
    · have hc : 0 < m.ncols := by
        by_contra hc; have : m.ncols = 0 := by omega
        rw [this] at hk; simp at hk
      have hi : k / m.ncols < m.nrows := Nat.div_lt_of_lt_mul (by rwa [Nat.mul_comm] at hk)
      have hj := Nat.mod_lt k hc
      have he : k = k / m.ncols * m.ncols + k % m.ncols := (Nat.div_add_mod' k m.ncols).symm
      rw [he, gridData_get _ hi hj]
      unfold ent
      rw [← he]
      have : k < m.data.length := by rw [h.len]; exact hk
      simp [List.getD, this]
    · rw [List.getElem?_eq_none (by rw [h.len]; omega), List.getElem?_eq_none (by simp; omega)]
  have hr : (if m.ncols = 0 then 0 else m.nrows) = m.nrows := by
    split
    · rename_i h0
      by_contra h1
      have := h.ncols_pos (by omega)
      omega
    · rfl
  unfold ofFn
  rw [hr, ← hd]

theorem ext_ent {a b : Mat T} (ha : a.WF) (hb : b.WF) (hr : a.nrows = b.nrows) (hc : a.ncols = b.ncols)
    (h : ∀ i, i < a.nrows → ∀ j, j < a.ncols → a.ent i j = b.ent i j) : a = b := by
  rw [eq_ofFn ha, eq_ofFn hb, ← hr, ← hc]
  exact ofFn_congr h

theorem zero_eq (nr nc : Nat) : (zero nr nc : Outcome (Mat T)) = .ok (ofFn nr nc (fun _ _ => 0)) := by
  unfold zero
  rw [← new_grid]
  congr 1
  apply List.ext_getElem
  · simp
  · intro i h1 h2
    rw [List.getElem_replicate]
    have : ∀ x ∈ gridData nr nc (fun _ _ => (0 : T)), x = 0 := by
      intro x hx; simp [gridData] at hx; exact hx.2.2
    exact (this _ (List.getElem_mem h2)).symm

theorem transpose_eq {m : Mat T} (h : m.WF) :
    m.transpose = .ok (ofFn m.ncols m.nrows (fun j i => m.ent i j)) := by
  unfold transpose
  rw [grid_ok (g := fun j i => m.ent i j) (fun j hj i hi => get_ok h hi hj)]
  exact new_grid _ _ _

theorem submatrix_eq {m : Mat T} (h : m.WF) {r0 r1 c0 c1 : Nat} (hr : r1 ≤ m.nrows) (hc : c1 ≤ m.ncols)
    (hr0 : r0 ≤ r1) (hc0 : c0 ≤ c1) :
    m.submatrix r0 r1 c0 c1 = .ok (ofFn (r1 - r0) (c1 - c0) (fun i j => m.ent (i + r0) (j + c0))) := by
  unfold submatrix
  rw [if_pos ⟨hr, hc⟩, if_pos ⟨hr0, hc0⟩]
  rw [grid_ok (g := fun i j => m.ent (i + r0) (j + c0))
    (fun i hi j hj => get_ok h (by omega) (by omega))]
  exact new_grid _ _ _

/-- row `i` as a list -/
def rowL (m : Mat T) (i : Nat) : List T := (List.range m.ncols).map (m.ent i)

@[simp] theorem rowL_length (m : Mat T) (i : Nat) : (m.rowL i).length = m.ncols := by simp [rowL]

theorem rowL_getD (m : Mat T) (i j : Nat) (hj : j < m.ncols) : (m.rowL i).getD j 0 = m.ent i j := by
  simp [rowL, List.getD, hj]

theorem getRow_eq {m : Mat T} (h : m.WF) {i : Nat} (hi : i < m.nrows) : m.getRow i = .ok (m.rowL i) := by
  have hc := h.ncols_pos (by omega)
  have h1 := idx_lt hi hc
  have h2 : i * m.ncols + m.ncols ≤ m.data.length := by
    rw [h.len]
    have : (i + 1) * m.ncols ≤ m.nrows * m.ncols := Nat.mul_le_mul_right _ hi
    rw [Nat.add_mul] at this; omega
  unfold getRow
  rw [if_pos (by omega), if_pos h2]
  congr 1
  apply List.ext_getElem
  · simp [rowL]; omega
  · intro j h3 h4
    simp only [List.length_take, List.length_drop] at h3
    have hj : j < m.ncols := by omega
    have hlt : i * m.ncols + j < m.data.length := by omega
    simp [rowL, ent, List.getD, hlt]

theorem getRow_panic {m : Mat T} (h : m.WF) {i : Nat} (hi : ¬ i < m.nrows) : m.getRow i = .panic := by
  unfold getRow
  rw [if_neg]
  rw [h.len]
  intro h1; exact hi (Nat.lt_of_mul_lt_mul_right h1)

theorem getRows_eq {m : Mat T} (h : m.WF) : m.getRows = .ok ((List.range m.nrows).map m.rowL) :=
  omap_ok (fun i hi => getRow_eq h (List.mem_range.1 hi))

theorem getCol_eq {m : Mat T} (h : m.WF) {j : Nat} (hj : j < m.ncols) :
    m.getCol j = .ok ((List.range m.nrows).map (fun i => m.ent i j)) := by
  unfold getCol
  rw [if_pos hj]
  exact omap_ok (fun i hi => get_ok h (List.mem_range.1 hi) hj)

/-- matrix from a list of rows of length `n` -/
def ofRows (n : Nat) (rows : List (List T)) : Mat T :=
  ofFn rows.length n (fun i j => (rows.getD i []).getD j 0)

theorem flatten_rows {n : Nat} (rows : List (List T)) (h : ∀ r ∈ rows, r.length = n) :
    rows.flatten = gridData rows.length n (fun i j => (rows.getD i []).getD j 0) := by
  induction rows using List.reverseRecOn with
  | nil => rfl
  | append_singleton rows r ih =>
    rw [List.flatten_append, List.length_append, List.length_singleton, gridData_succ,
      ih (fun x hx => h x (by simp [hx]))]
    congr 1
    · apply gridData_congr
      intro i hi j hj
      simp [List.getD, List.getElem?_append_left hi]
    · have hr : r.length = n := h r (by simp)
      simp only [List.flatten_cons, List.flatten_nil, List.append_nil]
      apply List.ext_getElem
      · simp [hr]
      · intro k h1 h2
        simp [List.getD, h1]

theorem row_eq {n : Nat} (r : List T) (hr : r.length = n) (hn : 0 < n) :
    row r = .ok (ofRows n [r]) := by
  unfold row
  have := flatten_rows (n := n) [r] (by simpa using hr)
  simp only [List.flatten_cons, List.flatten_nil, List.append_nil] at this
  have h2 : new n r = new n (gridData [r].length n (fun i j => ([r].getD i []).getD j 0)) := by
    rw [← this]
  rw [hr, h2]
  exact new_grid _ _ _

theorem vstack_rows {n : Nat} (hn : 0 < n) (rows : List (List T)) (h : ∀ r ∈ rows, r.length = n)
    (hne : rows ≠ []) :
    vstack (rows.map (fun r => ofRows n [r])) = .ok (ofRows n rows) := by
  cases rows with
  | nil => exact absurd rfl hne
  | cons r0 rows =>
    unfold vstack
    simp only [List.map_cons]
    have h1 : ((ofRows n [r0] :: rows.map (fun r => ofRows n [r])).all
        (fun m => m.ncols = (ofRows n [r0]).ncols)) = true := by
      rw [List.all_eq_true]; intro m hm
      simp only [List.mem_cons, List.mem_map] at hm
      rcases hm with rfl | ⟨r, _, rfl⟩ <;> simp [ofRows]
    rw [h1]
    simp only [rassert, if_true, Outcome.ok_bind]
    have h2 : omap (fun (p : Mat T) => grid p.nrows p.ncols (fun i j => p.get i j))
        (ofRows n [r0] :: rows.map (fun r => ofRows n [r])) = .ok (r0 :: rows) := by
      have : (r0 :: rows) = (ofRows n [r0] :: rows.map (fun r => ofRows n [r])).map (fun m => m.data) := by
        rw [← List.map_cons (f := fun r => ofRows n [r]), List.map_map]
        conv_lhs => rw [← List.map_id (r0 :: rows)]
        apply List.map_congr_left
        intro r hr
        have := flatten_rows (n := n) [r] (by simpa using h r hr)
        simp at this
        exact this
      rw [this]
      apply omap_ok
      intro m hm
      have hwf : m.WF := by
        rw [← List.map_cons (f := fun r => ofRows n [r])] at hm
        obtain ⟨r, _, rfl⟩ := List.mem_map.1 hm
        exact ofFn_wf _ _ _
      rw [grid_ok (g := m.ent) (fun i hi j hj => get_ok hwf hi hj)]
      congr 1
      conv_rhs => rw [eq_ofFn hwf]
      rfl
    rw [h2]
    simp only [Outcome.ok_bind]
    have hnc : (ofRows n [r0]).ncols = n := rfl
    rw [hnc, flatten_rows (n := n) _ h]
    exact new_grid _ _ _

theorem hstack2_eq {a b : Mat T} (ha : a.WF) (hb : b.WF) (hr : a.nrows = b.nrows) :
    hstack [a, b] = .ok (ofFn a.nrows (a.ncols + b.ncols)
      (fun i j => if j < a.ncols then a.ent i j else b.ent i (j - a.ncols))) := by
  unfold hstack
  have h1 : ([a, b].all (fun m => m.nrows = a.nrows)) = true := by simp [hr]
  simp only [h1, rassert, if_true, Outcome.ok_bind]
  rw [omap_ok (g := fun i => (List.range (a.ncols + b.ncols)).map
    (fun j => if j < a.ncols then a.ent i j else b.ent i (j - a.ncols)))]
  · simp only [Outcome.ok_bind, List.map_cons, List.map_nil, List.sum_cons, List.sum_nil, Nat.add_zero]
    exact new_grid _ _ _
  · intro i hi
    have hi := List.mem_range.1 hi
    rw [omap_ok (g := fun p : Mat T => (List.range p.ncols).map (p.ent i))]
    · simp only [Outcome.ok_bind, List.map_cons, List.map_nil, List.flatten_cons, List.flatten_nil,
        List.append_nil]
      congr 1
      rw [List.range_add, List.map_append, List.map_map]
      congr 1
      · apply List.map_congr_left; intro j hj; rw [if_pos (List.mem_range.1 hj)]
      · apply List.map_congr_left; intro j hj; simp
    · intro p hp
      apply omap_ok
      intro j hj
      simp only [List.mem_cons, List.not_mem_nil, or_false] at hp
      rcases hp with rfl | rfl
      · exact get_ok ha hi (List.mem_range.1 hj)
      · exact get_ok hb (hr ▸ hi) (List.mem_range.1 hj)

theorem identity_eq [One T] (n : Nat) :
    (identity n : Outcome (Mat T)) = .ok (ofFn n n (fun i j => if i = j then 1 else 0)) := by
  unfold identity
  rw [grid_ok (g := fun i j => if i = j then (1 : T) else 0) (fun _ _ _ _ => rfl)]
  exact new_grid _ _ _

theorem isIdentity_eq [One T] [DecidableEq T] {m : Mat T} (h : m.WF) :
    m.isIdentity = .ok (decide (m.nrows = m.ncols ∧
      ∀ i, i < m.nrows → ∀ j, j < m.ncols → m.ent i j = if i = j then 1 else 0)) := by
  unfold isIdentity
  by_cases hs : m.nrows = m.ncols
  · rw [if_neg (by simpa using hs)]
    rw [omap_ok (g := fun i => (List.range m.ncols).map (fun j =>
      (if j = i then decide (m.ent i j = 1) else decide (m.ent i j = 0) : Bool)))]
    · simp only [Outcome.ok_bind]
      congr 1
      rw [Bool.eq_iff_iff]
      simp only [List.all_eq_true, List.mem_flatten, List.mem_map, List.mem_range, id,
        decide_eq_true_eq, hs, true_and]
      constructor
      · intro h1 i hi j hj
        have := h1 _ ⟨_, ⟨i, hi, rfl⟩, List.mem_map.2 ⟨j, List.mem_range.2 hj, rfl⟩⟩
        by_cases hij : i = j
        · subst hij; simpa using this
        · have hji : ¬ j = i := fun h => hij h.symm
          simpa [hij, hji] using this
      · rintro h1 b ⟨l, ⟨i, hi, rfl⟩, hb⟩
        obtain ⟨j, hj, rfl⟩ := List.mem_map.1 hb
        have := h1 i hi j (List.mem_range.1 hj)
        by_cases hij : i = j
        · subst hij; simpa using this
        · have hji : ¬ j = i := fun h => hij h.symm
          simpa [hij, hji] using this
    · intro i hi
      apply omap_ok
      intro j hj
      rw [get_ok h (List.mem_range.1 hi) (List.mem_range.1 hj)]
      rfl
  · rw [if_pos (by simpa using hs)]; simp [hs]

end zero

section ring
variable [CommRing T]

theorem foldl_add_sum (l : List T) (a : T) : l.foldl (· + ·) a = a + l.sum := by
  induction l generalizing a with
  | nil => simp
  | cons x l ih => rw [List.foldl_cons, ih, List.sum_cons]; ring

theorem sum_range_map (n : Nat) (f : Nat → T) : ((List.range n).map f).sum = ∑ k ∈ Finset.range n, f k := by
  induction n with
  | zero => simp
  | succ n ih => rw [List.range_succ, List.map_append, List.sum_append, Finset.sum_range_succ, ih]; simp

theorem mul_eq {a b : Mat T} (ha : a.WF) (hb : b.WF) (h : a.ncols = b.nrows) :
    mul a b = .ok (ofFn a.nrows b.ncols (fun i j => ∑ k ∈ Finset.range a.ncols, a.ent i k * b.ent k j)) := by
  unfold mul
  simp only [h, rassert, decide_true, if_true, Outcome.ok_bind]
  rw [grid_ok (g := fun i j => ∑ k ∈ Finset.range b.nrows, a.ent i k * b.ent k j)]
  · exact new_grid _ _ _
  · intro i hi j hj
    rw [omap_ok (g := fun k => a.ent i k * b.ent k j)]
    · simp only [Outcome.ok_bind]
      rw [foldl_add_sum, sum_range_map, zero_add]
    · intro k hk
      have hk := List.mem_range.1 hk
      rw [get_ok ha hi (h ▸ hk), get_ok hb hk hj]; rfl

theorem mul_panic {a b : Mat T} (h : a.ncols ≠ b.nrows) : mul a b = .panic := by
  unfold mul; simp [rassert, h]

theorem neg_eq {a : Mat T} (ha : a.WF) : neg a = .ok (ofFn a.nrows a.ncols (fun i j => - a.ent i j)) := by
  unfold neg
  have : a.data.map (fun x => -x) = gridData a.nrows a.ncols (fun i j => - a.ent i j) := by
    conv_lhs => rw [eq_ofFn ha]
    simp [ofFn, gridData, List.map_flatMap, Function.comp_def]
  rw [this]; exact new_grid _ _ _

theorem ncols_zero_nrows {a : Mat T} (ha : a.WF) : (if a.ncols = 0 then 0 else a.nrows) = a.nrows := by
  split
  · by_contra h
    have := ha.ncols_pos (by omega); omega
  · rfl

theorem map_data {a : Mat T} (ha : a.WF) (f : T → T) :
    ({ a with data := a.data.map f } : Mat T) = ofFn a.nrows a.ncols (fun i j => f (a.ent i j)) := by
  unfold ofFn
  rw [ncols_zero_nrows ha]
  congr 1
  conv_lhs => rw [eq_ofFn ha]
  simp [ofFn, gridData, List.map_flatMap, Function.comp_def]

theorem smul_eq {a : Mat T} (ha : a.WF) (c : T) :
    smul a c = ofFn a.nrows a.ncols (fun i j => a.ent i j * c) := map_data ha _

theorem zip_data {a b : Mat T} (ha : a.WF) (hb : b.WF) (hc : a.ncols = b.ncols)
    (hl : a.data.length = b.data.length) (f : T → T → T) :
    ({ a with data := List.zipWith f a.data b.data } : Mat T) =
      ofFn a.nrows a.ncols (fun i j => f (a.ent i j) (b.ent i j)) := by
  unfold ofFn
  rw [ncols_zero_nrows ha]
  congr 1
  apply List.ext_getElem?
  intro k
  by_cases hk : k < a.nrows * a.ncols
  · have hcp : 0 < a.ncols := by
      by_contra hc; have : a.ncols = 0 := by omega
      rw [this] at hk; simp at hk
    have hi : k / a.ncols < a.nrows := Nat.div_lt_of_lt_mul (by rwa [Nat.mul_comm] at hk)
    have hj := Nat.mod_lt k hcp
    have he : k = k / a.ncols * a.ncols + k % a.ncols := (Nat.div_add_mod' k a.ncols).symm
    conv_rhs => rw [he]
    rw [gridData_get _ hi hj]
    unfold ent
    rw [← hc, ← he]
    have h1 : k < a.data.length := by rw [ha.len]; exact hk
    have h2 : k < b.data.length := by omega
    simp [List.getD, h1, h2, List.getElem?_zipWith]
  · rw [List.getElem?_eq_none (by simp [List.length_zipWith, ← hl, ha.len]; omega),
      List.getElem?_eq_none (by simp; omega)]

theorem same_shape_len {a b : Mat T} (ha : a.WF) (hb : b.WF) (hr : a.nrows = b.nrows)
    (hc : a.ncols = b.ncols) : a.data.length = b.data.length := by rw [ha.len, hb.len, hr, hc]

theorem add_eq {a b : Mat T} (ha : a.WF) (hb : b.WF) (hr : a.nrows = b.nrows) (hc : a.ncols = b.ncols) :
    add a b = .ok (ofFn a.nrows a.ncols (fun i j => a.ent i j + b.ent i j)) := by
  unfold add
  simp only [same_shape_len ha hb hr hc, hc, rassert, decide_true, if_true, Outcome.ok_bind]
  have := zip_data ha hb hc (same_shape_len ha hb hr hc) (· + ·)
  rw [hc] at this
  rw [← this, ← hc]

theorem sub_eq {a b : Mat T} (ha : a.WF) (hb : b.WF) (hr : a.nrows = b.nrows) (hc : a.ncols = b.ncols) :
    sub a b = .ok (ofFn a.nrows a.ncols (fun i j => a.ent i j - b.ent i j)) := by
  unfold sub
  simp only [same_shape_len ha hb hr hc, hc, rassert, decide_true, if_true, Outcome.ok_bind]
  have := zip_data ha hb hc (same_shape_len ha hb hr hc) (· - ·)
  rw [hc] at this
  rw [← this, ← hc]

end ring

end Mat

end Systre
