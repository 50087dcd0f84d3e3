import Verif.Spec.Matrices
import Verif.Lemmas.MatrixRep
import Mathlib.LinearAlgebra.Matrix.Notation

/-! # C16-C18: the `Matrix` type (src/arithmetic/matrices.rs) -/

namespace Systre

open Mat

/-! ## C16 -/

/-- **C16** (a) `Matrix::new` returns exactly when the data fills whole rows, and then stores it; it
panics otherwise. -/
theorem C16_new {T : Type} (n : Nat) (d : List T) :
    ((∃ k, d.length = k * n) → ∃ m, Mat.new n d = .ok m ∧ m.ncols = n ∧ m.data = d ∧
      m.nrows * n = d.length) ∧
    ((¬ ∃ k, d.length = k * n) → Mat.new n d = .panic) := by
  constructor
  · rintro ⟨k, hk⟩
    unfold Mat.new
    split
    · rename_i h; exact ⟨_, rfl, rfl, rfl, by simp [h]⟩
    · rename_i h
      have hn : n ≠ 0 := by rintro rfl; simp at hk; exact h (by simp [hk])
      rw [if_neg hn]
      simp only
      rw [hk, Nat.mul_div_cancel _ (by omega), if_pos rfl]
      exact ⟨_, rfl, rfl, rfl, rfl⟩
  · intro h
    unfold Mat.new
    rw [if_neg (fun h0 => h ⟨0, by simp [h0]⟩)]
    split
    · rfl
    · simp only
      rw [if_neg (fun h0 => h ⟨_, h0⟩)]

/-- **C16** (b) every matrix built through the public API stores `nrows * ncols` entries, in row-major
order: reading `(i, j)` gives entry `i * ncols + j` if it is in the matrix and panics otherwise. -/
theorem C16_index {T : Type} [Zero T] [One T] [Neg T] [Add T] [Sub T] [Mul T] (m : Mat T)
    (h : Built m) :
    m.data.length = m.nrows * m.ncols ∧
    (∀ i j, i < m.nrows → j < m.ncols → ∃ a, m.get i j = .ok a ∧ m.data[i * m.ncols + j]? = some a) ∧
    (∀ i j, ¬ (i < m.nrows ∧ j < m.ncols) → m.get i j = .panic) := by
  have w := built_wf h
  refine ⟨w.len, fun i j hi hj => ⟨m.ent i j, get_ok w hi hj, ?_⟩, fun i j hij => get_panic w hij⟩
  have := idx_lt hi hj
  simp [ent, List.getD, w.len, this]

/-- **C16** (c) writing `(i, j)` changes that entry only. -/
theorem C16_set {T : Type} [Zero T] [One T] [Neg T] [Add T] [Sub T] [Mul T] (m : Mat T) (h : Built m)
    (i j : Nat) (x : T) (hi : i < m.nrows) (hj : j < m.ncols) :
    ∃ m', m.set i j x = .ok m' ∧ m'.shape = m.shape ∧
      ∀ k l, m'.get k l = if k = i ∧ l = j then .ok x else m.get k l := by
  have w := built_wf h
  have hlt := idx_lt hi hj
  rw [← w.len] at hlt
  have hm : m.set i j x = .ok { m with data := m.data.set (i * m.ncols + j) x } := by
    unfold Mat.set
    rw [if_pos (by omega), if_pos hj]
    simp [vecSet, hlt]
  refine ⟨_, hm, rfl, ?_⟩
  intro k l
  have w' : ({ m with data := m.data.set (i * m.ncols + j) x } : Mat T).WF :=
    built_wf (Built.set h hm)
  by_cases hkl : k < m.nrows ∧ l < m.ncols
  · rw [get_ok w' hkl.1 hkl.2, get_ok w hkl.1 hkl.2]
    have hiff : k * m.ncols + l = i * m.ncols + j ↔ k = i ∧ l = j := by
      constructor
      · intro he
        have h1 : (k * m.ncols + l) / m.ncols = (i * m.ncols + j) / m.ncols := by rw [he]
        have hc : 0 < m.ncols := by omega
        rw [Nat.mul_comm k, Nat.mul_comm i, Nat.mul_add_div hc, Nat.mul_add_div hc,
          Nat.div_eq_of_lt hkl.2, Nat.div_eq_of_lt hj] at h1
        have : k = i := by omega
        subst this; exact ⟨rfl, by omega⟩
      · rintro ⟨rfl, rfl⟩; rfl
    split
    · rename_i he
      congr 1
      simp only [ent, hiff.2 he]
      simp [List.getD, hlt]
    · rename_i he
      congr 1
      simp only [ent, List.getD]
      rw [List.getElem?_set_ne (fun h1 => he (hiff.1 h1.symm))]
  · rw [get_panic w' hkl, get_panic w hkl, if_neg]
    rintro ⟨rfl, rfl⟩; exact hkl ⟨hi, hj⟩

/-- **C16** (d) what the other constructors build: `col` and `collect` a column, `row` a row, `zero` the
zero matrix, `unit_vector(n, k)` the `k`-th unit row (and a panic unless `k < n`). -/
theorem C16_constructors {T : Type} [Zero T] [One T] :
    (∀ (n : Nat) (x : Fin n → T),
      (∃ m, Mat.col (List.ofFn x) = .ok m ∧ Rep m (Matrix.of fun i (_ : Fin 1) => x i)) ∧
      (∃ m, Mat.fromIter (List.ofFn x) = .ok m ∧ Rep m (Matrix.of fun i (_ : Fin 1) => x i)) ∧
      (0 < n → ∃ m, Mat.row (List.ofFn x) = .ok m ∧ Rep m (Matrix.of fun (_ : Fin 1) j => x j))) ∧
    (∀ r c : Nat, (0 < r → 0 < c) →
      ∃ m : Mat T, Mat.zero r c = .ok m ∧ Rep m (0 : Matrix (Fin r) (Fin c) T)) ∧
    (∀ (n : Nat) (k : Fin n), ∃ m : Mat T, Mat.unitVector n k.1 = .ok m ∧
      Rep m (Matrix.of fun (_ : Fin 1) j => if j = k then (1 : T) else 0)) ∧
    (∀ n k : Nat, ¬ k < n → Mat.unitVector (T := T) n k = .panic) := by
  have hcol : ∀ (n : Nat) (x : Fin n → T),
      ∃ m, Mat.col (List.ofFn x) = .ok m ∧ Rep m (Matrix.of fun i (_ : Fin 1) => x i) := by
    intro n x
    refine ⟨_, col_ofFn' x, rep_ofFn' (fun _ => Nat.one_pos) ?_⟩
    intro i j; simp [List.getD]
  refine ⟨fun n x => ⟨hcol n x, hcol n x, fun hn => ?_⟩, ?_, ?_, ?_⟩
  · refine ⟨_, row_eq (n := n) _ (by simp) hn, rep_ofFn' (fun _ => hn) ?_⟩
    intro i j; simp [List.getD]
  · intro r c h
    exact ⟨_, zero_eq r c, rep_ofFn' h (fun _ _ => rfl)⟩
  · intro n k
    have hn : 0 < n := k.pos
    have hz : Rep (ofFn 1 n (fun _ _ => (0 : T))) (0 : Matrix (Fin 1) (Fin n) T) :=
      rep_ofFn' (fun _ => hn) (fun _ _ => rfl)
    obtain ⟨m, hm, hr⟩ := rep_set hz 0 k (1 : T)
    refine ⟨m, ?_, ?_⟩
    · unfold Mat.unitVector
      rw [zero_eq]
      simpa [rassert] using hm
    · convert hr using 1
      ext i j
      have : i = 0 := by omega
      subst this
      simp
  · intro n k h
    simp [Mat.unitVector, rassert, h]

/-- **C16** (e) `shape`, `get_row` and `get_col` of the `r × c` matrix `M`; reading a row or a column that
does not exist panics. -/
theorem C16_rows_columns {T : Type} [Zero T] {r c : Nat} {m : Mat T} {M : Matrix (Fin r) (Fin c) T}
    (h : Rep m M) :
    m.shape = (r, c) ∧
    (∀ i : Fin r, m.getRow i = .ok (List.ofFn fun j => M i j)) ∧
    (∀ j : Fin c, m.getCol j = .ok (List.ofFn fun i => M i j)) ∧
    m.getRows = .ok (List.ofFn fun i => List.ofFn fun j => M i j) ∧
    (∀ i, r ≤ i → m.getRow i = .panic) ∧ (∀ j, c ≤ j → m.getCol j = .panic) := by
  have hw := h.wf
  have hr := h.rows
  have hc := h.cols
  have hrow : ∀ i : Fin r, m.rowL i = List.ofFn fun j => M i j := by
    intro i
    apply List.ext_getElem
    · simp [hc]
    · intro j h1 h2
      have hj : j < c := by simpa using h2
      simp [rowL, h.ent i ⟨j, hj⟩]
  refine ⟨by simp [shape, hr, hc], ?_, ?_, ?_, ?_, ?_⟩
  · intro i
    rw [getRow_eq hw (by omega), hrow]
  · intro j
    rw [getCol_eq hw (by omega)]
    congr 1
    apply List.ext_getElem
    · simp [hr]
    · intro i h1 h2
      have hi : i < r := by simpa using h2
      simp [h.ent ⟨i, hi⟩ j]
  · rw [getRows_eq hw]
    congr 1
    apply List.ext_getElem
    · simp [hr]
    · intro i h1 h2
      have hi : i < r := by simpa using h2
      have := hrow ⟨i, hi⟩
      simpa using this
  · intro i hi; exact getRow_panic hw (by omega)
  · intro j hj
    unfold getCol
    rw [if_neg (by omega)]

example : Mat.getCol (⟨2, 3, [1, 2, 3, 4, 5, 6]⟩ : Mat Int) 1 = .ok [2, 5] ∧
    Mat.unitVector 3 1 = .ok (⟨1, 3, [0, 1, 0]⟩ : Mat Int) := by decide

example : Built (⟨2, 2, [1, 3, 2, 4]⟩ : Mat Int) :=
  Built.transpose (a := ⟨2, 2, [1, 2, 3, 4]⟩) (Built.new (n := 2) (d := [1, 2, 3, 4]) rfl) rfl

/-! ## C17 -/

section
variable {T : Type} [CommRing T] {r c k : Nat}

/-- **C17** a matrix built by the API represents a unique mathematical matrix, and conversely. -/
theorem C17_rep_unique (m m' : Mat T) (M : Matrix (Fin r) (Fin c) T) (h : Rep m M) (h' : Rep m' M) :
    m = m' := rep_unique h h'

theorem C17_built_rep (m : Mat T) (h : Built m) :
    ∃ M : Matrix (Fin m.nrows) (Fin m.ncols) T, Rep m M := built_rep h

/-- **C17** product -/
theorem C17_mul (a b : Mat T) (A : Matrix (Fin r) (Fin k) T) (B : Matrix (Fin k) (Fin c) T)
    (ha : Rep a A) (hb : Rep b B) : ∃ m, Mat.mul a b = .ok m ∧ Rep m (A * B) := rep_mul ha hb

/-- **C17** sum -/
theorem C17_add (a b : Mat T) (A B : Matrix (Fin r) (Fin c) T) (ha : Rep a A) (hb : Rep b B) :
    ∃ m, Mat.add a b = .ok m ∧ Rep m (A + B) := rep_add ha hb

/-- **C17** difference -/
theorem C17_sub (a b : Mat T) (A B : Matrix (Fin r) (Fin c) T) (ha : Rep a A) (hb : Rep b B) :
    ∃ m, Mat.sub a b = .ok m ∧ Rep m (A - B) := rep_sub ha hb

/-- **C17** negation -/
theorem C17_neg (a : Mat T) (A : Matrix (Fin r) (Fin c) T) (ha : Rep a A) :
    ∃ m, Mat.neg a = .ok m ∧ Rep m (-A) := rep_neg ha

/-- **C17** product with a scalar -/
theorem C17_smul (a : Mat T) (A : Matrix (Fin r) (Fin c) T) (x : T) (ha : Rep a A) :
    Rep (Mat.smul a x) (x • A) := rep_smul x ha

/-- **C17** sum and difference with a scalar: entry by entry -/
theorem C17_scalar (a : Mat T) (A : Matrix (Fin r) (Fin c) T) (x : T) (ha : Rep a A) :
    Rep (Mat.addScalar a x) (Matrix.of fun i j => A i j + x) ∧
    Rep (Mat.subScalar a x) (Matrix.of fun i j => A i j - x) := by
  constructor
  · rw [show a.addScalar x = _ from map_data ha.wf (fun y => y + x), ha.rows, ha.cols]
    exact rep_ofFn' ha.empty (fun i j => by simp [ha.ent])
  · rw [show a.subScalar x = _ from map_data ha.wf (fun y => y - x), ha.rows, ha.cols]
    exact rep_ofFn' ha.empty (fun i j => by simp [ha.ent])

/-- **C17** quotient by a scalar, for any scalar division: every entry is divided; it panics exactly when
the matrix is not empty and the division of one of its entries panics. -/
theorem C17_div (quo : T → T → Outcome T) (q : T → T → T) (a : Mat T) (A : Matrix (Fin r) (Fin c) T) (x : T)
    (ha : Rep a A) :
    ((∀ i j, quo (A i j) x = .ok (q (A i j) x)) →
      ∃ m, a.divScalar quo x = .ok m ∧ Rep m (Matrix.of fun i j => q (A i j) x)) ∧
    ((∀ y, quo y x = .panic) → 0 < r → a.divScalar quo x = .panic) := by
  have hw := ha.wf
  constructor
  · intro hq
    have hd : ∀ y ∈ a.data, quo y x = .ok (q y x) := by
      intro y hy
      obtain ⟨k, hk, rfl⟩ := List.getElem_of_mem hy
      have hc : 0 < a.ncols := by
        rcases Nat.eq_zero_or_pos a.ncols with h0 | h0
        · rw [hw.len, h0] at hk; omega
        · exact h0
      have h1 : k / a.ncols < r := by
        rw [← ha.rows]
        exact Nat.div_lt_of_lt_mul (by rw [Nat.mul_comm, ← hw.len]; exact hk)
      have h2 : k % a.ncols < c := by rw [← ha.cols]; exact Nat.mod_lt _ hc
      have h3 := ha.ent ⟨_, h1⟩ ⟨_, h2⟩
      have h4 : k / a.ncols * a.ncols + k % a.ncols = k := Nat.div_add_mod' _ _
      simp only [ent, h4] at h3
      have h5 : a.data[k] = A ⟨_, h1⟩ ⟨_, h2⟩ := by
        rw [← h3]; simp [List.getD, hk]
      rw [h5]; exact hq _ _
    refine ⟨{ a with data := a.data.map (fun y => q y x) }, ?_, ?_⟩
    · unfold Mat.divScalar
      rw [omap_ok (g := fun y => q y x) hd]; rfl
    · rw [show ({ a with data := a.data.map (fun y => q y x) } : Mat T) = _ from
        map_data hw (fun y => q y x), ha.rows, ha.cols]
      exact rep_ofFn' ha.empty (fun i j => by simp [ha.ent])
  · intro hq hr
    have hl : a.data ≠ [] := by
      intro h0
      have := ha.size
      rw [h0] at this
      have hc := ha.empty hr
      have : 0 < r * c := Nat.mul_pos hr hc
      simp at *
      omega
    obtain ⟨y, l, hy⟩ := List.exists_cons_of_ne_nil hl
    simp [Mat.divScalar, hy, omap, hq]

/-- **C17** identity -/
theorem C17_identity (n : Nat) :
    ∃ m : Mat T, Mat.identity n = .ok m ∧ Rep m (1 : Matrix (Fin n) (Fin n) T) := rep_identity n

/-- **C17** `is_identity` -/
theorem C17_is_identity [DecidableEq T] (a : Mat T) (A : Matrix (Fin r) (Fin c) T) (ha : Rep a A) :
    ∃ b, Mat.isIdentity a = .ok b ∧ (b = true ↔ r = c ∧ ∀ i j, A i j = if i.1 = j.1 then 1 else 0) :=
  rep_isIdentity ha

/-- **C17** transpose of a non-empty matrix -/
theorem C17_transpose (a : Mat T) (A : Matrix (Fin r) (Fin c) T) (ha : Rep a A) (hr : 0 < r) :
    ∃ m, Mat.transpose a = .ok m ∧ Rep m A.transpose := rep_transpose ha hr

/-- **C17** mismatching shapes panic -/
theorem C17_mismatch (a b : Mat T) (ha : Built a) (hb : Built b) :
    (a.ncols ≠ b.nrows → Mat.mul a b = .panic) ∧
    (a.shape ≠ b.shape → Mat.add a b = .panic ∧ Mat.sub a b = .panic) :=
  rep_mismatch (built_wf ha) (built_wf hb)

/-- **C17** consequences on stored matrices of any compatible shapes, as equations between outcomes of
programs: associativity, left and right distributivity, neutrality of the identity. -/
theorem C17_laws {l : Nat} (a a' b b' d : Mat T) (A A' : Matrix (Fin r) (Fin k) T)
    (B B' : Matrix (Fin k) (Fin l) T) (D : Matrix (Fin l) (Fin c) T)
    (ha : Rep a A) (ha' : Rep a' A') (hb : Rep b B) (hb' : Rep b' B') (hd : Rep d D) :
    (Mat.mul a b >>= fun x => Mat.mul x d) = (Mat.mul b d >>= fun x => Mat.mul a x) ∧
    (Mat.add b b' >>= fun x => Mat.mul a x) =
      (Mat.mul a b >>= fun x => Mat.mul a b' >>= fun y => Mat.add x y) ∧
    (Mat.add a a' >>= fun x => Mat.mul x b) =
      (Mat.mul a b >>= fun x => Mat.mul a' b >>= fun y => Mat.add x y) ∧
    (Mat.identity r >>= fun x => Mat.mul x a) = .ok a ∧
    (Mat.identity k >>= fun x => Mat.mul a x) = .ok a := by
  obtain ⟨ab, hab, rab⟩ := rep_mul ha hb
  obtain ⟨ab', hab', rab'⟩ := rep_mul ha hb'
  obtain ⟨a'b, ha'b, ra'b⟩ := rep_mul ha' hb
  obtain ⟨bd, hbd, rbd⟩ := rep_mul hb hd
  obtain ⟨s, hs, rs⟩ := rep_add hb hb'
  obtain ⟨t, ht, rt⟩ := rep_add ha ha'
  obtain ⟨i, hi, ri⟩ := rep_identity (T := T) r
  obtain ⟨i', hi', ri'⟩ := rep_identity (T := T) k
  refine ⟨?_, ?_, ?_, ?_, ?_⟩
  · rw [hab, hbd]
    obtain ⟨x, hx, rx⟩ := rep_mul rab hd
    obtain ⟨y, hy, ry⟩ := rep_mul ha rbd
    rw [Matrix.mul_assoc] at rx
    simp only [Outcome.ok_bind, hx, hy, rep_unique rx ry]
  · rw [hab, hs]
    simp only [Outcome.ok_bind]
    rw [hab']
    obtain ⟨x, hx, rx⟩ := rep_mul ha rs
    obtain ⟨y, hy, ry⟩ := rep_add rab rab'
    rw [Matrix.mul_add] at rx
    simp only [Outcome.ok_bind, hx, hy, rep_unique rx ry]
  · rw [hab, ht]
    simp only [Outcome.ok_bind]
    rw [ha'b]
    obtain ⟨x, hx, rx⟩ := rep_mul rt hb
    obtain ⟨y, hy, ry⟩ := rep_add rab ra'b
    rw [Matrix.add_mul] at rx
    simp only [Outcome.ok_bind, hx, hy, rep_unique rx ry]
  · rw [hi]
    obtain ⟨x, hx, rx⟩ := rep_mul ri ha
    rw [Matrix.one_mul] at rx
    simp only [Outcome.ok_bind, hx, rep_unique rx ha]
  · rw [hi']
    obtain ⟨x, hx, rx⟩ := rep_mul ha ri'
    rw [Matrix.mul_one] at rx
    simp only [Outcome.ok_bind, hx, rep_unique rx ha]

/-- **C17** the transpose is an anti-involution on non-empty matrices. -/
theorem C17_transpose_laws (a b : Mat T) (A : Matrix (Fin r) (Fin k) T) (B : Matrix (Fin k) (Fin c) T)
    (ha : Rep a A) (hb : Rep b B) (hr : 0 < r) :
    (Mat.transpose a >>= fun x => Mat.transpose x) = .ok a ∧
    (Mat.mul a b >>= fun x => Mat.transpose x) =
      (Mat.transpose b >>= fun x => Mat.transpose a >>= fun y => Mat.mul x y) := by
  have hk := ha.empty hr
  obtain ⟨ab, hab, rab⟩ := rep_mul ha hb
  obtain ⟨x, hx, rx⟩ := rep_transpose ha hr
  obtain ⟨x', hx', rx'⟩ := rep_transpose rx hk
  rw [Matrix.transpose_transpose] at rx'
  obtain ⟨y, hy, ry⟩ := rep_transpose hb hk
  obtain ⟨z, hz, rz⟩ := rep_transpose rab hr
  obtain ⟨w, hw, rw'⟩ := rep_mul ry rx
  rw [Matrix.transpose_mul] at rz
  refine ⟨?_, ?_⟩
  · rw [hx]; simp only [Outcome.ok_bind, hx', rep_unique rx' ha]
  · rw [hab, hy]
    simp only [Outcome.ok_bind]
    rw [hx]
    simp only [Outcome.ok_bind, hz, hw, rep_unique rz rw']

/-- The non-emptiness hypothesis is needed: a matrix with no rows does not survive two transposes,
because `Matrix::new` cannot represent a matrix with rows but no columns. -/
theorem C17_transpose_empty_fails :
    ∃ m : Mat Int, Built m ∧ m.shape = (0, 3) ∧
      (Mat.transpose m >>= fun x => Mat.transpose x) ≠ .ok m :=
  ⟨⟨0, 3, []⟩, Built.new (n := 3) (d := []) rfl, rfl, by decide⟩

end

example : Rep (⟨2, 2, [1, 2, 3, 4]⟩ : Mat Int) (!![1, 2; 3, 4] : Matrix (Fin 2) (Fin 2) Int) :=
  ⟨rfl, rfl, rfl, by simp, by decide⟩

/-- **C17** the two exact scalar types: rational entries are divided exactly, integer entries towards zero,
and the divisor zero panics (unless there is nothing to divide). -/
theorem C17_div_exact {r c : Nat} :
    (∀ (a : Mat Rat) (A : Matrix (Fin r) (Fin c) Rat) (x : Rat), Rep a A →
      (x ≠ 0 → ∃ m, a.divScalar quoRat x = .ok m ∧ Rep m (Matrix.of fun i j => A i j / x)) ∧
      (x = 0 → 0 < r → a.divScalar quoRat x = .panic)) ∧
    (∀ (a : Mat Int) (A : Matrix (Fin r) (Fin c) Int) (x : Int), Rep a A →
      (x ≠ 0 → ∃ m, a.divScalar quoInt x = .ok m ∧ Rep m (Matrix.of fun i j => (A i j).tdiv x)) ∧
      (x = 0 → 0 < r → a.divScalar quoInt x = .panic)) := by
  refine ⟨fun a A x ha => ⟨fun hx => (C17_div quoRat (fun y x => y / x) a A x ha).1 ?_, fun hx hr =>
      (C17_div quoRat (fun y x => y / x) a A x ha).2 ?_ hr⟩,
    fun a A x ha => ⟨fun hx => (C17_div quoInt (fun y x => y.tdiv x) a A x ha).1 ?_, fun hx hr =>
      (C17_div quoInt (fun y x => y.tdiv x) a A x ha).2 ?_ hr⟩⟩
  · intro i j; simp [quoRat, hx]
  · intro y; simp [quoRat, hx]
  · intro i j; simp [quoInt, hx]
  · intro y; simp [quoInt, hx]

example : Mat.divScalar quoInt (⟨2, 2, [4, 5, -5, 7]⟩ : Mat Int) 2 = .ok ⟨2, 2, [2, 2, -2, 3]⟩ := by decide

/-! ## C18 -/

/-- **C18** (a) `hstack` of blocks with equally many rows returns, and `submatrix` gives back each
block. -/
theorem C18_hstack {T : Type} [Inhabited T] (parts : List (Mat T)) (hne : parts ≠ []) (r : Nat)
    (hw : ∀ p ∈ parts, p.WF) (hr : ∀ p ∈ parts, p.nrows = r) :
    ∃ h, Mat.hstack parts = .ok h ∧ h.WF ∧ h.nrows = r ∧ h.ncols = (parts.map (·.ncols)).sum ∧
      ∀ pre p post, parts = pre ++ p :: post →
        h.submatrix 0 r ((pre.map (·.ncols)).sum) ((pre.map (·.ncols)).sum + p.ncols) = .ok p := by
  let _ : Zero T := ⟨default⟩
  exact hstack_sub parts hne r hw hr

/-- **C18** (b) `vstack` of blocks with equally many columns returns, and `submatrix` gives back each
block. -/
theorem C18_vstack {T : Type} [Inhabited T] (parts : List (Mat T)) (hne : parts ≠ []) (c : Nat)
    (hw : ∀ p ∈ parts, p.WF) (hc : ∀ p ∈ parts, p.ncols = c) :
    ∃ h, Mat.vstack parts = .ok h ∧ h.WF ∧ h.ncols = c ∧ h.nrows = (parts.map (·.nrows)).sum ∧
      ∀ pre p post, parts = pre ++ p :: post →
        h.submatrix ((pre.map (·.nrows)).sum) ((pre.map (·.nrows)).sum + p.nrows) 0 c = .ok p := by
  let _ : Zero T := ⟨default⟩
  exact vstack_sub parts hne c hw hc

/-- **C18** (c) stacking the rows of a matrix restores it. -/
theorem C18_rows {T : Type} [Inhabited T] (m : Mat T) (hw : m.WF) (hr : 0 < m.nrows) :
    (do let rows ← m.getRows
        let parts ← omap Mat.row rows
        Mat.vstack parts) = .ok m := by
  let _ : Zero T := ⟨default⟩
  exact rows_vstack m hw hr

/-- **C18** (d) incompatible blocks panic. -/
theorem C18_mismatch {T : Type} (p : Mat T) (parts : List (Mat T)) :
    ((∃ q ∈ parts, q.nrows ≠ p.nrows) → Mat.hstack (p :: parts) = .panic) ∧
    ((∃ q ∈ parts, q.ncols ≠ p.ncols) → Mat.vstack (p :: parts) = .panic) := by
  constructor
  · rintro ⟨q, hq, hne⟩
    have : ((p :: parts).all (fun m => m.nrows = p.nrows)) = false := by
      rw [← Bool.not_eq_true, List.all_eq_true]
      intro h; exact hne (by simpa using h q (by simp [hq]))
    unfold Mat.hstack
    simp only [this, rassert]; rfl
  · rintro ⟨q, hq, hne⟩
    have : ((p :: parts).all (fun m => m.ncols = p.ncols)) = false := by
      rw [← Bool.not_eq_true, List.all_eq_true]
      intro h; exact hne (by simpa using h q (by simp [hq]))
    unfold Mat.vstack
    simp only [this, rassert]; rfl

example : ∃ a b : Mat Int, a.WF ∧ b.WF ∧ a.nrows = 2 ∧ b.nrows = 2 ∧
    Mat.hstack [a, b] = .ok ⟨2, 3, [1, 3, 4, 2, 5, 6]⟩ :=
  ⟨⟨2, 1, [1, 2]⟩, ⟨2, 2, [3, 4, 5, 6]⟩, ⟨rfl, by simp⟩, ⟨rfl, by simp⟩, rfl, rfl, rfl⟩

end Systre
