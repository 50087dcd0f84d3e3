import Verif.Lemmas.SgGroup
import Mathlib.Tactic.IntervalCases
import Mathlib.Tactic.FinCases
import Mathlib.Tactic.NormNum

/-!
# Checking the groups of a space group table with integers

An affine map in at most three dimensions is stored as three rows of four integers, in units of 1/24. The checks are
Boolean functions on such rows, written with recursors so that the kernel evaluates them fast; the certificates they
use (generators, permutations, words) are found by an untrusted program.
-/

namespace Systre.Sg

/-- a row of a matrix and the entry of the shift, times 24 -/
structure R where
  a : Int
  b : Int
  c : Int
  s : Int
deriving DecidableEq

/-- three rows -/
structure Q where
  r0 : R
  r1 : R
  r2 : R
deriving DecidableEq

/-- the entry in column `j` -/
def R.coef (r : R) : Nat → Int
  | 0 => r.a
  | 1 => r.b
  | _ => r.c

/-- row `i` -/
def Q.row (q : Q) : Nat → R
  | 0 => q.r0
  | 1 => q.r1
  | _ => q.r2

/-- the affine map -/
def Q.op (n : Nat) (q : Q) : Op n :=
  (Matrix.of fun i j => ((q.row i.1).coef j.1 : ℚ) / 24, fun i => ((q.row i.1).s : ℚ) / 24)

/-- the entries beyond the dimension are those of the identity -/
def shape (n : Nat) (q : Q) : Bool :=
  match n with
  | 1 => decide (q.r0.b = 0 ∧ q.r0.c = 0 ∧ q.r1 = ⟨0, 24, 0, 0⟩ ∧ q.r2 = ⟨0, 0, 24, 0⟩)
  | 2 => decide (q.r0.c = 0 ∧ q.r1.c = 0 ∧ q.r2 = ⟨0, 0, 24, 0⟩)
  | 3 => true
  | _ => false

/-- equality of integers -/
def ieq : Int → Int → Bool
  | .ofNat a, .ofNat b => Nat.beq a b
  | .negSucc a, .negSucc b => Nat.beq a b
  | _, _ => false

theorem ieq_iff {x y : Int} : ieq x y = true → x = y := by
  cases x <;> cases y <;> simp [ieq]

/-- divisible by 576 -/
def idvd : Int → Bool
  | .ofNat a => Nat.beq (Nat.mod a 576) 0
  | .negSucc a => Nat.beq (Nat.mod (Nat.succ a) 576) 0

theorem idvd_iff {x : Int} (h : idvd x = true) : (576 : Int) ∣ x := by
  cases x with
  | ofNat a =>
    have h : a % 576 = 0 := Nat.eq_of_beq_eq_true h
    change (576 : Int) ∣ (a : Int)
    omega
  | negSucc a =>
    have h : (a + 1) % 576 = 0 := Nat.eq_of_beq_eq_true h
    omega

/-- a row times a column -/
def dot (r : R) (x y z : Int) : Int := Int.add (Int.add (Int.mul r.a x) (Int.mul r.b y)) (Int.mul r.c z)

theorem dot_eq (r : R) (x y z : Int) : dot r x y z = r.a * x + r.b * y + r.c * z := rfl

/-- the same row of `p ∘ q` and `r ∘ s`, up to an integer shift -/
def rowEq (p : R) (q : Q) (r : R) (s : Q) : Bool :=
  cond (ieq (dot p q.r0.a q.r1.a q.r2.a) (dot r s.r0.a s.r1.a s.r2.a)) (
  cond (ieq (dot p q.r0.b q.r1.b q.r2.b) (dot r s.r0.b s.r1.b s.r2.b)) (
  cond (ieq (dot p q.r0.c q.r1.c q.r2.c) (dot r s.r0.c s.r1.c s.r2.c)) (
  idvd (Int.sub (Int.add (dot p q.r0.s q.r1.s q.r2.s) (Int.mul 24 p.s))
    (Int.add (dot r s.r0.s s.r1.s s.r2.s) (Int.mul 24 r.s)))) false) false) false

/-- `p ∘ q` and `r ∘ s` agree up to an integer translation -/
def mulEq (p q r s : Q) : Bool :=
  cond (rowEq p.r0 q r.r0 s) (cond (rowEq p.r1 q r.r1 s) (rowEq p.r2 q r.r2 s) false) false

/-- row `p` of `p ∘ q` is `r`, up to an integer shift -/
def rowIs (p : R) (q : Q) (r : R) : Bool :=
  cond (ieq (dot p q.r0.a q.r1.a q.r2.a) (Int.mul 24 r.a)) (
  cond (ieq (dot p q.r0.b q.r1.b q.r2.b) (Int.mul 24 r.b)) (
  cond (ieq (dot p q.r0.c q.r1.c q.r2.c) (Int.mul 24 r.c)) (
  idvd (Int.add (dot p q.r0.s q.r1.s q.r2.s) (Int.mul 24 (Int.sub p.s r.s)))) false) false) false

/-- `p ∘ q` and `r` agree up to an integer translation -/
def mulIs (p q r : Q) : Bool :=
  cond (rowIs p.r0 q r.r0) (cond (rowIs p.r1 q r.r1) (rowIs p.r2 q r.r2) false) false

/-- the identity -/
def idQ : Q := ⟨⟨24, 0, 0, 0⟩, ⟨0, 24, 0, 0⟩, ⟨0, 0, 24, 0⟩⟩

theorem cond_and {a b : Bool} : cond a b false = true ↔ a = true ∧ b = true := by cases a <;> simp

theorem shape_dim {n : Nat} {q : Q} (h : shape n q = true) : n = 1 ∨ n = 2 ∨ n = 3 := by
  unfold shape at h
  split at h <;> simp_all

theorem idQ_op {n : Nat} (h : n = 1 ∨ n = 2 ∨ n = 3) : idQ.op n = Op.one := by
  rcases h with rfl | rfl | rfl <;>
  · refine Prod.ext ?_ ?_
    · ext i j
      fin_cases i <;> fin_cases j <;> norm_num [Q.op, idQ, Q.row, R.coef, Op.one]
    · ext i
      fin_cases i <;> norm_num [Q.op, idQ, Q.row, R.coef, Op.one]

theorem rowEq_iff {p r : R} {q s : Q} (h : rowEq p q r s = true) :
    p.a * q.r0.a + p.b * q.r1.a + p.c * q.r2.a = r.a * s.r0.a + r.b * s.r1.a + r.c * s.r2.a ∧
    p.a * q.r0.b + p.b * q.r1.b + p.c * q.r2.b = r.a * s.r0.b + r.b * s.r1.b + r.c * s.r2.b ∧
    p.a * q.r0.c + p.b * q.r1.c + p.c * q.r2.c = r.a * s.r0.c + r.b * s.r1.c + r.c * s.r2.c ∧
    ∃ z : Int, (p.a * q.r0.s + p.b * q.r1.s + p.c * q.r2.s + 24 * p.s) - (r.a * s.r0.s + r.b * s.r1.s + r.c * s.r2.s + 24 * r.s) = 576 * z := by
  unfold rowEq at h
  rw [cond_and, cond_and, cond_and] at h
  obtain ⟨h1, h2, h3, h4⟩ := h
  exact ⟨ieq_iff h1, ieq_iff h2, ieq_iff h3, idvd_iff h4⟩

theorem rowIs_iff {p r : R} {q : Q} (h : rowIs p q r = true) :
    p.a * q.r0.a + p.b * q.r1.a + p.c * q.r2.a = 24 * r.a ∧
    p.a * q.r0.b + p.b * q.r1.b + p.c * q.r2.b = 24 * r.b ∧
    p.a * q.r0.c + p.b * q.r1.c + p.c * q.r2.c = 24 * r.c ∧
    ∃ z : Int, (p.a * q.r0.s + p.b * q.r1.s + p.c * q.r2.s) + 24 * (p.s - r.s) = 576 * z := by
  unfold rowIs at h
  rw [cond_and, cond_and, cond_and] at h
  obtain ⟨h1, h2, h3, h4⟩ := h
  exact ⟨ieq_iff h1, ieq_iff h2, ieq_iff h3, idvd_iff h4⟩

/-- one row of a composition -/
theorem comp_row {n : Nat} {p q : Q} (hp : shape n p = true) (i j : Fin n) :
    ((p.op n).comp (q.op n)).1 i j =
      (((p.row i).a * q.r0.coef j + (p.row i).b * q.r1.coef j + (p.row i).c * q.r2.coef j : Int) : ℚ) / 576 ∧
    ((p.op n).comp (q.op n)).2 i =
      (((p.row i).a * q.r0.s + (p.row i).b * q.r1.s + (p.row i).c * q.r2.s + 24 * (p.row i).s : Int) : ℚ) / 576 := by
  rcases shape_dim hp with rfl | rfl | rfl
  · simp only [shape, decide_eq_true_eq] at hp
    obtain ⟨h1, h2, h3, h4⟩ := hp
    fin_cases i
    fin_cases j
    simp only [Op.comp, Q.op, Matrix.mul_apply, Matrix.mulVec, dotProduct, Fin.sum_univ_succ, Fin.sum_univ_zero, Q.row, R.coef, Pi.add_apply,
      Matrix.of_apply]
    simp [Q.row, R.coef, h1, h2]
    constructor <;> ring
  · simp only [shape, decide_eq_true_eq] at hp
    obtain ⟨h1, h2, h3⟩ := hp
    fin_cases i <;> fin_cases j <;>
    simp only [Op.comp, Q.op, Matrix.mul_apply, Matrix.mulVec, dotProduct, Fin.sum_univ_succ, Fin.sum_univ_zero, Q.row, R.coef, Pi.add_apply,
      Matrix.of_apply] <;>
    simp [Q.row, R.coef, h1, h2] <;>
    constructor <;> ring
  · fin_cases i <;> fin_cases j <;>
    simp only [Op.comp, Q.op, Matrix.mul_apply, Matrix.mulVec, dotProduct, Fin.sum_univ_succ, Fin.sum_univ_zero, Q.row, R.coef, Pi.add_apply,
      Matrix.of_apply] <;>
    simp [Q.row, R.coef] <;>
    constructor <;> ring

theorem row_cases {P : R → R → Prop} {p q : Q} (h0 : P p.r0 q.r0) (h1 : P p.r1 q.r1) (h2 : P p.r2 q.r2) (i : Nat) : P (p.row i) (q.row i) := by
  unfold Q.row
  split <;> assumption

theorem coef_cases {P : Int → Int → Prop} {r s : R} (h0 : P r.a s.a) (h1 : P r.b s.b) (h2 : P r.c s.c) (j : Nat) : P (r.coef j) (s.coef j) := by
  unfold R.coef
  split <;> assumption

theorem mulEq_sound {n : Nat} {p q r s : Q} (hp : shape n p = true) (hr : shape n r = true) (h : mulEq p q r s = true) :
    SameModZ ((p.op n).comp (q.op n)) ((r.op n).comp (s.op n)) := by
  unfold mulEq at h
  rw [cond_and, cond_and] at h
  obtain ⟨h0, h1, h2⟩ := h
  have key : ∀ i, rowEq (p.row i) q (r.row i) s = true := fun i => row_cases (P := fun a b => rowEq a q b s = true) h0 h1 h2 i
  constructor
  · ext i j
    rw [(comp_row hp i j).1, (comp_row hr i j).1]
    obtain ⟨k1, k2, k3, -⟩ := rowEq_iff (key i)
    congr 2
    unfold R.coef
    split <;> assumption
  · intro i
    obtain ⟨-, -, -, z, hz⟩ := rowEq_iff (key i)
    refine ⟨z, ?_⟩
    rw [(comp_row hp i i).2, (comp_row hr i i).2, ← sub_div, div_eq_iff (by norm_num)]
    have := congrArg (Int.cast (R := ℚ)) hz
    push_cast at this ⊢
    linarith

theorem mulIs_sound {n : Nat} {p q r : Q} (hp : shape n p = true) (h : mulIs p q r = true) :
    SameModZ ((p.op n).comp (q.op n)) (r.op n) := by
  unfold mulIs at h
  rw [cond_and, cond_and] at h
  obtain ⟨h0, h1, h2⟩ := h
  have key : ∀ i, rowIs (p.row i) q (r.row i) = true := fun i => row_cases (P := fun a b => rowIs a q b = true) h0 h1 h2 i
  constructor
  · ext i j
    rw [(comp_row hp i j).1]
    obtain ⟨k1, k2, k3, -⟩ := rowIs_iff (key i)
    have : (p.row i).a * q.r0.coef j + (p.row i).b * q.r1.coef j + (p.row i).c * q.r2.coef j = 24 * (r.row i).coef j := by
      unfold R.coef
      split <;> assumption
    rw [this]
    simp only [Q.op, Matrix.of_apply]
    push_cast
    ring
  · intro i
    obtain ⟨-, -, -, z, hz⟩ := rowIs_iff (key i)
    refine ⟨z, ?_⟩
    rw [(comp_row hp i i).2]
    simp only [Q.op]
    rw [div_sub_div _ _ (by norm_num) (by norm_num), div_eq_iff (by norm_num)]
    have := congrArg (Int.cast (R := ℚ)) hz
    push_cast at this ⊢
    linarith

/-- row `p` of `p ∘ q` is `r` -/
def rowInv (p : R) (q : Q) (r : R) : Bool :=
  decide (dot p q.r0.a q.r1.a q.r2.a = 24 * r.a ∧ dot p q.r0.b q.r1.b q.r2.b = 24 * r.b ∧
    dot p q.r0.c q.r1.c q.r2.c = 24 * r.c ∧ dot p q.r0.s q.r1.s q.r2.s + 24 * p.s = 0)

/-- `p ∘ q` is the identity -/
def isInv (p q : Q) : Bool := rowInv p.r0 q idQ.r0 && rowInv p.r1 q idQ.r1 && rowInv p.r2 q idQ.r2

theorem isInv_sound {n : Nat} {p q : Q} (hp : shape n p = true) (h : isInv p q = true) : (p.op n).comp (q.op n) = Op.one := by
  have hn := shape_dim hp
  rw [← idQ_op hn]
  simp only [isInv, Bool.and_eq_true] at h
  have h : ∀ i, rowInv (p.row i) q (idQ.row i) = true := fun i => row_cases (P := fun a b => rowInv a q b = true) h.1.1 h.1.2 h.2 i
  have h := fun i => of_decide_eq_true (h i)
  simp only [dot_eq] at h
  refine Prod.ext ?_ ?_
  · ext i j
    rw [(comp_row hp i j).1]
    obtain ⟨k1, k2, k3, -⟩ := h i
    have : (p.row i).a * q.r0.coef j + (p.row i).b * q.r1.coef j + (p.row i).c * q.r2.coef j = 24 * (idQ.row i).coef j := by
      unfold R.coef
      split <;> assumption
    rw [this]
    simp only [Q.op, Matrix.of_apply]
    push_cast
    ring
  · ext i
    rw [(comp_row hp i i).2]
    obtain ⟨-, -, -, k⟩ := h i
    rw [k]
    have : (idQ.row i).s = 0 := by unfold Q.row; split <;> rfl
    simp [Q.op, this]

/-! ### Keys -/

/-- a number that is the same for rows that agree up to an integer shift -/
def R.key (r : R) : Nat := ((((r.a + 100) * 200 + (r.b + 100)) * 200 + (r.c + 100)) * 24 + r.s % 24).toNat

/-- a number for three rows -/
def keyOf (k0 k1 k2 : Nat) : Nat := Nat.add (Nat.mul (Nat.add (Nat.mul k0 1000000000) k1) 1000000000) k2

theorem row_key {r s : R} (ha : r.a = s.a) (hb : r.b = s.b) (hc : r.c = s.c) {z : Int} (hs : r.s - s.s = 24 * z) : r.key = s.key := by
  unfold R.key
  have : r.s % 24 = s.s % 24 := by omega
  rw [ha, hb, hc, this]

theorem same_rows {n : Nat} {p q : Q} (hp : shape n p = true) (hq : shape n q = true) (h : SameModZ (p.op n) (q.op n)) :
    p.r0.key = q.r0.key ∧ p.r1.key = q.r1.key ∧ p.r2.key = q.r2.key := by
  obtain ⟨h1, h2⟩ := h
  have e1 : ∀ i j : Fin n, (p.row i).coef j = (q.row i).coef j := by
    intro i j
    have := congrFun (congrFun h1 i) j
    simp only [Q.op, Matrix.of_apply] at this
    rw [div_left_inj' (by norm_num)] at this
    exact_mod_cast this
  have e2 : ∀ i : Fin n, ∃ z : Int, (p.row i).s - (q.row i).s = 24 * z := by
    intro i
    obtain ⟨z, hz⟩ := h2 i
    refine ⟨z, ?_⟩
    simp only [Q.op] at hz
    rw [← sub_div, div_eq_iff (by norm_num)] at hz
    have : (((p.row i).s - (q.row i).s : Int) : ℚ) = ((24 * z : Int) : ℚ) := by push_cast; linarith
    exact_mod_cast this
  rcases shape_dim hp with rfl | rfl | rfl
  · simp only [shape, decide_eq_true_eq] at hp hq
    obtain ⟨a1, a2, a3, a4⟩ := hp
    obtain ⟨b1, b2, b3, b4⟩ := hq
    obtain ⟨z, hz⟩ := e2 0
    exact ⟨row_key (e1 0 0) (a1.trans b1.symm) (a2.trans b2.symm) hz, by rw [a3, b3], by rw [a4, b4]⟩
  · simp only [shape, decide_eq_true_eq] at hp hq
    obtain ⟨a1, a2, a3⟩ := hp
    obtain ⟨b1, b2, b3⟩ := hq
    obtain ⟨z, hz⟩ := e2 0
    obtain ⟨w, hw⟩ := e2 1
    exact ⟨row_key (e1 0 0) (e1 0 1) (a1.trans b1.symm) hz, row_key (e1 1 0) (e1 1 1) (a2.trans b2.symm) hw, by rw [a3, b3]⟩
  · obtain ⟨z, hz⟩ := e2 0
    obtain ⟨w, hw⟩ := e2 1
    obtain ⟨v, hv⟩ := e2 2
    exact ⟨row_key (e1 0 0) (e1 0 1) (e1 0 2) hz, row_key (e1 1 0) (e1 1 1) (e1 1 2) hw, row_key (e1 2 0) (e1 2 1) (e1 2 2) hv⟩

end Systre.Sg
