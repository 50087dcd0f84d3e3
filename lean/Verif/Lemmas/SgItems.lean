import Verif.Lemmas.SgCheck
import Verif.Props.Table

/-!
# The entries of a space group table in structured form

Coordinates such as `-1/3*x+2/3*y-1/3*z` as lists of terms, operators, settings with their certificates, and what
the checks imply for the groups.
-/

namespace Systre.Sg
open ParseOperator OpText

/-- a term of a coordinate: `x`, `2/3*x`, `1/2`, `1`, with a sign -/
inductive Tm
  | axis (neg : Bool) (k : Fin 3)
  | times (neg : Bool) (m d : Nat) (k : Fin 3)
  | frac (neg : Bool) (m d : Nat)
  | int (neg : Bool) (m : Nat)
deriving DecidableEq

/-- a digit -/
def digit : Nat → Char
  | 0 => '0' | 1 => '1' | 2 => '2' | 3 => '3' | 4 => '4' | 5 => '5' | 6 => '6' | 7 => '7' | 8 => '8' | _ => '9'

/-- a number of at most two digits -/
def numText (n : Nat) : List Char := if n < 10 then [digit n] else [digit (n / 10), digit (n % 10)]

/-- the letter of an axis -/
def letter (k : Fin 3) : Char := if k = 0 then 'x' else if k = 1 then 'y' else 'z'

def Tm.neg : Tm → Bool
  | axis n _ => n
  | times n _ _ _ => n
  | frac n _ _ => n
  | int n _ => n

def Tm.body : Tm → List Char
  | axis _ k => [letter k]
  | times _ m d k => (numText m ++ [] ++ '/' :: [] ++ numText d) ++ '*' :: [letter k]
  | frac _ m d => numText m ++ [] ++ '/' :: [] ++ numText d
  | int _ m => numText m

def Tm.abs : Tm → ℚ
  | axis _ _ => 1
  | times _ m d _ => (m : ℚ) / d
  | frac _ m d => (m : ℚ) / d
  | int _ m => m

def Tm.axisOf : Tm → Option (Fin 3)
  | axis _ k => some k
  | times _ _ _ k => some k
  | frac _ _ _ => none
  | int _ _ => none

/-- the absolute value times 24 -/
def Tm.scaled : Tm → Int
  | axis _ _ => 24
  | times _ m d _ => 24 * m / d
  | frac _ m d => 24 * m / d
  | int _ m => 24 * m

def Tm.ok : Tm → Bool
  | axis _ _ => true
  | times _ m d _ => decide (m < 100 ∧ d < 100 ∧ d ≠ 0 ∧ d ∣ 24 * m)
  | frac _ m d => decide (m < 100 ∧ d < 100 ∧ d ≠ 0 ∧ d ∣ 24 * m)
  | int _ m => decide (m < 100)

def Tm.value (t : Tm) : ℚ × Option (Fin 3) := (if t.neg then -t.abs else t.abs, t.axisOf)

def Tm.signed (t : Tm) : List Char := (if t.neg then '-' else '+') :: t.body

/-- the text of a coordinate -/
def coText : List Tm → List Char
  | [] => []
  | t :: ts => (if t.neg then '-' :: t.body else t.body) ++ ts.flatMap Tm.signed

theorem numeral_numText : ∀ n, n < 100 → Numeral (numText n) n := by
  unfold Numeral
  decide +kernel

theorem letter_spec (k : Fin 3) : Letter (letter k) k := by
  fin_cases k
  exacts [.x, .y, .z]

theorem blank_nil : Blank [] := by simp [Blank]

theorem body_unsigned {t : Tm} (h : t.ok = true) : Unsigned t.body t.abs t.axisOf := by
  cases t with
  | axis n k => exact .axis (letter_spec k)
  | times n m d k =>
    simp only [Tm.ok, decide_eq_true_eq] at h
    exact .times (.quot (numeral_numText _ h.1) blank_nil blank_nil (numeral_numText _ h.2.1) h.2.2.1) (letter_spec k)
  | frac n m d =>
    simp only [Tm.ok, decide_eq_true_eq] at h
    exact .const (.quot (numeral_numText _ h.1) blank_nil blank_nil (numeral_numText _ h.2.1) h.2.2.1)
  | int n m =>
    simp only [Tm.ok, decide_eq_true_eq] at h
    exact .const (.int (numeral_numText _ h))

theorem signed_spec {t : Tm} (h : t.ok = true) : Signed t.signed t.value.1 t.value.2 := by
  unfold Tm.signed Tm.value
  cases hn : t.neg
  · exact .plus (u := []) blank_nil (body_unsigned h)
  · exact .minus (u := []) blank_nil (body_unsigned h)

theorem tail_spec {ts : List Tm} (h : ∀ t ∈ ts, t.ok = true) : Tail (ts.flatMap Tm.signed) (ts.map Tm.value) := by
  induction ts with
  | nil => exact .nil
  | cons t ts ih =>
    have := Tail.cons (u := []) blank_nil (signed_spec (h t (by simp))) (ih (fun x hx => h x (by simp [hx])))
    simpa using this

theorem coord_spec {ts : List Tm} (hne : ts ≠ []) (h : ∀ t ∈ ts, t.ok = true) : Coord (coText ts) (ts.map Tm.value) := by
  cases ts with
  | nil => exact absurd rfl hne
  | cons t ts =>
    have ht := tail_spec (fun x hx => h x (List.mem_cons_of_mem _ hx))
    have hb := h t (by simp)
    have e0 : coText (t :: ts) = (if t.neg then '-' :: t.body else t.body) ++ ts.flatMap Tm.signed := rfl
    rw [e0]
    cases hn : t.neg
    · have e : t.value = (t.abs, t.axisOf) := by unfold Tm.value; rw [hn]; rfl
      rw [List.map_cons, e, if_neg (by decide)]
      exact .unsigned (body_unsigned hb) ht
    · have hs := signed_spec hb
      have e : t.signed = '-' :: t.body := by unfold Tm.signed; rw [hn]; rfl
      rw [e] at hs
      rw [if_pos rfl]
      exact .signed hs ht

/-- the sum of the terms for an axis, times 24 -/
def sumOf (k : Option (Fin 3)) : List Tm → Int
  | [] => 0
  | t :: ts => (if t.axisOf = k then (if t.neg then -t.scaled else t.scaled) else 0) + sumOf k ts

theorem scaled_eq {t : Tm} (h : t.ok = true) : (t.scaled : ℚ) = 24 * t.abs := by
  have key : ∀ m d : Nat, d ≠ 0 → d ∣ 24 * m → ((24 * m / d : Int) : ℚ) = 24 * ((m : ℚ) / d) := by
    rintro m d hd ⟨e, he⟩
    have : (24 * m / d : Int) = e := by
      have : (24 * m : Int) = d * e := by exact_mod_cast he
      rw [this, Int.mul_ediv_cancel_left _ (by exact_mod_cast hd)]
    rw [this]
    have h1 : (24 * m : ℚ) = d * e := by exact_mod_cast he
    have h2 : (d : ℚ) ≠ 0 := by exact_mod_cast hd
    push_cast
    field_simp
    linarith
  cases t with
  | axis n k => simp [Tm.scaled, Tm.abs]
  | times n m d k =>
    simp only [Tm.ok, decide_eq_true_eq] at h
    exact key m d h.2.2.1 h.2.2.2
  | frac n m d =>
    simp only [Tm.ok, decide_eq_true_eq] at h
    exact key m d h.2.2.1 h.2.2.2
  | int n m => simp [Tm.scaled, Tm.abs]

theorem coefficient_sum {ts : List Tm} (h : ∀ t ∈ ts, t.ok = true) (k : Option (Fin 3)) :
    coefficient (ts.map Tm.value) k = (sumOf k ts : ℚ) / 24 := by
  induction ts with
  | nil => simp [coefficient, sumOf]
  | cons t ts ih =>
    have e := scaled_eq (h t (by simp))
    rw [List.map_cons, coefficient_cons, ih (fun x hx => h x (by simp [hx])), sumOf]
    unfold Tm.value
    by_cases hk : t.axisOf = k <;> cases hn : t.neg <;> simp [hk, e] <;> ring

/-- the checks for a coordinate -/
def coOk (ts : List Tm) (text : List Char) (row : R) (key : Nat) : Prop :=
  text = coText ts ∧ ts ≠ [] ∧ (∀ t ∈ ts, t.ok = true) ∧ (ts.map Tm.axisOf).Nodup ∧
  row = ⟨sumOf (some 0) ts, sumOf (some 1) ts, sumOf (some 2) ts, sumOf none ts⟩ ∧ key = row.key ∧
  (∀ c ∈ text, Table.isWhite c = false ∧ c ≠ '#')

instance (ts : List Tm) (text : List Char) (row : R) (key : Nat) : Decidable (coOk ts text row key) := by
  unfold coOk; infer_instance

/-- a coordinate -/
structure Co where
  ts : List Tm
  text : List Char
  row : R
  key : Nat
  ok : coOk ts text row key

/-- three coordinates -/
structure Tr where
  c0 : Co
  c1 : Co
  c2 : Co

/-- the rows -/
def Tr.q (t : Tr) : Q := ⟨t.c0.row, t.c1.row, t.c2.row⟩

/-- the text of the first `n` coordinates -/
def Tr.text (n : Nat) (t : Tr) : List Char :=
  match n with
  | 1 => t.c0.text
  | 2 => t.c0.text ++ [] ++ ',' :: [] ++ t.c1.text
  | _ => t.c0.text ++ [] ++ ',' :: [] ++ (t.c1.text ++ [] ++ ',' :: [] ++ t.c2.text)

/-- the key -/
def Tr.key (t : Tr) : Nat := keyOf t.c0.key t.c1.key t.c2.key

theorem same_key {n : Nat} {s t : Tr} (hs : shape n s.q = true) (ht : shape n t.q = true)
    (h : SameModZ (s.q.op n) (t.q.op n)) : s.key = t.key := by
  obtain ⟨h0, h1, h2⟩ := same_rows hs ht h
  unfold Tr.key
  rw [s.c0.ok.2.2.2.2.2.1, s.c1.ok.2.2.2.2.2.1, s.c2.ok.2.2.2.2.2.1, t.c0.ok.2.2.2.2.2.1, t.c1.ok.2.2.2.2.2.1, t.c2.ok.2.2.2.2.2.1]
  change keyOf s.q.r0.key s.q.r1.key s.q.r2.key = keyOf t.q.r0.key t.q.r1.key t.q.r2.key
  rw [h0, h1, h2]

theorem co_coord (c : Co) : Coord c.text (c.ts.map Tm.value) := by
  rw [c.ok.1]
  exact coord_spec c.ok.2.1 c.ok.2.2.1

theorem co_once (c : Co) : Once (c.ts.map Tm.value) := by
  unfold Once
  rw [List.map_map]
  exact c.ok.2.2.2.1

theorem co_coef (c : Co) : coefficient (c.ts.map Tm.value) (some 0) = (c.row.a : ℚ) / 24 ∧
    coefficient (c.ts.map Tm.value) (some 1) = (c.row.b : ℚ) / 24 ∧
    coefficient (c.ts.map Tm.value) (some 2) = (c.row.c : ℚ) / 24 ∧
    coefficient (c.ts.map Tm.value) none = (c.row.s : ℚ) / 24 := by
  obtain ⟨-, -, h, -, e, -⟩ := c.ok
  rw [coefficient_sum h, coefficient_sum h, coefficient_sum h, coefficient_sum h, e]
  exact ⟨rfl, rfl, rfl, rfl⟩

/-- the text of an operator is read as the affine map of its rows -/
theorem tr_parse {n : Nat} (hn : n = 1 ∨ n = 2 ∨ n = 3) (t : Tr) :
    ∃ m, affFromString (t.text n) = .ok (some m) ∧ IsAff m (t.q.op n).1 (t.q.op n).2 := by
  have go : ∀ (w : List Char) (ls : List (List (ℚ × Option (Fin 3)))), ls.length = n → n ≤ 3 → Operator w ls → (∀ l ∈ ls, Once l) →
      (∀ i : Fin n, ∀ j : Fin n, ((ls.map (row ls.length)).getD i []).getD j 0 = (t.q.op n).1 i j) →
      (∀ i : Fin n, (ls.map (fun l => coefficient l none)).getD i 0 = (t.q.op n).2 i) →
      ∃ m, affFromString w = .ok (some m) ∧ IsAff m (t.q.op n).1 (t.q.op n).2 := by
    intro w ls hl hn3 ho h1 hA hb
    have hp := C59_complete [] w [] ls blank_nil blank_nil ho h1
    rw [List.nil_append, List.append_nil] at hp
    obtain ⟨h2, -⟩ := C59_from_string _ _ _ _ hp
    obtain ⟨m, h3, h4⟩ := h2 (by rw [List.length_map, hl]; exact hn3)
    refine ⟨m, h3, ?_⟩
    have hlen : (ls.map (fun l => coefficient l none)).length = n := by rw [List.length_map, hl]
    generalize hbl : ls.map (fun l => coefficient l none) = b at h4 hb hlen
    subst hlen
    have e1 : (Matrix.of fun (i j : Fin b.length) => ((ls.map (row ls.length)).getD i []).getD j 0) = (t.q.op b.length).1 := by
      ext i j
      exact hA i j
    have e2 : (fun i : Fin b.length => b.getD i 0) = (t.q.op b.length).2 := funext hb
    rw [e1, e2] at h4
    exact h4
  obtain ⟨a0, b0, c0, s0⟩ := co_coef t.c0
  obtain ⟨a1, b1, c1, s1⟩ := co_coef t.c1
  obtain ⟨a2, b2, c2, s2⟩ := co_coef t.c2
  rcases hn with rfl | rfl | rfl
  · refine go _ [t.c0.ts.map Tm.value] rfl (by omega) (.single (co_coord _)) (by simpa using co_once t.c0) ?_ ?_
    · intro i j
      fin_cases i; fin_cases j
      simp [row, a0, Q.op, Tr.q, Q.row, R.coef]
    · intro i
      fin_cases i
      simp [s0, Q.op, Tr.q, Q.row, R.coef]
  · refine go _ [t.c0.ts.map Tm.value, t.c1.ts.map Tm.value] rfl (by omega)
      (.cons (co_coord _) blank_nil blank_nil (.single (co_coord _))) (by simpa using ⟨co_once t.c0, co_once t.c1⟩) ?_ ?_
    · intro i j
      fin_cases i <;> fin_cases j <;> simp [row, a0, b0, a1, b1, Q.op, Tr.q, Q.row, R.coef]
    · intro i
      fin_cases i <;> simp [s0, s1, Q.op, Tr.q, Q.row, R.coef]
  · refine go _ [t.c0.ts.map Tm.value, t.c1.ts.map Tm.value, t.c2.ts.map Tm.value] rfl (by omega)
      (.cons (co_coord _) blank_nil blank_nil (.cons (co_coord _) blank_nil blank_nil (.single (co_coord _))))
      (by simpa using ⟨co_once t.c0, co_once t.c1, co_once t.c2⟩) ?_ ?_
    · intro i j
      fin_cases i <;> fin_cases j <;> simp [row, a0, b0, c0, a1, b1, c1, a2, b2, c2, Q.op, Tr.q, Q.row, R.coef]
    · intro i
      fin_cases i <;> simp [s0, s1, s2, Q.op, Tr.q, Q.row, R.coef]

end Systre.Sg
