import Verif.Lemmas.ParseComplete
import Verif.Lemmas.Geometry
import Verif.Lemmas.MatrixRep
import Verif.Lemmas.ModularRef

/-! # The text of an operator is read back -/

namespace Systre.ParseOperator
open Nom OpText

theorem numeral_toDigits {n : Nat} (h : n < 10 ^ 9) : Numeral (Nat.toDigits 10 n) n := by
  refine ⟨Nat.toDigits_ne_nil, ?_, ?_, ?_⟩
  · exact (Nat.length_toDigits_le_iff (by norm_num) (by norm_num)).2 h
  · intro c hc
    have := Nat.isDigit_of_mem_toDigits (by norm_num) (by norm_num) hc
    simpa [Char.isDigit, Char.le_def] using this
  · have := @Nat.ofDigitChars_ten_toDigits n
    rw [Nat.ofDigitChars_eq_foldl] at this
    exact this.symm

theorem ratText_fraction {q : Rat} (h0 : 0 ≤ q) (hs : Small q) : Fraction (ratText q) q := by
  have hn : ((q.num.natAbs : ℕ) : ℚ) = q.num := by
    have : 0 ≤ q.num := Rat.num_nonneg.2 h0
    have h2 := Int.natAbs_of_nonneg this
    calc ((q.num.natAbs : ℕ) : ℚ) = (((q.num.natAbs : ℕ) : ℤ) : ℚ) := (Int.cast_natCast _).symm
      _ = q.num := by rw [h2]
  unfold ratText
  split_ifs with hd
  · have := Fraction.int (numeral_toDigits hs.1)
    have e : ((q.num.natAbs : ℕ) : ℚ) = q := by
      rw [hn]
      conv_rhs => rw [← Rat.num_div_den q, hd]
      simp
    rwa [e] at this
  · have := Fraction.quot (u := []) (v := []) (numeral_toDigits hs.1) (by simp [Blank]) (by simp [Blank])
      (numeral_toDigits hs.2) q.den_ne_zero
    rw [hn, Rat.num_div_den] at this
    simpa using this

theorem absRat_eq (q : Rat) : absRat q = |q| := by
  unfold absRat
  split_ifs with h
  · rw [abs_of_neg h]
  · rw [abs_of_nonneg (not_lt.1 h)]

theorem small_abs {q : Rat} (h : Small q) : Small |q| := by
  rcases abs_choice q with e | e <;> rw [e]
  · exact h
  · exact ⟨by rw [Rat.num_neg_eq_neg_num, Int.natAbs_neg]; exact h.1, by rw [Rat.den_neg_eq_den]; exact h.2⟩

/-- the text after the sign -/
def body (val : Rat) (axis : List Char) : List Char := (if absRat val ≠ 1 then ratText (absRat val) else []) ++ axis

/-- the text of an axis -/
inductive AxisText : List Char → Option (Fin 3) → Prop
  | letter {c k} : Letter c k → AxisText [c] (some k)
  | none : AxisText [] none

theorem body_unsigned {val : Rat} {ax : List Char} {k : Option (Fin 3)} (hs : Small val) (ha : AxisText ax k)
    (h1 : k = none → |val| ≠ 1) : Unsigned (body val ax) |val| k := by
  have hf := ratText_fraction (abs_nonneg val) (small_abs hs)
  unfold body
  rw [absRat_eq]
  cases ha with
  | letter hl =>
    split_ifs with h
    · have := Unsigned.juxt (u := []) hf (by simp [Blank]) hl
      simpa using this
    · push Not at h
      rw [h]
      exact .axis hl
  | none =>
    rw [if_pos (h1 rfl), List.append_nil]
    exact .const hf

theorem partText_pos {k : Nat} {val : Rat} {ax : List Char} (h : val > 0) :
    partText k val ax = (if k > 0 then ['+'] else []) ++ body val ax := by
  unfold partText body
  simp only [h, and_true, not_lt.2 h.le, if_false, List.append_assoc]

theorem partText_neg {k : Nat} {val : Rat} {ax : List Char} (h : val < 0) : partText k val ax = '-' :: body val ax := by
  unfold partText body
  simp only [not_lt.2 h.le, h, and_false, if_false, if_true, List.append_assoc]
  rfl

theorem part_signed {k : Nat} {val : Rat} {ax : List Char} {i : Option (Fin 3)} (hk : 0 < k) (h0 : val ≠ 0) (hs : Small val)
    (ha : AxisText ax i) (h1 : i = none → |val| ≠ 1) : Signed (partText k val ax) val i := by
  have hb := body_unsigned hs ha h1
  rcases lt_or_gt_of_ne h0 with h | h
  · rw [partText_neg h]
    have := Signed.minus (u := []) (by simp [Blank]) hb
    rw [abs_of_neg h, neg_neg] at this
    simpa using this
  · rw [partText_pos h, if_pos hk]
    have := Signed.plus (u := []) (by simp [Blank]) hb
    rw [abs_of_pos h] at this
    simpa using this

/-- what is known of the parts of a row -/
def Part (p : Rat × List Char) (t : ℚ × Option (Fin 3)) : Prop :=
  p.1 = t.1 ∧ p.1 ≠ 0 ∧ Small p.1 ∧ AxisText p.2 t.2 ∧ (t.2 = none → |p.1| ≠ 1)

theorem parts_tail {ps : List (Rat × List Char)} {ts : List (ℚ × Option (Fin 3))} (h : List.Forall₂ Part ps ts) :
    ∀ k, 0 < k → Tail (partsText k ps) ts := by
  induction h with
  | nil => intro k _; exact .nil
  | @cons p t ps ts hp h ih =>
    intro k hk
    obtain ⟨e, h0, hs, ha, h1⟩ := hp
    obtain ⟨q, i⟩ := t
    dsimp only at e ha h1
    subst e
    have := Tail.cons (u := []) (by simp [Blank]) (part_signed hk h0 hs ha h1) (ih (k + 1) (by omega))
    simpa [partsText] using this

theorem parts_coord {p : Rat × List Char} {t : ℚ × Option (Fin 3)} {ps : List (Rat × List Char)} {ts : List (ℚ × Option (Fin 3))}
    (hp : Part p t) (h : List.Forall₂ Part ps ts) : Coord (partsText 0 (p :: ps)) (t :: ts) := by
  have ht := parts_tail h 1 (by omega)
  obtain ⟨e, h0, hs, ha, h1⟩ := hp
  obtain ⟨q, i⟩ := t
  dsimp only at e ha h1
  subst e
  have hb := body_unsigned hs ha h1
  rw [partsText]
  rcases lt_or_gt_of_ne h0 with h | h
  · rw [partText_neg h]
    have := Signed.minus (u := []) (by simp [Blank]) hb
    rw [abs_of_neg h, neg_neg] at this
    exact .signed (by simpa using this) ht
  · rw [partText_pos h, if_neg (by omega), List.nil_append]
    rw [abs_of_pos h] at hb
    exact .unsigned hb ht

/-- The parts of a row before the filter, with their axes as the specification has them. -/
def rowParts (r : List Rat) : List ((Rat × List Char) × Option (Fin 3)) :=
  (r.zip [['x'], ['y'], ['z']]).zip [some 0, some 1, some 2]

theorem rowParts_axis {r : List Rat} : ∀ p ∈ rowParts r, AxisText p.1.2 p.2 ∧ p.2 ≠ none ∧ p.1.1 ∈ r := by
  intro p hp
  match r with
  | [] => simp [rowParts] at hp
  | [a] => simp [rowParts] at hp; subst hp; exact ⟨.letter .x, by simp, by simp⟩
  | [a, b] =>
    simp [rowParts] at hp
    rcases hp with rfl | rfl
    · exact ⟨.letter .x, by simp, by simp⟩
    · exact ⟨.letter .y, by simp, by simp⟩
  | a :: b :: c :: r =>
    simp [rowParts] at hp
    rcases hp with rfl | rfl | rfl
    · exact ⟨.letter .x, by simp, by simp⟩
    · exact ⟨.letter .y, by simp, by simp⟩
    · exact ⟨.letter .z, by simp, by simp⟩

theorem rowParts_fst (r : List Rat) : (rowParts r).map Prod.fst = r.zip [['x'], ['y'], ['z']] := by
  unfold rowParts
  rw [List.map_fst_zip]
  simp

/-- the terms of a row without the constant -/
def rowTerms (r : List Rat) : List (ℚ × Option (Fin 3)) :=
  ((rowParts r).filter (fun p => decide (p.1.1 ≠ 0))).map (fun p => (p.1.1, p.2))

theorem rowTerms_eq (r : List Rat) : rowTerms r = (r.zip [some 0, some 1, some 2]).filter (fun p => decide (p.1 ≠ 0)) := by
  match r with
  | [] => rfl
  | [a] => simp only [rowTerms, rowParts, List.zip_cons_cons, List.zip_nil_left, List.filter_cons]; split_ifs <;> rfl
  | [a, b] => simp only [rowTerms, rowParts, List.zip_cons_cons, List.zip_nil_left, List.filter_cons]; split_ifs <;> rfl
  | a :: b :: c :: r => simp only [rowTerms, rowParts, List.zip_cons_cons, List.zip_nil_right, List.filter_cons]; split_ifs <;> rfl

/-- the parts of a row without the constant -/
def rowBody (r : List Rat) : List (Rat × List Char) := (r.zip [['x'], ['y'], ['z']]).filter (fun p => decide (p.1 ≠ 0))

theorem rowBody_parts {r : List Rat} (hs : ∀ x ∈ r, Small x) : List.Forall₂ Part (rowBody r) (rowTerms r) := by
  unfold rowBody rowTerms
  rw [← rowParts_fst, List.filter_map]
  rw [List.forall₂_map_left_iff, List.forall₂_map_right_iff]
  refine List.forall₂_same.2 ?_
  intro p hp
  obtain ⟨hp, h0⟩ := List.mem_filter.1 hp
  obtain ⟨h1, h2, h3⟩ := rowParts_axis p hp
  exact ⟨rfl, by simpa using h0, hs _ h3, h1, fun h => absurd h h2⟩

theorem coefficient_filter (l : List (ℚ × Option (Fin 3))) (k : Option (Fin 3)) :
    coefficient (l.filter (fun p => decide (p.1 ≠ 0))) k = coefficient l k := by
  induction l with
  | nil => rfl
  | cons v l ih =>
    rw [List.filter_cons]
    split_ifs with h
    · rw [coefficient_cons, coefficient_cons, ih]
    · rw [ih, coefficient_cons]
      have : v.1 = 0 := by simpa using h
      simp [this]

/-- the terms that are written -/
def rowAll (r : List Rat) (s : Rat) : List (ℚ × Option (Fin 3)) :=
  let ts := rowTerms r ++ (if s = 0 then [] else [(s, none)])
  if ts = [] then [(0, none)] else ts

theorem rowAll_coefficient (r : List Rat) (s : Rat) (k : Option (Fin 3)) :
    coefficient (rowAll r s) k = coefficient (r.zip [some 0, some 1, some 2]) k + (if k = none then s else 0) := by
  have happ : ∀ l l' : List (ℚ × Option (Fin 3)), coefficient (l ++ l') k = coefficient l k + coefficient l' k := by
    intro l l'; simp [coefficient]
  have h0 : coefficient (rowTerms r ++ (if s = 0 then [] else [(s, none)])) k =
      coefficient (r.zip [some 0, some 1, some 2]) k + (if k = none then s else 0) := by
    rw [happ, rowTerms_eq, coefficient_filter]
    congr 1
    split_ifs with h1 h2 h3
    · simp [coefficient, h1]
    · simp [coefficient]
    · simp [coefficient, h3]
    · have : ¬ (none = k) := fun h => h3 h.symm
      simp [coefficient, this]
  unfold rowAll
  simp only
  by_cases h1 : rowTerms r ++ (if s = 0 then [] else [(s, none)]) = []
  · rw [if_pos h1, ← h0, h1]
    cases k <;> simp [coefficient]
  · rw [if_neg h1, h0]

theorem rowAll_row {n : Nat} (hn : n ≤ 3) {r : List Rat} (hr : r.length = n) (s : Rat) :
    row n (rowAll r s) = r ∧ coefficient (rowAll r s) none = s := by
  have hc := rowAll_coefficient r s
  constructor
  · unfold row
    rw [hc, hc, hc]
    subst hr
    match r with
    | [] => rfl
    | [a] => simp [coefficient]
    | [a, b] => simp [coefficient]
    | [a, b, c] => simp [coefficient]
    | a :: b :: c :: d :: r => simp at hn; omega
  · rw [hc]
    match r with
    | [] => simp [coefficient]
    | [a] => simp [coefficient]
    | [a, b] => simp [coefficient]
    | a :: b :: c :: r => simp [coefficient]

theorem axes_sublist (r : List Rat) : ((rowTerms r).map Prod.snd).Sublist [some 0, some 1, some 2] := by
  rw [rowTerms_eq]
  refine (List.Sublist.map _ List.filter_sublist).trans ?_
  match r with
  | [] => simp
  | [a] => simp
  | [a, b] => simp
  | a :: b :: c :: r => simp

theorem rowTerms_once (r : List Rat) : Once (rowTerms r) := (axes_sublist r).nodup (by decide)

theorem rowAll_once (r : List Rat) (s : Rat) : Once (rowAll r s) := by
  have h2 : ((rowTerms r).map Prod.snd ++ [none]).Sublist ([some 0, some 1, some 2] ++ [none]) := (axes_sublist r).append (List.Sublist.refl _)
  have h3 := h2.nodup (by decide)
  have h4 := rowTerms_once r
  unfold rowAll Once at *
  simp only
  by_cases h : s = 0
  · simp only [h, if_true, List.append_nil]
    split_ifs
    · simp
    · exact h4
  · rw [if_neg h, if_neg (by simp), List.map_append]
    exact h3

/-! ### The rows -/

theorem partsText_append (a b : List (Rat × List Char)) : ∀ k, partsText k (a ++ b) = partsText k a ++ partsText (k + a.length) b := by
  induction a with
  | nil => intro k; simp [partsText]
  | cons p a ih =>
    intro k
    rw [List.cons_append, partsText, partsText, ih (k + 1), List.append_assoc, List.length_cons]
    congr 3
    omega

theorem writeOpRow_parts (r : List Rat) (s : Rat) : writeOpRow r s =
    if rowBody r ++ (if s = 0 then [] else [(s, [])]) = [] then ['0']
    else partsText 0 (rowBody r ++ (if s = 0 then [] else [(s, [])])) := by
  unfold writeOpRow
  simp only [List.filter_append]
  have : List.filter (fun p : Rat × List Char => decide (p.1 ≠ 0)) [(s, [])] = if s = 0 then [] else [(s, [])] := by
    by_cases h : s = 0 <;> simp [h]
  rw [this]
  rfl

theorem zero_coord : Coord ['0'] [((0 : ℚ), none)] := by
  have h : Unsigned ['0'] ((0 : ℕ) : ℚ) none := .const (.int ⟨by simp, by simp, by decide, by decide⟩)
  have := Coord.unsigned h .nil
  simpa using this

theorem good_row {r : List Rat} {s : Rat} (hs : ∀ x ∈ r, Small x) (h : Small s) (h1 : |s| ≠ 1) :
    Coord (writeOpRow r s) (rowAll r s) := by
  have hp : List.Forall₂ Part (rowBody r ++ (if s = 0 then [] else [(s, [])])) (rowTerms r ++ (if s = 0 then [] else [(s, none)])) := by
    refine List.rel_append (rowBody_parts hs) ?_
    by_cases h0 : s = 0
    · simp [h0]
    · rw [if_neg h0, if_neg h0]
      exact .cons ⟨rfl, h0, h, .none, fun _ => h1⟩ .nil
  rw [writeOpRow_parts]
  unfold rowAll
  simp only
  generalize rowBody r ++ (if s = 0 then [] else [(s, [])]) = ps at hp
  generalize rowTerms r ++ (if s = 0 then [] else [(s, none)]) = ts at hp
  cases hp with
  | nil => simpa using zero_coord
  | cons h1 h2 => simpa using parts_coord h1 h2

/-- A constant `±1` leaves only a sign, or nothing. -/
theorem bad_row {r : List Rat} {s : Rat} (hs : ∀ x ∈ r, Small x) (h1 : |s| = 1) :
    (rowBody r = [] ∧ (writeOpRow r s = [] ∨ writeOpRow r s = ['-'])) ∨
    (∃ g c, writeOpRow r s = g ++ [c] ∧ (c = '+' ∨ c = '-') ∧ Coord g (rowTerms r)) := by
  have h0 : s ≠ 0 := by rintro rfl; simp at h1
  rw [writeOpRow_parts, if_neg h0, if_neg (by simp), partsText_append]
  have hb : body s [] = [] := by unfold body; rw [absRat_eq, h1]; simp
  have ht : ∀ k, partText k s [] = [] ∨ partText k s [] = ['-'] ∨ partText k s [] = ['+'] := by
    intro k
    rcases lt_or_gt_of_ne h0 with h | h
    · rw [partText_neg h, hb]; simp
    · rw [partText_pos h, hb]
      by_cases hk : k > 0
      · simp [hk]
      · simp [hk]
  have ht2 : ∀ k, 0 < k → partText k s [] = ['-'] ∨ partText k s [] = ['+'] := by
    intro k hk
    rcases lt_or_gt_of_ne h0 with h | h
    · rw [partText_neg h, hb]; simp
    · rw [partText_pos h, hb, if_pos hk]; simp
  have ht0 : partText 0 s [] = [] ∨ partText 0 s [] = ['-'] := by
    rcases lt_or_gt_of_ne h0 with h | h
    · rw [partText_neg h, hb]; simp
    · rw [partText_pos h, hb, if_neg (by omega)]; simp
  have hp := rowBody_parts hs
  cases hr : rowBody r with
  | nil =>
    left
    refine ⟨rfl, ?_⟩
    simp only [partsText, List.nil_append, List.length_nil, List.append_nil, Nat.add_zero]
    exact ht0
  | cons p ps =>
    right
    rw [hr] at hp
    generalize rowTerms r = ts at hp
    cases hp with
    | cons e1 e2 =>
      have hc := parts_coord e1 e2
      simp only [partsText, List.append_nil]
      rcases ht2 (0 + (p :: ps).length) (by simp) with e | e
      · exact ⟨_, '-', by rw [e]; rfl, Or.inr rfl, hc⟩
      · exact ⟨_, '+', by rw [e]; rfl, Or.inl rfl, hc⟩

/-- the rows after the first one -/
def moreText : List (List Rat × Rat) → List Char
  | [] => []
  | p :: ps => ',' :: writeOpRow p.1 p.2 ++ moreText ps

theorem writeRows_succ : ∀ (rows : List (List Rat)) (ss : List Rat) (i : Nat), rows.length = ss.length →
    writeRows (i + 1) rows ss = moreText (rows.zip ss)
  | [], [], _, _ => rfl
  | r :: rows, s :: ss, i, h => by
    rw [writeRows, writeRows_succ rows ss (i + 1) (by simpa using h)]
    simp [moreText]
  | [], _ :: _, _, h => by simp at h
  | _ :: _, [], _, h => by simp at h

theorem moreText_append (a b : List (List Rat × Rat)) : moreText (a ++ b) = moreText a ++ moreText b := by
  induction a with
  | nil => rfl
  | cons p a ih => simp [moreText, ih]

/-- a row all of whose coefficients are small -/
def SmallRow (p : List Rat × Rat) : Prop := (∀ x ∈ p.1, Small x) ∧ Small p.2

theorem moreText_more {ps : List (List Rat × Rat)} (h : ∀ p ∈ ps, SmallRow p ∧ |p.2| ≠ 1) :
    More (moreText ps) (ps.map (fun p => rowAll p.1 p.2)) := by
  induction ps with
  | nil => exact .nil
  | cons p ps ih =>
    obtain ⟨⟨h1, h2⟩, h3⟩ := h p (by simp)
    have := More.cons (u := []) (v := []) (by simp [Blank]) (by simp [Blank]) (good_row h1 h2 h3)
      (ih (fun q hq => h q (by simp [hq])))
    simpa [moreText] using this

/-- after a sign there is nothing or a comma -/
theorem sign_halt {c : Char} {t : List Char} (hc : c = '+' ∨ c = '-') (ht : t = [] ∨ ∃ r, t = ',' :: r) : Halt (c :: t) ∧ Close (c :: t) := by
  have hdrop : (c :: t).dropWhile isBlank = c :: t := List.dropWhile_cons_of_neg (by simp [sign_not_blank hc])
  have hdt : t.dropWhile isBlank = t := by
    rcases ht with rfl | ⟨r, rfl⟩
    · rfl
    · exact List.dropWhile_cons_of_neg (by decide)
  refine ⟨⟨?_, ?_⟩, ?_⟩
  · intro d r e
    rw [hdrop] at e
    injection e with e1
    subst e1
    rcases hc with h | h
    · exact Or.inl h
    · exact Or.inr (Or.inl h)
  · have hu : unsignedTerm t = .ok (.err .oneOf t) := by
      have hdig : NoHead (fun c => isDig c = true) t := by
        rcases ht with rfl | ⟨r, rfl⟩
        · intro d r e; cases e
        · intro d r e hd; injection e with e1; subst e1; exact absurd hd (by decide)
      have hp : ∀ {β γ : Type} (q : Parser β) (r : Parser γ), separatedPair unsignedFraction q r t = .ok (.err .digit t) := by
        intro β γ q r
        unfold separatedPair
        rw [andThen_err (fraction_err hdig)]
      unfold unsignedTerm
      rw [orElse_right (mapOpt_err (hp _ _)), orElse_right (mapOpt_err (hp _ _)), orElse_right (mapOpt_err (fraction_err hdig))]
      refine mapOpt_err (axis_err ?_)
      rcases ht with rfl | ⟨r, rfl⟩
      · intro d r e; cases e
      · intro d r e hd; injection e with e1; subst e1; exact absurd hd (by decide)
    obtain ⟨z, hz⟩ : ∃ z, sign (c :: t) = .ok (.done t z) := by
      rcases hc with rfl | rfl
      · exact ⟨1, by simp [sign, mapOpt, oneOf]⟩
      · exact ⟨-1, by simp [sign, mapOpt, oneOf]⟩
    refine ⟨.oneOf, t, ?_⟩
    unfold preceded
    rw [andThen_eq (space0_eq _), hdrop]
    refine mapOpt_err (pair_err2 hz (space0_eq t) ?_)
    rw [hdt, hu]
  · have : comma (c :: t) = .ok (.err .char (c :: t)) := by
      have := sep_err (c := ',') (s := c :: t) (by
        rw [hdrop]
        intro d r e hd
        injection e with e1
        subst e1
        rcases hc with h | h <;> rw [h] at hd <;> exact absurd hd (by decide))
      rw [hdrop] at this
      exact this
    exact close_of_comma this

theorem coordinate_nothing {t : List Char} (ht : t = [] ∨ ∃ r, t = ',' :: r) :
    coordinate t = .ok (.err .oneOf t) ∧ coordinate ('-' :: t) = .ok (.err .oneOf ('-' :: t)) := by
  have hNH : ∀ {p : Char → Prop}, ¬ p ',' → NoHead p t := by
    intro p hp
    rcases ht with rfl | ⟨r, rfl⟩
    · intro d r e; cases e
    · intro d r e; injection e with e1; subst e1; exact hp
  have hdt : t.dropWhile isBlank = t := by
    rcases ht with rfl | ⟨r, rfl⟩
    · rfl
    · exact List.dropWhile_cons_of_neg (by decide)
  have huns : ∀ s : List Char, NoHead (fun c => isDig c = true) s → NoHead (fun c => c = 'x' ∨ c = 'y' ∨ c = 'z') s →
      unsignedTerm s = .ok (.err .oneOf s) := by
    intro s hdig hax
    have hp : ∀ {β γ : Type} (q : Parser β) (r : Parser γ), separatedPair unsignedFraction q r s = .ok (.err .digit s) := by
      intro β γ q r
      unfold separatedPair
      rw [andThen_err (fraction_err hdig)]
    unfold unsignedTerm
    rw [orElse_right (mapOpt_err (hp _ _)), orElse_right (mapOpt_err (hp _ _)), orElse_right (mapOpt_err (fraction_err hdig))]
    exact mapOpt_err (axis_err hax)
  have hut := huns t (hNH (by decide)) (hNH (by decide))
  constructor
  · refine mapOpt_err ?_
    unfold pair
    rw [andThen_err (k := .oneOf) (u := t)]
    unfold term
    rw [orElse_right (signed_err (hNH (by decide)))]
    exact hut
  · refine mapOpt_err ?_
    unfold pair
    rw [andThen_err (k := .oneOf) (u := '-' :: t)]
    unfold term
    have hz : sign ('-' :: t) = .ok (.done t (-1)) := by simp [sign, mapOpt, oneOf]
    have hs : signedTerm ('-' :: t) = .ok (.err .oneOf t) :=
      mapOpt_err (pair_err2 hz (space0_eq t) (by rw [hdt]; exact hut))
    rw [orElse_right hs]
    refine huns _ ?_ ?_
    · intro d r e hd; injection e with e1; subst e1; exact absurd hd (by decide)
    · intro d r e hd; injection e with e1; subst e1; exact absurd hd (by decide)

theorem moreText_head (ps : List (List Rat × Rat)) : moreText ps = [] ∨ ∃ r, moreText ps = ',' :: r := by
  cases ps with
  | nil => exact Or.inl rfl
  | cons p ps => exact Or.inr ⟨_, rfl⟩

theorem comma_halt (t : List Char) : Halt (',' :: t) := by
  refine EndC.halt ?_
  intro c r e
  rw [List.dropWhile_cons_of_neg (by decide)] at e
  injection e with e1
  exact e1.symm

theorem bad_close {t : List Char} {k : Kind} {u : List Char} (hb : NoHead (fun c => isBlank c = true) t)
    (h : coordinate t = .ok (.err k u)) : Close (',' :: t) := by
  intro fuel acc
  have hc : comma (',' :: t) = .ok (.done t ()) := sep_text (u := []) (v := []) (by decide) (by simp [Blank]) (by simp [Blank]) hb
  unfold sepLoop
  rw [hc]
  simp only [Outcome.ok_bind]
  rw [if_neg (by simp), h]
  simp

/-! ### Whole operators -/

theorem isVec_data {n : Nat} {v : Vec Rat} {x : Fin n → Rat} (h : IsVec v x) : v.coords.data = List.ofFn x := by
  have hr := h.rows
  have hc := h.cols
  have hs := h.size
  apply List.ext_getElem
  · rw [hs]; simp
  · intro i h1 h2
    have hi : i < n := by simpa using h2
    have := h.entry ⟨i, hi⟩ 0
    unfold Mat.get at this
    simp [hr, hc, hi] at this
    rw [if_pos h1, vecGet_eq_ok, List.getElem?_eq_getElem h1] at this
    simpa using this

theorem affFromString_data {t : List Char} {m : AffineMap Rat} (h : affFromString t = .ok (some m)) :
    ∃ rest A b, parseOperator t = .ok (.parsed rest A b) ∧ m.shift.coords.data = b := by
  unfold affFromString at h
  cases hp : parseOperator t with
  | ok r =>
    rw [hp] at h
    cases r with
    | parsed rest A b =>
      simp only [Outcome.ok_bind] at h
      split_ifs at h with hl
      swap
      · obtain ⟨rows, -, h⟩ := Outcome.bind_eq_ok.1 h
        obtain ⟨a, -, h⟩ := Outcome.bind_eq_ok.1 h
        obtain ⟨v, h1, h⟩ := Outcome.bind_eq_ok.1 h
        obtain ⟨m', h2, h⟩ := Outcome.bind_eq_ok.1 h
        have h := Option.some.inj (Outcome.ok.inj h)
        subst h
        refine ⟨rest, A, b, rfl, ?_⟩
        unfold AffineMap.new at h2
        obtain ⟨_, -, h2⟩ := Outcome.bind_eq_ok.1 h2
        obtain ⟨_, -, h2⟩ := Outcome.bind_eq_ok.1 h2
        have h2 := Outcome.ok.inj h2
        subst h2
        obtain ⟨x, hx⟩ : ∃ x : Fin b.length → Rat, b = List.ofFn x := ⟨b.get, (List.ofFn_get b).symm⟩
        obtain ⟨v', e1, e2⟩ := vec_new hx
        rw [h1] at e1
        have e1 := Outcome.ok.inj e1
        subst e1
        show v.coords.data = b
        rw [hx]
        exact isVec_data e2
      · cases Outcome.ok.inj h
    | error k u => cases Outcome.ok.inj h
  | panic => rw [hp] at h; cases h
  | diverge => rw [hp] at h; cases h

/-- the text of the rows -/
def fullText : List (List Rat × Rat) → List Char
  | [] => []
  | p :: ps => writeOpRow p.1 p.2 ++ moreText ps

theorem writeRows_full {rows : List (List Rat)} {ss : List Rat} (h : rows.length = ss.length) :
    writeRows 0 rows ss = fullText (rows.zip ss) := by
  match rows, ss with
  | [], [] => rfl
  | r :: rows, s :: ss =>
    rw [writeRows, writeRows_succ rows ss 0 (by simpa using h)]
    simp [fullText]
  | [], _ :: _ => simp at h
  | _ :: _, [] => simp at h

theorem good_full {n : Nat} (hn : n ≤ 3) {ps : List (List Rat × Rat)} (hne : ps ≠ []) (hl : ps.length = n)
    (hw : ∀ p ∈ ps, p.1.length = n) (h : ∀ p ∈ ps, SmallRow p ∧ |p.2| ≠ 1) :
    parseOperator (fullText ps) = .ok (.parsed [] (ps.map Prod.fst) (ps.map Prod.snd)) := by
  cases ps with
  | nil => exact absurd rfl hne
  | cons p ps =>
    obtain ⟨⟨h1, h2⟩, h3⟩ := h p (by simp)
    have hb : Blank [] := by simp [Blank]
    have := parseOperator_prefix hb (good_row h1 h2 h3)
      (moreText_more (ps := ps) (fun q hq => h q (by simp [hq]))) (by
        intro l hl
        rcases List.mem_cons.1 hl with rfl | hl
        · exact rowAll_once _ _
        · obtain ⟨q, -, rfl⟩ := List.mem_map.1 hl
          exact rowAll_once _ _) (blank_endC hb).halt (blank_close hb)
    rw [List.nil_append, List.append_nil] at this
    unfold fullText
    rw [this]
    have hlen : (ps.map (fun p => rowAll p.1 p.2)).length + 1 = n := by rw [← hl]; simp
    rw [hlen]
    have e : rowAll p.1 p.2 :: ps.map (fun p => rowAll p.1 p.2) = (p :: ps).map (fun p => rowAll p.1 p.2) := rfl
    rw [e, List.map_map, List.map_map]
    congr 2
    · apply List.map_congr_left
      intro q hq
      exact (rowAll_row hn (hw q hq) q.2).1
    · apply List.map_congr_left
      intro q hq
      exact (rowAll_row hn (hw q hq) q.2).2

theorem first_bad {P : List Rat × Rat → Prop} : ∀ {ps : List (List Rat × Rat)}, (∃ p ∈ ps, ¬ P p) →
    ∃ a q b, ps = a ++ q :: b ∧ (∀ p ∈ a, P p) ∧ ¬ P q
  | [], h => by simp at h
  | p :: ps, h => by
    by_cases hp : P p
    · have : ∃ p ∈ ps, ¬ P p := by
        obtain ⟨q, hq, hn⟩ := h
        rcases List.mem_cons.1 hq with rfl | hq
        · exact absurd hp hn
        · exact ⟨q, hq, hn⟩
      obtain ⟨a, q, b, e, h1, h2⟩ := first_bad this
      refine ⟨p :: a, q, b, by rw [e]; rfl, ?_, h2⟩
      intro r hr
      rcases List.mem_cons.1 hr with rfl | hr
      · exact hp
      · exact h1 r hr
    · exact ⟨[], p, ps, rfl, by simp, hp⟩

theorem more_append {a b : List Char} {ls ls' : List (List (ℚ × Option (Fin 3)))} (h : More a ls) (h' : More b ls') :
    More (a ++ b) (ls ++ ls') := by
  induction h with
  | nil => exact h'
  | @cons u v s t l ls hu hv hc hm ih =>
    have := More.cons hu hv hc ih
    simpa using this

theorem rowTerms_const (r : List Rat) : coefficient (rowTerms r) none = 0 := by
  rw [rowTerms_eq, coefficient_filter]
  match r with
  | [] => simp [coefficient]
  | [a] => simp [coefficient]
  | [a, b] => simp [coefficient]
  | a :: b :: c :: r => simp [coefficient]

theorem parse_err {t : List Char} {k : Kind} {u : List Char} (hb : NoHead (fun c => isBlank c = true) t)
    (h : coordinate t = .ok (.err k u)) : parseOperator t = .ok (.error k u) := by
  have h1 : space0 t = .ok (.done t ()) := space0_append (u := []) (by simp [Blank]) hb
  have h2 : operator t = .ok (.err k u) := by
    unfold operator separatedList1
    rw [h]
    rfl
  unfold parseOperator delimited
  rw [andThen_eq h1, andThen_err h2]
  rfl

theorem bad_full {ps : List (List Rat × Rat)} (hs : ∀ p ∈ ps, SmallRow p) (hb : ∃ p ∈ ps, |p.2| = 1) {rest : List Char}
    {A : List (List Rat)} {b : List Rat} (h : parseOperator (fullText ps) = .ok (.parsed rest A b)) : b ≠ ps.map Prod.snd := by
  obtain ⟨P, q, Q, e, hP, hq⟩ := first_bad (P := fun p => |p.2| ≠ 1) (ps := ps) (by
    obtain ⟨p, hp, h1⟩ := hb; exact ⟨p, hp, by simpa using h1⟩)
  have hq : |q.2| = 1 := by simpa using hq
  have hq0 : q.2 ≠ 0 := by intro h0; rw [h0] at hq; simp at hq
  have hqs : SmallRow q := hs q (by rw [e]; simp)
  have hPs : ∀ p ∈ P, SmallRow p ∧ |p.2| ≠ 1 := fun p hp => ⟨hs p (by rw [e]; simp [hp]), hP p hp⟩
  have hbl : Blank [] := by simp [Blank]
  -- what the last part of the text looks like
  have hnothing : ∀ w : List Char, (w = [] ∨ w = ['-']) →
      (∃ k u, coordinate (w ++ moreText Q) = .ok (.err k u)) ∧ NoHead (fun c => isBlank c = true) (w ++ moreText Q) := by
    intro w hw
    have hm := moreText_head Q
    obtain ⟨c1, c2⟩ := coordinate_nothing hm
    rcases hw with rfl | rfl
    · refine ⟨⟨_, _, c1⟩, ?_⟩
      intro c r e hc
      rw [List.nil_append] at e
      rcases hm with h0 | ⟨r', h0⟩
      · rw [h0] at e; cases e
      · rw [h0] at e; injection e with e1; subst e1; exact absurd hc (by decide)
    · refine ⟨⟨_, _, c2⟩, ?_⟩
      intro c r e hc
      injection e with e1; subst e1; exact absurd hc (by decide)
  cases P with
  | nil =>
    rw [e, List.nil_append] at h ⊢
    change parseOperator (writeOpRow q.1 q.2 ++ moreText Q) = _ at h
    rcases bad_row hqs.1 hq with ⟨-, hw⟩ | ⟨g, c, e1, hc, hg⟩
    · obtain ⟨⟨k, u, h1⟩, h2⟩ := hnothing _ hw
      rw [parse_err h2 h1] at h
      cases Outcome.ok.inj h
    · obtain ⟨h1, h2⟩ := sign_halt hc (moreText_head Q)
      have h3 := parseOperator_prefix hbl hg .nil (by
        intro l hl
        rw [List.mem_singleton] at hl
        rw [hl]; exact rowTerms_once _) h1 h2
      have e2 : writeOpRow q.1 q.2 ++ moreText Q = [] ++ (g ++ ([] ++ c :: moreText Q)) := by rw [e1]; simp
      rw [e2, h3] at h
      have h := Outcome.ok.inj h
      injection h with _ _ h
      intro hbe
      rw [hbe, List.map_cons, List.map_nil, rowTerms_const, List.map_cons] at h
      injection h with h _
      exact hq0 h.symm
  | cons p P =>
    rw [e, List.cons_append] at h ⊢
    change parseOperator (writeOpRow p.1 p.2 ++ moreText (P ++ q :: Q)) = _ at h
    rw [moreText_append] at h
    have hgood := good_row (hPs p (by simp)).1.1 (hPs p (by simp)).1.2 (hPs p (by simp)).2
    have hmore := moreText_more (ps := P) (fun r hr => hPs r (by simp [hr]))
    have honce : ∀ l ∈ rowAll p.1 p.2 :: P.map (fun p => rowAll p.1 p.2), Once l := by
      intro l hl
      rcases List.mem_cons.1 hl with rfl | hl
      · exact rowAll_once _ _
      · obtain ⟨q, -, rfl⟩ := List.mem_map.1 hl
        exact rowAll_once _ _
    rcases bad_row hqs.1 hq with ⟨-, hw⟩ | ⟨g, c, e1, hc, hg⟩
    · obtain ⟨⟨k, u, h1⟩, h2⟩ := hnothing _ hw
      have h3 := parseOperator_prefix hbl hgood hmore honce (comma_halt _) (bad_close h2 h1)
      have e2 : writeOpRow p.1 p.2 ++ (moreText P ++ moreText (q :: Q)) =
          [] ++ (writeOpRow p.1 p.2 ++ (moreText P ++ ',' :: (writeOpRow q.1 q.2 ++ moreText Q))) := by simp [moreText]
      rw [e2, h3] at h
      have h := Outcome.ok.inj h
      injection h with _ _ h
      intro hbe
      have := congrArg List.length (h.trans hbe)
      simp at this
    · obtain ⟨h1, h2⟩ := sign_halt hc (moreText_head Q)
      have hm2 : More (moreText P ++ ',' :: g) (P.map (fun p => rowAll p.1 p.2) ++ [rowTerms q.1]) := by
        refine more_append hmore ?_
        have := More.cons hbl hbl hg .nil
        simpa using this
      have h3 := parseOperator_prefix hbl hgood hm2 (by
        intro l hl
        rw [← List.cons_append] at hl
        rcases List.mem_append.1 hl with hl | hl
        · exact honce l hl
        · rw [List.mem_singleton] at hl
          rw [hl]; exact rowTerms_once _) h1 h2
      have e2 : writeOpRow p.1 p.2 ++ (moreText P ++ moreText (q :: Q)) =
          [] ++ (writeOpRow p.1 p.2 ++ ((moreText P ++ ',' :: g) ++ c :: moreText Q)) := by simp [moreText, e1]
      rw [e2, h3] at h
      have h := Outcome.ok.inj h
      injection h with _ _ h
      intro hbe
      have h4 := h.trans hbe
      rw [← List.cons_append, List.map_append, ← List.cons_append, List.map_append] at h4
      have h5 := (List.append_inj h4 (by simp)).2
      rw [List.map_cons, List.map_nil, rowTerms_const, List.map_cons] at h5
      injection h5 with h5 _
      exact hq0 h5.symm

theorem rowL_ofFn {n : Nat} {m : Mat Rat} {M : Matrix (Fin n) (Fin n) Rat} (h : Rep m M) (i : Fin n) : m.getRow i = .ok (List.ofFn (M i)) := by
  rw [Mat.getRow_eq h.wf (by rw [h.rows]; exact i.2)]
  congr 1
  unfold Mat.rowL
  rw [h.cols]
  apply List.ext_getElem
  · simp
  · intro j h1 h2
    have hj : j < n := by simpa using h2
    simp only [List.getElem_map, List.getElem_range, List.getElem_ofFn]
    exact h.ent i ⟨j, hj⟩

theorem writeOp_eq {n : Nat} {m : AffineMap Rat} {A : Matrix (Fin n) (Fin n) Rat} {s : Fin n → Rat} (h : IsAff m A s) :
    writeOp m = .ok (fullText ((List.ofFn (fun i => List.ofFn (A i))).zip (List.ofFn s))) := by
  have hd : m.dim = n := h.2.dim_eq
  have h1 : omap m.linear.getRow (List.range n) = .ok (List.ofFn (fun i => List.ofFn (A i))) :=
    Modular.omap_range (fun i => rowL_ofFn h.1 i)
  have h2 : omap (fun i => vecGet m.shift.coords.data i) (List.range n) = .ok (List.ofFn s) := by
    refine Modular.omap_range (fun i => ?_)
    rw [vecGet_eq_ok, isVec_data h.2]
    simp
  unfold writeOp
  rw [hd, bind_ok h1, bind_ok h2, writeRows_full (by simp)]

theorem round_good {n : Nat} {m : AffineMap Rat} {A : Matrix (Fin n) (Fin n) Rat} {s : Fin n → Rat} (h : IsAff m A s)
    (hn : 0 < n) {t rest : List Char} (ht : parseOperator t = .ok (.parsed rest (List.ofFn (fun i => List.ofFn (A i))) (List.ofFn s))) :
    affFromString t = .ok (some m) := by
  unfold affFromString
  rw [bind_ok ht]
  obtain ⟨v, h1, h2⟩ := vec_new (l := List.ofFn s) rfl
  have hv : v = m.shift := h2.unique h.2
  subst hv
  have h3 := rows_vstack m.linear h.1.wf (by rw [h.1.rows]; exact hn)
  have hg : m.linear.getRows = .ok (List.ofFn (fun i => List.ofFn (A i))) := by
    unfold Mat.getRows
    rw [h.1.rows]
    exact Modular.omap_range (fun i => rowL_ofFn h.1 i)
  rw [bind_ok hg] at h3
  obtain ⟨parts, h4, h5⟩ := Outcome.bind_eq_ok.1 h3
  obtain ⟨h6, -⟩ := aff_new h.1 h.2
  simp only [List.length_ofFn, ne_eq, not_true_eq_false, if_false]
  rw [bind_ok h4, bind_ok h5, bind_ok h1, bind_ok h6]

theorem round_trip {n : Nat} (hn : 0 < n) (hn3 : n ≤ 3) {m : AffineMap Rat} {A : Matrix (Fin n) (Fin n) Rat} {s : Fin n → Rat}
    (h : IsAff m A s) (hA : ∀ i j, Small (A i j)) (hs : ∀ i, Small (s i)) :
    ∃ t, writeOp m = .ok t ∧ (affFromString t = .ok (some m) ↔ ∀ i, |s i| ≠ 1) := by
  refine ⟨_, writeOp_eq h, ?_⟩
  set ps := (List.ofFn (fun i => List.ofFn (A i))).zip (List.ofFn s) with hps
  have hfst : ps.map Prod.fst = List.ofFn (fun i => List.ofFn (A i)) := by rw [hps, List.map_fst_zip (by simp)]
  have hsnd : ps.map Prod.snd = List.ofFn s := by rw [hps, List.map_snd_zip (by simp)]
  have hlen : ps.length = n := by simp [hps]
  have hmem : ∀ p ∈ ps, (∃ i, p.1 = List.ofFn (A i)) ∧ ∃ i, p.2 = s i := by
    intro p hp
    have h1 := List.mem_map_of_mem (f := Prod.fst) hp
    have h2 := List.mem_map_of_mem (f := Prod.snd) hp
    rw [hfst, List.mem_ofFn] at h1
    rw [hsnd, List.mem_ofFn] at h2
    obtain ⟨i, h1⟩ := h1
    obtain ⟨j, h2⟩ := h2
    exact ⟨⟨i, h1.symm⟩, j, h2.symm⟩
  have hsmall : ∀ p ∈ ps, SmallRow p := by
    intro p hp
    obtain ⟨⟨i, h1⟩, j, h2⟩ := hmem p hp
    refine ⟨?_, h2 ▸ hs j⟩
    intro x hx
    rw [h1, List.mem_ofFn] at hx
    obtain ⟨k, rfl⟩ := hx
    exact hA i k
  constructor
  · intro hr i hi
    obtain ⟨rest, A', b, h1, h2⟩ := affFromString_data hr
    rw [isVec_data h.2] at h2
    refine bad_full hsmall ?_ h1 (by rw [hsnd, h2])
    have : s i ∈ ps.map Prod.snd := by rw [hsnd, List.mem_ofFn]; exact ⟨i, rfl⟩
    obtain ⟨p, hp, e⟩ := List.mem_map.1 this
    exact ⟨p, hp, by rw [e]; exact hi⟩
  · intro hg
    refine round_good (rest := []) h hn ?_
    rw [good_full hn3 (by intro e; rw [e] at hlen; simp at hlen; omega) hlen ?_ ?_, hfst, hsnd]
    · intro p hp
      obtain ⟨⟨i, h1⟩, -⟩ := hmem p hp
      rw [h1]; simp
    · intro p hp
      refine ⟨hsmall p hp, ?_⟩
      obtain ⟨-, j, h2⟩ := hmem p hp
      rw [h2]; exact hg j

end Systre.ParseOperator
