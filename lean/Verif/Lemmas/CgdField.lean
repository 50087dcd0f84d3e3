import Verif.Lemmas.CgdLine
import Mathlib.Tactic.FieldSimp

/-! # The fields of a line of a CGD file -/

namespace Systre.Cgd
open Nom OpText CgdText
open ParseOperator (NoHead isDig_iff isBlank_iff takeWhile_text char_done char_text char_err space0_done space0_append
  space0_eq separatedPair_done)

variable {D : Type} {F : Floats D}

theorem unsignedInteger_eq : unsignedInteger = ParseOperator.integer := rfl

/-! ### The characters of numbers -/

/-- the characters of numbers -/
def numChars : List Char := ['0', '1', '2', '3', '4', '5', '6', '7', '8', '9', '.', '+', '-', 'e', 'E', 'n', 'N', 'a', 'A', 'i', 'I',
  'f', 'F']

theorem digit_numChar {c : Char} (h : '0' ≤ c ∧ c ≤ '9') : c ∈ numChars := by
  have h1 : 48 ≤ c.toNat := h.1
  have h2 : c.toNat ≤ 57 := h.2
  have e : c = Char.ofNat c.toNat := (Char.ofNat_toNat c).symm
  generalize c.toNat = n at *
  subst e
  clear h
  interval_cases n <;> decide

theorem sign_numChar {g : List Char} (h : Sign g) : ∀ c ∈ g, c ∈ numChars := by
  rcases h with rfl | rfl | rfl <;> decide

theorem mantissa_numChar {m : List Char} (h : Mantissa m) : ∀ c ∈ m, c ∈ numChars := by
  have hdot : '.' ∈ numChars := by decide
  cases h with
  | int ha => exact fun c hc => digit_numChar (ha.2 c hc)
  | point ha =>
    intro c hc
    rcases List.mem_append.1 hc with hc | hc
    · exact digit_numChar (ha.2 c hc)
    · rw [List.mem_singleton] at hc; exact hc ▸ hdot
  | decimal ha hb =>
    intro c hc
    rcases List.mem_append.1 hc with hc | hc
    · exact digit_numChar (ha.2 c hc)
    · rcases List.mem_cons.1 hc with hc | hc
      · exact hc ▸ hdot
      · exact digit_numChar (hb.2 c hc)
  | fraction hb =>
    intro c hc
    rcases List.mem_cons.1 hc with hc | hc
    · exact hc ▸ hdot
    · exact digit_numChar (hb.2 c hc)

theorem number_numChar {w : List Char} (h : Number w) : ∀ c ∈ w, c ∈ numChars := by
  cases h with
  | @float g m x hg hm hx =>
    intro c hc
    rcases List.mem_append.1 hc with hc | hc
    · rcases List.mem_append.1 hc with hc | hc
      · exact sign_numChar hg c hc
      · exact mantissa_numChar hm c hc
    · cases hx with
      | none => cases hc
      | some he hg' ha =>
        rcases List.mem_append.1 hc with hc | hc
        · rcases List.mem_cons.1 hc with hc | hc
          · subst hc; rcases he with rfl | rfl <;> decide
          · exact sign_numChar hg' c hc
        · exact digit_numChar (ha.2 c hc)
  | nan ha hb hc =>
    intro d hd
    simp only [List.mem_cons, List.not_mem_nil, or_false] at hd
    rcases hd with rfl | rfl | rfl
    · rcases ha with rfl | rfl <;> decide
    · rcases hb with rfl | rfl <;> decide
    · rcases hc with rfl | rfl <;> decide
  | inf ha hb hc =>
    intro d hd
    simp only [List.mem_cons, List.not_mem_nil, or_false] at hd
    rcases hd with rfl | rfl | rfl
    · rcases ha with rfl | rfl <;> decide
    · rcases hb with rfl | rfl <;> decide
    · rcases hc with rfl | rfl <;> decide

theorem mantissa_ne {m : List Char} (h : Mantissa m) : m ≠ [] := by
  cases h with
  | int ha => exact ha.1
  | point ha => simp
  | decimal ha hb => simp
  | fraction hb => simp

theorem number_ne {w : List Char} (h : Number w) : w ≠ [] := by
  cases h with
  | float hg hm hx => have := mantissa_ne hm; simp [this]
  | nan => simp
  | inf => simp

theorem bad_number {s : List Char} (h : BadExponent s) : ∃ p, p <+: s ∧ Number p := by
  obtain ⟨g, m, c, h', t, rfl, hg, hm, -⟩ := h
  exact ⟨g ++ m, ⟨c :: h' ++ t, by simp⟩, by simpa using Number.float hg hm .none⟩

/-- the end, a blank or a comment -/
def FieldEnd (t : List Char) : Prop := ∀ c r, t = c :: r → isBlank c = true ∨ c = '#'

theorem FieldEnd.not {t : List Char} (h : FieldEnd t) {p : Char → Prop} (h1 : ¬ p ' ') (h2 : ¬ p '\t') (h3 : ¬ p '#') : NoHead p t := by
  intro c r e hc
  rcases h c r e with hb | rfl
  · rcases isBlank_iff.1 hb with rfl | rfl
    · exact h1 hc
    · exact h2 hc
  · exact h3 hc

theorem FieldEnd.numEnd {t : List Char} (h : FieldEnd t) : NumEnd t :=
  ⟨h.not (by decide) (by decide) (by decide), h.not (by decide) (by decide) (by decide), h.not (by decide) (by decide) (by decide)⟩

theorem prefix_word {p w t : List Char} (hp : ∀ c ∈ p, c ∈ numChars) (ht : FieldEnd t) (h : p <+: w ++ t) : p <+: w := by
  obtain ⟨u, e⟩ := h
  rcases List.append_eq_append_iff.1 e with ⟨c, rfl, -⟩ | ⟨c, rfl, e2⟩
  · exact ⟨c, rfl⟩
  · cases c with
    | nil => rw [List.append_nil]
    | cons d c =>
      exfalso
      have hd := hp d (by simp)
      rcases ht d (c ++ u) e2 with hb | rfl
      · rcases isBlank_iff.1 hb with rfl | rfl <;> exact absurd hd (by decide)
      · exact absurd hd (by decide)

/-! ### Integers and fractions -/

theorem integer_done' {s t : List Char} {z : Int} (h : integer s = .ok (.done t z)) :
    ((∃ a n, s = a ++ t ∧ Numeral a n ∧ z = (n : Int)) ∨ (∃ a n, s = '-' :: a ++ t ∧ Numeral a n ∧ z = -(n : Int))) ∧ NoDig t := by
  rcases orElse_done.1 h with h | ⟨-, -, -, h⟩
  · obtain ⟨n, h1, h2⟩ := mapOpt_done.1 h
    obtain ⟨a, e, ha, hd⟩ := ParseOperator.integer_done h1
    exact ⟨Or.inl ⟨a, n, e, ha, (Option.some.inj (Outcome.ok.inj h2)).symm⟩, fun c r e => hd c r e⟩
  · obtain ⟨n, h1, h2⟩ := mapOpt_done.1 h
    obtain ⟨u, c, h3, h4⟩ := andThen_done.1 h1
    have := char_done h3
    subst this
    obtain ⟨a, e, ha, hd⟩ := ParseOperator.integer_done h4
    exact ⟨Or.inr ⟨a, n, by rw [e]; rfl, ha, (Option.some.inj (Outcome.ok.inj h2)).symm⟩, fun c r e => hd c r e⟩

theorem numeral_digits {a : List Char} {n : Nat} (h : Numeral a n) : Digits a := ⟨h.1, h.2.2.1⟩

theorem integer_number {s t : List Char} {z : Int} (h : integer s = .ok (.done t z)) : ∃ a, s = a ++ t ∧ Number a := by
  obtain ⟨⟨a, n, e, ha, -⟩ | ⟨a, n, e, ha, -⟩, -⟩ := integer_done' h
  · exact ⟨a, e, by simpa using Number.float (Or.inl rfl) (.int (numeral_digits ha)) .none⟩
  · exact ⟨'-' :: a, e, by simpa using Number.float (Or.inr (Or.inr rfl)) (.int (numeral_digits ha)) .none⟩

theorem unsigned_total (s : List Char) : (∃ t n, unsignedInteger s = .ok (.done t n)) ∨ ∃ k u, unsignedInteger s = .ok (.err k u) := by
  rcases digit1_total s with ⟨ds, t, -, -, -, h⟩ | ⟨-, h⟩
  · cases hm : ParseOperator.mapInteger ds with
    | none => exact Or.inr ⟨_, _, mapOpt_none h (by rw [hm])⟩
    | some n => exact Or.inl ⟨t, n, mapOpt_eq h (by rw [hm])⟩
  · exact Or.inr ⟨_, _, mapOpt_err h⟩

theorem integer_total (s : List Char) : (∃ t z, integer s = .ok (.done t z)) ∨ ∃ k u, integer s = .ok (.err k u) := by
  unfold integer
  rcases unsigned_total s with ⟨t, n, h⟩ | ⟨k, u, h⟩
  · exact Or.inl ⟨t, n, orElse_left (mapOpt_eq h rfl)⟩
  · rw [orElse_right (mapOpt_err h)]
    by_cases h2 : NoHead (fun c => c = '-') s
    · exact Or.inr ⟨_, _, mapOpt_err (andThen_err (char_err h2))⟩
    · unfold NoHead at h2
      push Not at h2
      obtain ⟨c, r, rfl, rfl⟩ := h2
      rcases unsigned_total r with ⟨t, n, h3⟩ | ⟨k, u, h3⟩
      · refine Or.inl ⟨t, -(n : Int), mapOpt_eq (a := n) ?_ rfl⟩
        unfold preceded
        rw [andThen_eq (char_text _ _)]
        exact h3
      · refine Or.inr ⟨k, u, mapOpt_err ?_⟩
        unfold preceded
        rw [andThen_eq (char_text _ _)]
        exact h3

/-- no number at the beginning: no fraction and no floating point number -/
theorem noNumber_err {s : List Char} (h : ∀ p, p <+: s → ¬ Number p) :
    (∃ k u, floatText s = .ok (.err k u)) ∧ ∃ k u, fraction s = .ok (.err k u) := by
  constructor
  · rcases floatText_total s with ⟨w, t, e, hw, -⟩ | ⟨hb, -⟩ | ⟨u, hu⟩
    · exact absurd hw (h w ⟨t, e.symm⟩)
    · obtain ⟨p, hp, hn⟩ := bad_number hb
      exact absurd hn (h p hp)
    · exact ⟨_, _, hu⟩
  · rcases integer_total s with ⟨t, z, hz⟩ | ⟨k, u, hz⟩
    · obtain ⟨a, e, ha⟩ := integer_number hz
      exact absurd ha (h a ⟨t, e.symm⟩)
    · exact ⟨k, u, mapOpt_err (andThen_err hz)⟩

theorem fraction_err_of_slash {w t : List Char} (hw : ∀ c ∈ w, c ∈ numChars) (ht : FieldEnd t) :
    ∃ k u, fraction (w ++ t) = .ok (.err k u) := by
  rcases integer_total (w ++ t) with ⟨u, z, hz⟩ | ⟨k, u, hz⟩
  · obtain ⟨a, e, ha⟩ := integer_number hz
    have hp : a <+: w := prefix_word (number_numChar ha) ht ⟨u, e.symm⟩
    obtain ⟨v, rfl⟩ := hp
    have hu : u = v ++ t := by rw [List.append_assoc] at e; exact (List.append_cancel_left e).symm
    have hs : NoHead (fun c => c = '/') u := by
      rw [hu]
      cases v with
      | nil => exact ht.not (by decide) (by decide) (by decide)
      | cons d v =>
        intro c r e hc
        injection e with e1
        subst e1
        subst hc
        exact absurd (hw '/' (by simp)) (by decide)
    refine ⟨.char, u, mapOpt_err ?_⟩
    unfold separatedPair
    rw [andThen_eq hz, andThen_err (char_err hs)]
  · exact ⟨k, u, mapOpt_err (andThen_err hz)⟩

theorem fraction_done {s t : List Char} {q : Rat} (h : fraction s = .ok (.done t q)) :
    ∃ w, s = w ++ t ∧ IsField F w (.fraction q) := by
  obtain ⟨⟨z, d⟩, h1, h2⟩ := mapOpt_done.1 h
  obtain ⟨u, z', hz, h3⟩ := andThen_done.1 h1
  obtain ⟨v, c, hc, h4⟩ := andThen_done.1 h3
  obtain ⟨x, d', hd, h5⟩ := andThen_done.1 h4
  have h5 := Outcome.ok.inj h5
  injection h5 with e1 e2
  cases e2
  subst e1
  have := char_done hc
  subst this
  obtain ⟨b, rfl, hb, -⟩ := ParseOperator.integer_done hd
  dsimp only at h2
  unfold ParseOperator.ratioNew at h2
  by_cases hz0 : ((d : ℕ) : ℤ) = 0
  · rw [if_pos hz0] at h2; cases h2
  · rw [if_neg hz0] at h2
    have h2 := Option.some.inj (Outcome.ok.inj h2)
    have hd0 : d ≠ 0 := by intro e; rw [e] at hz0; exact hz0 rfl
    obtain ⟨⟨a, n, rfl, ha, rfl⟩ | ⟨a, n, rfl, ha, rfl⟩, -⟩ := integer_done' hz
    · refine ⟨a ++ '/' :: b, by simp, ?_⟩
      rw [← h2]
      have := IsField.fraction (F := F) ha hb hd0
      push_cast
      exact this
    · refine ⟨'-' :: a ++ '/' :: b, by simp, ?_⟩
      rw [← h2]
      have := IsField.negative (F := F) ha hb hd0
      push_cast
      exact this

theorem fraction_no_fail {s t : List Char} {k : Kind} : fraction s ≠ .ok (.fail k t) := by
  intro h
  unfold fraction mapOpt separatedPair at h
  rcases integer_total s with ⟨u, z, hz⟩ | ⟨k', u, hz⟩
  · rw [andThen_eq hz] at h
    by_cases hs : NoHead (fun c => c = '/') u
    · rw [andThen_err (char_err hs)] at h
      cases Outcome.ok.inj h
    · unfold NoHead at hs
      push Not at hs
      obtain ⟨c, r, rfl, rfl⟩ := hs
      rw [andThen_eq (char_text _ _)] at h
      rcases unsigned_total r with ⟨v, d, hd⟩ | ⟨k', v, hd⟩
      · rw [andThen_eq hd] at h
        simp only [ret] at h
        obtain ⟨o, h1, h⟩ := Outcome.bind_eq_ok.1 h
        have h1 := Outcome.ok.inj h1
        subst h1
        obtain ⟨o, h1, h⟩ := Outcome.bind_eq_ok.1 h
        cases o with
        | none => cases Outcome.ok.inj h
        | some b => cases Outcome.ok.inj h
      · rw [andThen_err hd] at h
        cases Outcome.ok.inj h
  · rw [andThen_err hz] at h
    cases Outcome.ok.inj h

theorem numeral_noDig_slash (t : List Char) : NoDig ('/' :: t) := by
  intro c r e hc
  injection e with e1
  subst e1
  exact absurd hc (by decide)

theorem fraction_text {a b t : List Char} {n d : Nat} (ha : Numeral a n) (hb : Numeral b d) (hd : d ≠ 0) (ht : NoDig t) :
    fraction (a ++ '/' :: b ++ t) = .ok (.done t ((n : ℚ) / d)) ∧
    fraction ('-' :: a ++ '/' :: b ++ t) = .ok (.done t (-(n : ℚ) / d)) := by
  have hz0 : ¬ ((d : ℕ) : ℤ) = 0 := by exact_mod_cast hd
  have key : ∀ s z, integer s = .ok (.done ('/' :: (b ++ t)) z) → fraction s = .ok (.done t ((z : ℚ) / d)) := by
    intro s z hz
    refine mapOpt_eq (a := (z, d)) ?_ ?_
    · unfold separatedPair
      rw [andThen_eq hz, andThen_eq (char_text _ _)]
      have : unsignedInteger (b ++ t) = .ok (.done t d) := ParseOperator.integer_text hb ht
      rw [andThen_eq this]
      rfl
    · unfold ParseOperator.ratioNew
      dsimp only
      rw [if_neg hz0]
      simp
  have h1 : unsignedInteger (a ++ '/' :: (b ++ t)) = .ok (.done ('/' :: (b ++ t)) n) :=
    ParseOperator.integer_text ha (numeral_noDig_slash _)
  constructor
  · have e : a ++ '/' :: b ++ t = a ++ '/' :: (b ++ t) := by simp
    rw [e]
    have := key (a ++ '/' :: (b ++ t)) (n : ℤ) (orElse_left (mapOpt_eq h1 rfl))
    rw [this]
    simp
  · have e : '-' :: a ++ '/' :: b ++ t = '-' :: (a ++ '/' :: (b ++ t)) := by simp
    rw [e]
    have := key ('-' :: (a ++ '/' :: (b ++ t))) (-(n : ℤ)) ?_
    · rw [this]; simp
    · have h2 : unsignedInteger ('-' :: (a ++ '/' :: (b ++ t))) = .ok (.err .digit ('-' :: (a ++ '/' :: (b ++ t)))) := by
        refine ParseOperator.integer_err ?_
        intro c r e hc
        injection e with e1
        subst e1
        exact absurd hc (by decide)
      unfold integer
      rw [orElse_right (mapOpt_err h2)]
      refine mapOpt_eq (a := n) ?_ rfl
      unfold preceded
      rw [andThen_eq (char_text _ _)]
      exact h1

/-! ### Names -/

theorem special_stops {c : Char} (h : Special c) : stopsName c = true := by
  rcases h with rfl | rfl | rfl | rfl <;> decide

theorem narrow_not_stops {c : Char} (h : ¬ Special c) (hn : Narrow c) : stopsName c = false := by
  unfold stopsName isSpaceU8
  have h1 : c ≠ '"' := fun e => h (Or.inr (Or.inr (Or.inr e)))
  have h2 : c ≠ '#' := fun e => h (Or.inr (Or.inr (Or.inl e)))
  simp [h1, h2, hn.1, hn.2]

theorem name_done {s t w : List Char} (h : name s = .ok (.done t w)) : s = w ++ t ∧ Name w ∧ (∀ c ∈ w, stopsName c = false) := by
  unfold name takeTill1 at h
  cases s with
  | nil => cases Outcome.ok.inj h
  | cons c s =>
    dsimp only at h
    split_ifs at h with hc
    · cases Outcome.ok.inj h
    · have h := Outcome.ok.inj h
      injection h with e1 e2
      have hall : ∀ d ∈ w, stopsName d = false := by
        intro d hd
        rw [← e2] at hd
        have := List.mem_takeWhile_imp hd
        simpa using this
      refine ⟨?_, ⟨?_, fun d hd hs => ?_⟩, hall⟩
      · rw [← e1, ← e2, List.takeWhile_append_dropWhile]
      · rw [← e2, List.takeWhile_cons_of_pos (by simpa using hc)]; simp
      · have := hall d hd
        rw [special_stops hs] at this; cases this

theorem name_text {w t : List Char} (hw : Name w) (hn : ∀ c ∈ w, Narrow c) (ht : NoHead (fun c => stopsName c = false) t) :
    name (w ++ t) = .ok (.done t w) := by
  have h : ∀ c ∈ w, (!stopsName c) = true := by
    intro c hc
    rw [narrow_not_stops (hw.2 c hc) (hn c hc)]; rfl
  obtain ⟨e1, e2⟩ := takeWhile_text (p := fun c => !stopsName c) (w := w) (t := t) h (fun c r e hc => ht c r e (by simpa using hc))
  unfold name takeTill1
  rw [e1, e2]
  cases w with
  | nil => exact absurd rfl hw.1
  | cons c w =>
    simp only [List.cons_append]
    have := h c (by simp)
    rw [if_neg (by simpa using this)]

theorem name_err {s : List Char} (h : NoHead (fun c => stopsName c = false) s) : name s = .ok (.err .takeTill1 s) := by
  unfold name takeTill1
  cases s with
  | nil => rfl
  | cons c s =>
    dsimp only
    rw [if_pos (by simpa using h c s rfl)]

theorem FieldEnd.stops {t : List Char} (h : FieldEnd t) : NoHead (fun c => stopsName c = false) t :=
  h.not (by decide) (by decide) (by decide)

theorem quoted_done {s t w : List Char} (h : quotedString s = .ok (.done t w)) :
    s = '"' :: w ++ ['"'] ++ t ∧ w ≠ [] ∧ '"' ∉ w := by
  obtain ⟨u, c, h1, h2⟩ := andThen_done.1 h
  obtain ⟨v, w', h3, h4⟩ := andThen_done.1 h2
  obtain ⟨x, c', h5, h6⟩ := andThen_done.1 h4
  have h6 := Outcome.ok.inj h6
  injection h6 with e1 e2
  subst e1 e2
  have e1 := char_done h1
  have e2 := char_done h5
  unfold takeUntil1 at h3
  split_ifs at h3 with hc
  · have h3 := Outcome.ok.inj h3
    injection h3 with e3 e4
    refine ⟨?_, ?_, ?_⟩
    · have : u = w' ++ v := by rw [← e3, ← e4, List.takeWhile_append_dropWhile]
      rw [e1, this, e2]
      simp
    · rw [← e4]
      cases u with
      | nil => cases hc.1
      | cons d u =>
        have hd : d ≠ '"' := by intro e; exact hc.2 (by rw [e]; rfl)
        rw [List.takeWhile_cons_of_pos (by simpa using hd)]; simp
    · intro hm
      rw [← e4] at hm
      have := List.mem_takeWhile_imp hm
      simp at this
  · cases Outcome.ok.inj h3

theorem quoted_text {w t : List Char} (hw : w ≠ []) (hq : '"' ∉ w) : quotedString ('"' :: w ++ ['"'] ++ t) = .ok (.done t w) := by
  have e : '"' :: w ++ ['"'] ++ t = '"' :: (w ++ '"' :: t) := by simp
  rw [e]
  unfold quotedString delimited
  rw [andThen_eq (char_text _ _)]
  have h2 : takeUntil1 '"' (w ++ '"' :: t) = .ok (.done ('"' :: t) w) := by
    have hall : ∀ c ∈ w, (c != '"') = true := by
      intro c hc
      have : c ≠ '"' := by rintro rfl; exact hq hc
      simpa using this
    obtain ⟨e1, e2⟩ := takeWhile_text (p := fun d => d != '"') (w := w) (t := '"' :: t) hall (by
      intro c r e hc
      injection e with e1
      subst e1
      simp at hc)
    unfold takeUntil1
    rw [e1, e2, if_pos]
    refine ⟨by simp, ?_⟩
    cases w with
    | nil => exact absurd rfl hw
    | cons c w =>
      intro h
      have : c = '"' := Option.some.inj h
      exact hq (by rw [this]; simp)
  rw [andThen_eq h2, andThen_eq (char_text _ _)]
  rfl

theorem quoted_err {s : List Char} (h : NoHead (fun c => c = '"') s) : ∃ k u, quotedString s = .ok (.err k u) :=
  ⟨_, _, andThen_err (char_err h)⟩

theorem quoted_no_fail {s t : List Char} {k : Kind} : quotedString s ≠ .ok (.fail k t) := by
  intro h
  unfold quotedString delimited at h
  by_cases hs : NoHead (fun c => c = '"') s
  · rw [andThen_err (char_err hs)] at h; cases Outcome.ok.inj h
  · unfold NoHead at hs
    push Not at hs
    obtain ⟨c, r, rfl, rfl⟩ := hs
    rw [andThen_eq (char_text _ _)] at h
    by_cases hc : '"' ∈ r ∧ r.head? ≠ some '"'
    · have h2 : takeUntil1 '"' r = .ok (.done (r.dropWhile (fun d => d != '"')) (r.takeWhile (fun d => d != '"'))) := by
        unfold takeUntil1; rw [if_pos hc]
      rw [andThen_eq h2] at h
      by_cases h3 : NoHead (fun c => c = '"') (r.dropWhile (fun d => d != '"'))
      · rw [andThen_err (char_err h3)] at h; cases Outcome.ok.inj h
      · unfold NoHead at h3
        push Not at h3
        obtain ⟨c, q, e, rfl⟩ := h3
        rw [e, andThen_eq (char_text _ _)] at h
        cases Outcome.ok.inj h
    · have h2 : takeUntil1 '"' r = .ok (.err .takeUntil r) := by unfold takeUntil1; rw [if_neg hc]
      rw [andThen_err h2] at h; cases Outcome.ok.inj h

/-! ### Fields -/

theorem field_done {s t : List Char} {f : Field D} (h : field F s = .ok (.done t f)) : ∃ w, s = w ++ t ∧ IsField F w f := by
  rcases orElse_done.1 h with h | ⟨-, -, -, h⟩
  · obtain ⟨q, h1, h2⟩ := mapOpt_done.1 h
    rw [← Option.some.inj (Outcome.ok.inj h2)]
    exact fraction_done h1
  rcases orElse_done.1 h with h | ⟨-, -, -, h⟩
  · obtain ⟨w, h1, h2⟩ := mapOpt_done.1 h
    rw [← Option.some.inj (Outcome.ok.inj h2)]
    rcases floatText_total s with ⟨w', t', e, hw, h3⟩ | ⟨-, h3⟩ | ⟨u, h3⟩
    · rw [h1] at h3
      have h3 := Outcome.ok.inj h3
      injection h3 with e1 e2
      subst e1 e2
      refine ⟨w, e, ?_⟩
      unfold doubleToField
      cases hF : F.asInt (F.parse w) with
      | none => exact .double hw hF
      | some n => exact .int hw hF
    · rw [h1] at h3; cases Outcome.ok.inj h3
    · rw [h1] at h3; cases Outcome.ok.inj h3
  rcases orElse_done.1 h with h | ⟨-, -, -, h⟩
  · obtain ⟨w, h1, h2⟩ := mapOpt_done.1 h
    rw [← Option.some.inj (Outcome.ok.inj h2)]
    obtain ⟨e, h3, h4⟩ := quoted_done h1
    exact ⟨_, e, .quoted h3 h4⟩
  · obtain ⟨w, h1, h2⟩ := mapOpt_done.1 h
    rw [← Option.some.inj (Outcome.ok.inj h2)]
    obtain ⟨e, h3, -⟩ := name_done h1
    exact ⟨w, e, .name h3⟩

theorem mantissaP_not_err {m r : List Char} (h : Mantissa m) : ∃ t, mantissaP (m ++ r) = .ok (.done t ()) := by
  rcases mantissaP_total (m ++ r) with ⟨m', t, -, -, -, h1⟩ | ⟨k, u, h1⟩
  · exact ⟨t, h1⟩
  · exfalso
    have go : ∀ a x, Digits a → mantissaP (a ++ x) ≠ .ok (.err k u) := by
      intro a x ha he
      rcases digit1_total (a ++ x) with ⟨ds, v, -, -, -, h3⟩ | ⟨h2, -⟩
      · obtain ⟨y, w, o, -, -, h4⟩ := pointP v
        have : mantissaP (a ++ x) = .ok (.done w ()) := by
          refine orElse_left ?_
          rw [andThen_eq h3, andThen_eq h4]
          rfl
        rw [this] at he
        cases Outcome.ok.inj he
      · obtain ⟨ha0, ha1⟩ := ha
        cases a with
        | nil => exact ha0 rfl
        | cons d a => exact h2 d (a ++ x) rfl (isDig_iff.2 (ha1 d (by simp)))
    cases h with
    | int ha => exact go _ _ ha h1
    | point ha => rw [List.append_assoc] at h1; exact go _ _ ha h1
    | decimal ha hb => rw [List.append_assoc] at h1; exact go _ _ ha h1
    | @fraction b hb =>
      have hdot : NoDig ('.' :: b ++ r) := by
        intro c q e hc
        injection e with e1
        subst e1
        exact absurd hc (by decide)
      have h2 : andThen digit1 (fun _ => andThen (opt (pair (char '.') (opt digit1))) (fun _ => ret ())) ('.' :: b ++ r) =
        .ok (.err .digit ('.' :: b ++ r)) := andThen_err (digit1_err hdot)
      unfold mantissaP at h1
      rw [orElse_right h2] at h1
      have h3 : char '.' ('.' :: b ++ r) = .ok (.done (b ++ r) '.') := char_text _ _
      rw [andThen_eq h3] at h1
      rcases digit1_total (b ++ r) with ⟨ds, v, -, -, -, h4⟩ | ⟨h4, -⟩
      · rw [andThen_eq h4] at h1
        cases Outcome.ok.inj h1
      · obtain ⟨hb0, hb1⟩ := hb
        cases b with
        | nil => exact hb0 rfl
        | cons d b => exact h4 d (b ++ r) rfl (isDig_iff.2 (hb1 d (by simp)))

/-- if no number is read, there is none at the beginning -/
theorem floatText_err {s u : List Char} {k : Kind} (h : floatText s = .ok (.err k u)) : ∀ p, p <+: s → ¬ Number p := by
  rintro p ⟨q, rfl⟩ hp
  unfold floatText at h
  cases hp with
  | @float g m x hg hm hx =>
    obtain ⟨o, ho⟩ := signP_text hg (fun _ => mantissa_head (t := x ++ q) hm)
    obtain ⟨t, ht⟩ := mantissaP_not_err (r := x ++ q) hm
    have e : g ++ m ++ x ++ q = g ++ (m ++ (x ++ q)) := by simp
    rw [e] at h
    rcases expP_total t with ⟨y, v, o2, -, -, h2⟩ | ⟨c, h', v, -, -, -, -, -, k', w, h2⟩
    · have h3 : ∃ w, recognizeFloat (g ++ (m ++ (x ++ q))) = .ok (.done v w) := by
        unfold recognizeFloat recognize
        rw [andThen_eq ho, andThen_eq ht, andThen_eq h2]
        exact ⟨_, rfl⟩
      obtain ⟨w, h3⟩ := h3
      rw [orElse_left (floatErr_done h3)] at h
      cases Outcome.ok.inj h
    · have h3 : recognizeFloat (g ++ (m ++ (x ++ q))) = .ok (.fail k' w) := by
        unfold recognizeFloat recognize
        rw [andThen_eq ho, andThen_eq ht, andThen_fail h2]
        rfl
      rw [orElse_fail (floatErr_fail h3)] at h
      cases Outcome.ok.inj h
  | @nan a b c ha hb hc =>
    rcases recognizeFloat_total ([a, b, c] ++ q) with ⟨g, m, x, t, -, -, -, -, h1⟩ | ⟨-, k', u', h1⟩ | ⟨k', u', h1⟩
    · rw [orElse_left (floatErr_done h1)] at h; cases Outcome.ok.inj h
    · rw [orElse_fail (floatErr_fail h1)] at h; cases Outcome.ok.inj h
    · rw [orElse_right (floatErr_err h1)] at h
      rcases tagNoCase_three (x := 'n') (y := 'a') (z := 'n') ([a, b, c] ++ q) with ⟨_, _, _, t, _, _, _, _, h4⟩ | ⟨h4, -⟩
      · rw [orElse_left (floatErr_done h4)] at h; cases Outcome.ok.inj h
      · exact h4 (three_iff.2 ⟨a, b, c, q, rfl, lower_letter.1.2 ha, lower_letter.2.1.2 hb, lower_letter.1.2 hc⟩)
  | @inf a b c ha hb hc =>
    rcases recognizeFloat_total ([a, b, c] ++ q) with ⟨g, m, x, t, -, -, -, -, h1⟩ | ⟨-, k', u', h1⟩ | ⟨k', u', h1⟩
    · rw [orElse_left (floatErr_done h1)] at h; cases Outcome.ok.inj h
    · rw [orElse_fail (floatErr_fail h1)] at h; cases Outcome.ok.inj h
    · rw [orElse_right (floatErr_err h1)] at h
      rcases tagNoCase_three (x := 'n') (y := 'a') (z := 'n') ([a, b, c] ++ q) with ⟨_, _, _, t, _, _, _, _, h4⟩ | ⟨-, h4⟩
      · rw [orElse_left (floatErr_done h4)] at h; cases Outcome.ok.inj h
      · rw [orElse_right (floatErr_err h4)] at h
        rcases tagNoCase_three (x := 'i') (y := 'n') (z := 'f') ([a, b, c] ++ q) with ⟨_, _, _, t, _, _, _, _, h5⟩ | ⟨h5, -⟩
        · rw [orElse_left (floatErr_done h5)] at h; cases Outcome.ok.inj h
        · exact h5 (three_iff.2 ⟨a, b, c, q, rfl, lower_letter.2.2.1.2 ha, lower_letter.1.2 hb, lower_letter.2.2.2.2 hc⟩)

theorem not_stops_narrow {c : Char} (h : stopsName c = false) : Narrow c := by
  unfold stopsName isSpaceU8 at h
  simp only [Bool.or_eq_false_iff, beq_eq_false_iff_ne] at h
  exact h.2

/-- what is read has the meaning that is returned -/
theorem field_done_word {s t : List Char} {f : Field D} (h : field F s = .ok (.done t f)) : ∃ w, s = w ++ t ∧ Word F w f := by
  rcases orElse_done.1 h with h1 | ⟨-, -, -, h⟩
  · obtain ⟨w, e, hw⟩ := field_done h
    obtain ⟨q, -, h2⟩ := mapOpt_done.1 h1
    have h2 := Option.some.inj (Outcome.ok.inj h2)
    exact ⟨w, e, hw, fun h3 => by rw [← h2] at h3; cases h3⟩
  rcases orElse_done.1 h with h | ⟨k, u, hf, h⟩
  · obtain ⟨w, h1, h2⟩ := mapOpt_done.1 h
    have h2 := Option.some.inj (Outcome.ok.inj h2)
    rcases floatText_total s with ⟨w', t', e, hw, h3⟩ | ⟨-, h3⟩ | ⟨u, h3⟩
    · rw [h1] at h3
      have h3 := Outcome.ok.inj h3
      injection h3 with e1 e2
      subst e1 e2
      refine ⟨w, e, ?_, ?_⟩
      · rw [← h2]
        unfold doubleToField
        cases hF : F.asInt (F.parse w) with
        | none => exact .double hw hF
        | some n => exact .int hw hF
      · rw [← h2]
        intro h4
        unfold doubleToField at h4
        cases hF : F.asInt (F.parse w) with
        | none => rw [hF] at h4; cases h4
        | some n => rw [hF] at h4; cases h4
    · rw [h1] at h3; cases Outcome.ok.inj h3
    · rw [h1] at h3; cases Outcome.ok.inj h3
  rcases orElse_done.1 h with h | ⟨-, -, -, h⟩
  · obtain ⟨w, h1, h2⟩ := mapOpt_done.1 h
    rw [← Option.some.inj (Outcome.ok.inj h2)]
    obtain ⟨e, h3, h4⟩ := quoted_done h1
    refine ⟨_, e, .quoted h3 h4, fun h5 => ?_⟩
    injection h5 with h5
    exact absurd (congrArg List.length h5) (by simp; omega)
  · obtain ⟨w, h1, h2⟩ := mapOpt_done.1 h
    rw [← Option.some.inj (Outcome.ok.inj h2)]
    obtain ⟨e, h3, h4⟩ := name_done h1
    refine ⟨w, e, .name h3, fun _ => ⟨?_, fun c hc => not_stops_narrow (h4 c hc)⟩⟩
    intro p hp
    have h5 : ∃ k u, floatText s = .ok (.err k u) := by
      unfold mapOpt at hf
      cases hp : floatText s with
      | ok r =>
        rw [hp] at hf
        cases r with
        | done u a => cases Outcome.ok.inj hf
        | err k' u => exact ⟨_, _, rfl⟩
        | fail k' u => cases Outcome.ok.inj hf
      | panic => rw [hp] at hf; cases hf
      | diverge => rw [hp] at hf; cases hf
    obtain ⟨k', u', h5⟩ := h5
    exact floatText_err h5 p (hp.trans ⟨t, e.symm⟩)

theorem orElse_fail_cases {α : Type} {p q : Parser α} {s t : List Char} {k : Kind} (h : orElse p q s = .ok (.fail k t)) :
    p s = .ok (.fail k t) ∨ q s = .ok (.fail k t) := by
  unfold orElse at h
  cases hp : p s with
  | ok r =>
    rw [hp] at h
    cases r with
    | done u a => cases Outcome.ok.inj h
    | err k' u => exact Or.inr h
    | fail k' u => exact Or.inl h
  | panic => rw [hp] at h; cases h
  | diverge => rw [hp] at h; cases h

theorem mapOpt_fail_cases {α β : Type} {p : Parser α} {f : α → Outcome (Option β)} {s t : List Char} {k : Kind}
    (h : mapOpt p f s = .ok (.fail k t)) : p s = .ok (.fail k t) := by
  unfold mapOpt at h
  cases hp : p s with
  | ok r =>
    rw [hp] at h
    cases r with
    | done u a =>
      obtain ⟨o, ho, h⟩ := Outcome.bind_eq_ok.1 h
      have := Outcome.ok.inj ho
      subst this
      obtain ⟨o, -, h⟩ := Outcome.bind_eq_ok.1 h
      cases o <;> cases Outcome.ok.inj h
    | err k' u => cases Outcome.ok.inj h
    | fail k' u =>
      have h := Outcome.ok.inj h
      injection h with e1 e2
      rw [e1, e2]
  | panic => rw [hp] at h; cases h
  | diverge => rw [hp] at h; cases h

theorem name_no_fail {s t : List Char} {k : Kind} : name s ≠ .ok (.fail k t) := by
  intro h
  unfold name takeTill1 at h
  cases s with
  | nil => cases Outcome.ok.inj h
  | cons c s =>
    dsimp only at h
    split_ifs at h <;> cases Outcome.ok.inj h

theorem field_fail {s t : List Char} {k : Kind} (h : field F s = .ok (.fail k t)) : k = .float ∧ t = s ∧ BadExponent s := by
  rcases orElse_fail_cases h with h | h
  · exact absurd (mapOpt_fail_cases h) fraction_no_fail
  rcases orElse_fail_cases h with h | h
  · have h := mapOpt_fail_cases h
    rcases floatText_total s with ⟨w', t', e, hw, h3⟩ | ⟨hb, h3⟩ | ⟨u, h3⟩
    · rw [h] at h3; cases Outcome.ok.inj h3
    · rw [h] at h3
      have h3 := Outcome.ok.inj h3
      injection h3 with e1 e2
      exact ⟨e1, e2, hb⟩
    · rw [h] at h3; cases Outcome.ok.inj h3
  rcases orElse_fail_cases h with h | h
  · exact absurd (mapOpt_fail_cases h) quoted_no_fail
  · exact absurd (mapOpt_fail_cases h) name_no_fail

theorem field_text {w t : List Char} {f : Field D} (h : Word F w f) (ht : FieldEnd t) : field F (w ++ t) = .ok (.done t f) := by
  obtain ⟨h, hn⟩ := h
  cases h with
  | fraction ha hb hd => exact orElse_left (mapOpt_eq (fraction_text ha hb hd ht.numEnd.1).1 rfl)
  | negative ha hb hd => exact orElse_left (mapOpt_eq (fraction_text ha hb hd ht.numEnd.1).2 rfl)
  | int hw hF =>
    obtain ⟨k, u, hu⟩ := fraction_err_of_slash (number_numChar hw) ht
    unfold field
    rw [orElse_right (mapOpt_err hu)]
    refine orElse_left (mapOpt_eq (floatText_text hw ht.numEnd) ?_)
    unfold doubleToField
    rw [hF]
  | double hw hF =>
    obtain ⟨k, u, hu⟩ := fraction_err_of_slash (number_numChar hw) ht
    unfold field
    rw [orElse_right (mapOpt_err hu)]
    refine orElse_left (mapOpt_eq (floatText_text hw ht.numEnd) ?_)
    unfold doubleToField
    rw [hF]
  | @quoted w hw hq =>
    have hno : ∀ p, p <+: '"' :: w ++ ['"'] ++ t → ¬ Number p := by
      intro p hp hN
      have h1 := number_numChar hN
      have h2 := number_ne hN
      cases p with
      | nil => exact h2 rfl
      | cons c p =>
        obtain ⟨r, e⟩ := hp
        injection e with e1
        subst e1
        exact absurd (h1 '"' (by simp)) (by decide)
    obtain ⟨⟨k1, u1, h1⟩, k2, u2, h2⟩ := noNumber_err hno
    unfold field
    rw [orElse_right (mapOpt_err h2), orElse_right (mapOpt_err h1)]
    exact orElse_left (mapOpt_eq (quoted_text hw hq) rfl)
  | name hw =>
    obtain ⟨hc, hnar⟩ := hn rfl
    have hno : ∀ p, p <+: w ++ t → ¬ Number p := by
      intro p hp hN
      exact hc p (prefix_word (number_numChar hN) ht hp) hN
    obtain ⟨⟨k1, u1, h1⟩, k2, u2, h2⟩ := noNumber_err hno
    have h3 : NoHead (fun c => c = '"') (w ++ t) := by
      obtain ⟨hw1, hw2⟩ := hw
      cases w with
      | nil => exact absurd rfl hw1
      | cons c w =>
        intro d r e hd
        injection e with e1
        subst e1
        subst hd
        exact hw2 '"' (by simp) (Or.inr (Or.inr (Or.inr rfl)))
    obtain ⟨k3, u3, h3⟩ := quoted_err h3
    unfold field
    rw [orElse_right (mapOpt_err h2), orElse_right (mapOpt_err h1), orElse_right (mapOpt_err h3)]
    exact mapOpt_eq (name_text hw hnar ht.stops) rfl

/-- at the end of a line, or before a comment -/
def LineEnd (t : List Char) : Prop := ∀ c r, t = c :: r → c = '#'

theorem field_err {t : List Char} (h : LineEnd t) : ∃ k u, field F t = .ok (.err k u) := by
  have hno : ∀ p, p <+: t → ¬ Number p := by
    intro p hp hN
    have h1 := number_numChar hN
    have h2 := number_ne hN
    cases p with
    | nil => exact h2 rfl
    | cons c p =>
      obtain ⟨r, e⟩ := hp
      have := h c (p ++ r) e.symm
      subst this
      exact absurd (h1 '#' (by simp)) (by decide)
  obtain ⟨⟨k1, u1, h1⟩, k2, u2, h2⟩ := noNumber_err hno
  obtain ⟨k3, u3, h3⟩ := quoted_err (s := t) (fun c r e hc => by have := h c r e; rw [this] at hc; exact absurd hc (by decide))
  unfold field
  rw [orElse_right (mapOpt_err h2), orElse_right (mapOpt_err h1), orElse_right (mapOpt_err h3)]
  refine ⟨_, _, mapOpt_err (name_err ?_)⟩
  intro c r e hc
  have := h c r e
  rw [this] at hc
  exact absurd hc (by decide)

end Systre.Cgd
