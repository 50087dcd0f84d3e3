import Verif.Lemmas.ParseOperator

/-! # Completeness of the operator parser -/

namespace Systre.ParseOperator
open Nom OpText

/-- the text does not start with a character that has the property -/
def NoHead (p : Char → Prop) (s : List Char) : Prop := ∀ c r, s = c :: r → ¬ p c

/-- after blanks: the end, a sign or a comma -/
def Stop (s : List Char) : Prop := ∀ c r, s.dropWhile isBlank = c :: r → c = '+' ∨ c = '-' ∨ c = ','

/-- after blanks: the end or a comma -/
def EndC (s : List Char) : Prop := ∀ c r, s.dropWhile isBlank = c :: r → c = ','

theorem EndC.stop {s : List Char} (h : EndC s) : Stop s := fun c r e => Or.inr (Or.inr (h c r e))

theorem stop_head {s : List Char} (h : Stop s) {c : Char} {r : List Char} (e : s = c :: r) :
    isBlank c = true ∨ c = '+' ∨ c = '-' ∨ c = ',' := by
  by_cases hb : isBlank c
  · exact Or.inl hb
  · refine Or.inr (h c r ?_)
    rw [e, List.dropWhile_cons_of_neg hb]

theorem stop_digit {s : List Char} (h : Stop s) : NoHead (fun c => isDig c = true) s := by
  intro c r e hd
  rcases stop_head h e with hb | rfl | rfl | rfl
  · rcases isBlank_iff.1 hb with rfl | rfl <;> exact absurd hd (by decide)
  · exact absurd hd (by decide)
  · exact absurd hd (by decide)
  · exact absurd hd (by decide)

theorem stop_slash {s : List Char} (h : Stop s) : NoHead (fun c => c = '/') (s.dropWhile isBlank) := by
  intro c r e hd
  rcases h c r e with rfl | rfl | rfl <;> exact absurd hd (by decide)

theorem blank_digit {u s : List Char} (hu : Blank u) (hs : NoHead (fun c => isDig c = true) s) :
    NoHead (fun c => isDig c = true) (u ++ s) := by
  cases u with
  | nil => exact hs
  | cons d u =>
    intro c r e hd
    rw [List.cons_append] at e
    injection e with e1 _
    subst e1
    rcases hu d (by simp) with rfl | rfl <;> exact absurd hd (by decide)

theorem takeWhile_text {p : Char → Bool} {w t : List Char} (hw : ∀ c ∈ w, p c = true) (ht : NoHead (fun c => p c = true) t) :
    (w ++ t).takeWhile p = w ∧ (w ++ t).dropWhile p = t := by
  induction w with
  | nil =>
    cases t with
    | nil => exact ⟨rfl, rfl⟩
    | cons c r => exact ⟨List.takeWhile_cons_of_neg (ht c r rfl), List.dropWhile_cons_of_neg (ht c r rfl)⟩
  | cons c w ih =>
    obtain ⟨h1, h2⟩ := ih (fun d hd => hw d (by simp [hd]))
    have hc := hw c (by simp)
    rw [List.cons_append, List.takeWhile_cons_of_pos hc, List.dropWhile_cons_of_pos hc, h1, h2]
    exact ⟨rfl, rfl⟩

theorem numeral_head {w : List Char} {n : Nat} (h : Numeral w n) : ∃ c r, w = c :: r ∧ isDig c = true := by
  obtain ⟨h1, -, h3, -⟩ := h
  cases w with
  | nil => exact absurd rfl h1
  | cons c r => exact ⟨c, r, rfl, isDig_iff.2 (h3 c (by simp))⟩

theorem integer_text {w t : List Char} {n : Nat} (h : Numeral w n) (ht : NoHead (fun c => isDig c = true) t) :
    integer (w ++ t) = .ok (.done t n) := by
  obtain ⟨c, r, e, hc⟩ := numeral_head h
  obtain ⟨h1, h2, h3, h4⟩ := h
  obtain ⟨e1, e2⟩ := takeWhile_text (p := isDig) (fun c hc => isDig_iff.2 (h3 c hc)) ht
  refine mapOpt_eq (a := w) ?_ ?_
  · unfold digit1
    rw [e1, e2, e]
    simp only [List.cons_append]
    rw [if_pos hc]
  · unfold mapInteger
    rw [if_pos h2, fold_eq, h4]

theorem integer_err {s : List Char} (h : NoHead (fun c => isDig c = true) s) : integer s = .ok (.err .digit s) := by
  refine mapOpt_err ?_
  unfold digit1
  cases s with
  | nil => rfl
  | cons c r => dsimp only; rw [if_neg (h c r rfl)]

theorem space0_eq (s : List Char) : space0 s = .ok (.done (s.dropWhile isBlank) ()) := rfl

theorem char_text (c : Char) (t : List Char) : char c (c :: t) = .ok (.done t c) := by simp [char]

theorem char_err {c : Char} {s : List Char} (h : NoHead (fun d => d = c) s) : char c s = .ok (.err .char s) := by
  unfold char
  cases s with
  | nil => rfl
  | cons d r => dsimp only; rw [if_neg (h d r rfl)]

theorem sep_text {c : Char} {u v t : List Char} (hc : isBlank c = false) (hu : Blank u) (hv : Blank v)
    (ht : NoHead (fun d => isBlank d = true) t) :
    andThen space0 (fun _ => andThen (char c) (fun _ => space0)) (u ++ c :: v ++ t) = .ok (.done t ()) := by
  have e1 : space0 (u ++ c :: v ++ t) = .ok (.done (c :: (v ++ t)) ()) := by
    rw [List.append_assoc, List.cons_append]
    exact space0_append hu (fun d r e => by injection e with e1; subst e1; simp [hc])
  rw [andThen_eq e1, andThen_eq (char_text _ _)]
  exact space0_append hv (fun d r e => ht d r e)

theorem sep_err {c : Char} {s : List Char} (h : NoHead (fun d => d = c) (s.dropWhile isBlank)) :
    andThen space0 (fun _ => andThen (char c) (fun _ => space0)) s = .ok (.err .char (s.dropWhile isBlank)) := by
  rw [andThen_eq (space0_eq s), andThen_err (char_err h)]

theorem numeral_blank {w t : List Char} {n : Nat} (h : Numeral w n) : NoHead (fun d => isBlank d = true) (w ++ t) := by
  obtain ⟨c, r, e, hc⟩ := numeral_head h
  intro d r' e' hd
  rw [e, List.cons_append] at e'
  injection e' with e1 _
  subst e1
  rcases isBlank_iff.1 hd with rfl | rfl <;> exact absurd hc (by decide)

theorem fraction_text {w t : List Char} {q : Rat} (h : Fraction w q) (ht : NoHead (fun c => isDig c = true) t)
    (hs : NoHead (fun c => c = '/') (t.dropWhile isBlank)) : unsignedFraction (w ++ t) = .ok (.done t q) := by
  cases h with
  | @int _ n hn =>
    have h1 : separatedPair integer (andThen space0 (fun _ => andThen (char '/') (fun _ => space0))) integer (w ++ t) =
        .ok (.err .char (t.dropWhile isBlank)) := by
      unfold separatedPair
      rw [andThen_eq (integer_text hn ht), andThen_err (sep_err hs)]
    unfold unsignedFraction
    rw [orElse_right (mapOpt_err h1)]
    exact mapOpt_eq (integer_text hn ht) rfl
  | @quot s u v t' n d hn hu hv hd hd0 =>
    refine orElse_left (mapOpt_eq (a := (n, d)) ?_ ?_)
    · unfold separatedPair
      have e : s ++ u ++ '/' :: v ++ t' ++ t = s ++ (u ++ '/' :: v ++ (t' ++ t)) := by simp
      rw [e, andThen_eq (integer_text hn ?_), andThen_eq (sep_text (by decide) hu hv (numeral_blank hd)),
        andThen_eq (integer_text hd ht)]
      · rfl
      · rw [List.append_assoc]
        exact blank_digit hu (fun c r e hc => by
          injection e with e1; subst e1; exact absurd hc (by decide))
    · unfold ratioNew
      have : ((d : ℕ) : ℤ) ≠ 0 := by exact_mod_cast hd0
      rw [if_neg this]
      simp

theorem fraction_err {s : List Char} (h : NoHead (fun c => isDig c = true) s) :
    unsignedFraction s = .ok (.err .digit s) := by
  unfold unsignedFraction
  rw [orElse_right (mapOpt_err (by unfold separatedPair; rw [andThen_err (integer_err h)]))]
  exact mapOpt_err (integer_err h)

theorem axis_text {c : Char} {k : Fin 3} (h : Letter c k) (t : List Char) :
    ∃ a, axisIdx a = some k ∧ axis (c :: t) = .ok (.done t a) := by
  cases h
  · exact ⟨.x, rfl, by simp [axis, mapOpt, oneOf]⟩
  · exact ⟨.y, rfl, by simp [axis, mapOpt, oneOf]⟩
  · exact ⟨.z, rfl, by simp [axis, mapOpt, oneOf]⟩

theorem axis_err {s : List Char} (h : NoHead (fun c => c = 'x' ∨ c = 'y' ∨ c = 'z') s) :
    axis s = .ok (.err .oneOf s) := by
  refine mapOpt_err ?_
  unfold oneOf
  cases s with
  | nil => rfl
  | cons c r =>
    dsimp only
    rw [if_neg]
    have := h c r rfl
    simpa using this

theorem letter_facts {c : Char} {k : Fin 3} (h : Letter c k) : isDig c = false ∧ isBlank c = false ∧ c ≠ '/' ∧ c ≠ '*' ∧
    c ≠ '+' ∧ c ≠ '-' ∧ c ≠ ',' := by
  cases h <;> decide

theorem pair_err {α β γ : Type} {p : Parser α} {q : Parser β} {r : Parser γ} {s s1 s2 : List Char} {a : α} {k : Kind}
    (h1 : p s = .ok (.done s1 a)) (h2 : q s1 = .ok (.err k s2)) : separatedPair p q r s = .ok (.err k s2) := by
  unfold separatedPair
  rw [andThen_eq h1, andThen_err h2]

theorem pair_err2 {α β γ : Type} {p : Parser α} {q : Parser β} {r : Parser γ} {s s1 s2 s3 : List Char} {a : α} {b : β}
    {k : Kind} (h1 : p s = .ok (.done s1 a)) (h2 : q s1 = .ok (.done s2 b)) (h3 : r s2 = .ok (.err k s3)) :
    separatedPair p q r s = .ok (.err k s3) := by
  unfold separatedPair
  rw [andThen_eq h1, andThen_eq h2, andThen_err h3]

theorem pair_ok {α β γ : Type} {p : Parser α} {q : Parser β} {r : Parser γ} {s s1 s2 s3 : List Char} {a : α} {b : β}
    {c : γ} (h1 : p s = .ok (.done s1 a)) (h2 : q s1 = .ok (.done s2 b)) (h3 : r s2 = .ok (.done s3 c)) :
    separatedPair p q r s = .ok (.done s3 (a, c)) := by
  unfold separatedPair
  rw [andThen_eq h1, andThen_eq h2, andThen_eq h3]
  rfl

theorem unsigned_text {w t : List Char} {q : Rat} {k : Option (Fin 3)} (h : Unsigned w q k) (ht : Stop t) :
    ∃ a, axisIdx a = k ∧ unsignedTerm (w ++ t) = .ok (.done t (q, a)) := by
  cases h with
  | @times s _ c k hf hl =>
    obtain ⟨a, ha, e⟩ := axis_text hl t
    refine ⟨a, ha, ?_⟩
    have e1 : s ++ '*' :: [c] ++ t = s ++ '*' :: c :: t := by simp
    rw [e1]
    refine orElse_left (mapOpt_eq (pair_ok (fraction_text hf ?_ ?_) (char_text _ _) e) rfl)
    · intro d r e hd; injection e with e1; subst e1; exact absurd hd (by decide)
    · intro d r e hd; rw [List.dropWhile_cons_of_neg (by decide)] at e; injection e with e1; subst e1; exact absurd hd (by decide)
  | @juxt s u _ c k hf hu hl =>
    obtain ⟨a, ha, e⟩ := axis_text hl t
    obtain ⟨l1, l2, l3, l4, -⟩ := letter_facts hl
    refine ⟨a, ha, ?_⟩
    have e1 : s ++ u ++ [c] ++ t = s ++ (u ++ c :: t) := by simp
    rw [e1]
    have hsp : space0 (u ++ c :: t) = .ok (.done (c :: t) ()) :=
      space0_append hu (fun d r e => by injection e with e1; subst e1; simp [l2])
    have hfr : unsignedFraction (s ++ (u ++ c :: t)) = .ok (.done (u ++ c :: t) q) := by
      refine fraction_text hf (blank_digit hu ?_) ?_
      · intro d r e hd; injection e with e1; subst e1; simp [l1] at hd
      · intro d r e hd
        have h2 := Outcome.ok.inj hsp
        injection h2 with h2
        rw [h2] at e; injection e with e1; subst e1; exact l3 hd
    have hstar : char '*' (u ++ c :: t) = .ok (.err .char (u ++ c :: t)) := by
      refine char_err ?_
      intro d r e hd
      subst hd
      cases u with
      | nil => injection e with e1; exact l4 e1
      | cons b u =>
        injection e with e1
        rcases hu b (by simp) with rfl | rfl <;> exact absurd e1 (by decide)
    unfold unsignedTerm
    rw [orElse_right (mapOpt_err (pair_err hfr hstar))]
    exact orElse_left (mapOpt_eq (pair_ok hfr hsp e) rfl)
  | const hf =>
    refine ⟨.none, rfl, ?_⟩
    have hfr := fraction_text hf (stop_digit ht) (stop_slash ht)
    have hstar : char '*' t = .ok (.err .char t) := by
      refine char_err ?_
      intro d r e hd
      subst hd
      rcases stop_head ht e with hb | hb | hb | hb <;> exact absurd hb (by decide)
    have hax : axis (t.dropWhile isBlank) = .ok (.err .oneOf (t.dropWhile isBlank)) := by
      refine axis_err ?_
      intro d r e hd
      rcases ht d r e with rfl | rfl | rfl <;> exact absurd hd (by decide)
    unfold unsignedTerm
    rw [orElse_right (mapOpt_err (pair_err hfr hstar)), orElse_right (mapOpt_err (pair_err2 hfr (space0_eq t) hax))]
    exact orElse_left (mapOpt_eq hfr rfl)
  | @axis c k hl =>
    obtain ⟨a, ha, e⟩ := axis_text hl t
    obtain ⟨l1, -⟩ := letter_facts hl
    refine ⟨a, ha, ?_⟩
    have hfr : unsignedFraction (c :: t) = .ok (.err .digit (c :: t)) :=
      fraction_err (fun d r e hd => by injection e with e1; subst e1; simp [l1] at hd)
    have hp : ∀ {β γ : Type} (q : Parser β) (r : Parser γ), separatedPair unsignedFraction q r (c :: t) = .ok (.err .digit (c :: t)) := by
      intro β γ q r
      unfold separatedPair
      rw [andThen_err hfr]
    rw [List.singleton_append]
    unfold unsignedTerm
    rw [orElse_right (mapOpt_err (hp _ _)), orElse_right (mapOpt_err (hp _ _)), orElse_right (mapOpt_err hfr)]
    exact mapOpt_eq e rfl

theorem fraction_head {w : List Char} {q : Rat} (h : Fraction w q) : ∃ c r, w = c :: r ∧ isDig c = true := by
  cases h with
  | int hn => exact numeral_head hn
  | @quot s u v t n d hn hu hv hd h0 =>
    obtain ⟨c, r, e, hc⟩ := numeral_head hn
    exact ⟨c, r ++ u ++ '/' :: v ++ t, by rw [e]; simp, hc⟩

theorem unsigned_head {w : List Char} {q : Rat} {k : Option (Fin 3)} (h : Unsigned w q k) :
    ∃ c r, w = c :: r ∧ isBlank c = false ∧ c ≠ '+' ∧ c ≠ '-' ∧ c ≠ ',' := by
  have hdig : ∀ c, isDig c = true → isBlank c = false ∧ c ≠ '+' ∧ c ≠ '-' ∧ c ≠ ',' := by
    intro c hc
    refine ⟨?_, ?_, ?_, ?_⟩
    · by_contra hb
      rcases isBlank_iff.1 (by simpa using hb) with rfl | rfl <;> exact absurd hc (by decide)
    · rintro rfl; exact absurd hc (by decide)
    · rintro rfl; exact absurd hc (by decide)
    · rintro rfl; exact absurd hc (by decide)
  cases h with
  | times hf hl =>
    obtain ⟨c, r, e, hc⟩ := fraction_head hf
    exact ⟨c, _, by rw [e]; rfl, hdig c hc⟩
  | juxt hf hu hl =>
    obtain ⟨c, r, e, hc⟩ := fraction_head hf
    exact ⟨c, _, by rw [e]; rfl, hdig c hc⟩
  | const hf =>
    obtain ⟨c, r, e, hc⟩ := fraction_head hf
    exact ⟨c, r, e, hdig c hc⟩
  | axis hl =>
    obtain ⟨-, l2, -, -, l5⟩ := letter_facts hl
    exact ⟨_, [], rfl, l2, l5⟩

theorem sign_err {s : List Char} (h : NoHead (fun c => c = '+' ∨ c = '-') s) : sign s = .ok (.err .oneOf s) := by
  refine mapOpt_err ?_
  unfold oneOf
  cases s with
  | nil => rfl
  | cons c r =>
    dsimp only
    rw [if_neg]
    have := h c r rfl
    simpa using this

theorem signed_err {s : List Char} (h : NoHead (fun c => c = '+' ∨ c = '-') s) : signedTerm s = .ok (.err .oneOf s) := by
  refine mapOpt_err ?_
  unfold separatedPair
  rw [andThen_err (sign_err h)]

theorem signed_text {w t : List Char} {q : Rat} {k : Option (Fin 3)} (h : Signed w q k) (ht : Stop t) :
    ∃ a, axisIdx a = k ∧ signedTerm (w ++ t) = .ok (.done t (q, a)) := by
  have hsp : ∀ {u s : List Char} {q k}, Blank u → Unsigned s q k → space0 (u ++ (s ++ t)) = .ok (.done (s ++ t) ()) := by
    intro u s q k hu hs
    obtain ⟨c, r, e, hb, -⟩ := unsigned_head hs
    refine space0_append hu ?_
    intro d r' e'
    rw [e] at e'; injection e' with e1; subst e1; simp [hb]
  cases h with
  | @plus u s q k hu hs =>
    obtain ⟨a, ha, e⟩ := unsigned_text hs ht
    refine ⟨a, ha, ?_⟩
    have e1 : '+' :: u ++ s ++ t = '+' :: (u ++ (s ++ t)) := by simp
    have hsig : sign ('+' :: (u ++ (s ++ t))) = .ok (.done (u ++ (s ++ t)) 1) := by simp [sign, mapOpt, oneOf]
    rw [e1]
    refine mapOpt_eq (pair_ok hsig (hsp hu hs) e) ?_
    simp
  | @minus u s q k hu hs =>
    obtain ⟨a, ha, e⟩ := unsigned_text hs ht
    refine ⟨a, ha, ?_⟩
    have e1 : '-' :: u ++ s ++ t = '-' :: (u ++ (s ++ t)) := by simp
    have hsig : sign ('-' :: (u ++ (s ++ t))) = .ok (.done (u ++ (s ++ t)) (-1)) := by simp [sign, mapOpt, oneOf]
    rw [e1]
    refine mapOpt_eq (pair_ok hsig (hsp hu hs) e) ?_
    simp

theorem signed_head {w : List Char} {q : Rat} {k : Option (Fin 3)} (h : Signed w q k) :
    ∃ c r, w = c :: r ∧ (c = '+' ∨ c = '-') := by
  cases h with
  | plus => exact ⟨_, _, rfl, Or.inl rfl⟩
  | minus => exact ⟨_, _, rfl, Or.inr rfl⟩

theorem sign_not_blank {c : Char} (h : c = '+' ∨ c = '-') : isBlank c = false := by
  rcases h with rfl | rfl <;> decide

theorem tail_stop {w t : List Char} {l : List (ℚ × Option (Fin 3))} (h : Tail w l) (ht : Stop t) : Stop (w ++ t) := by
  cases h with
  | nil => exact ht
  | @cons u s t' q k l hu hs hl =>
    obtain ⟨c, r, e, hc⟩ := signed_head hs
    intro d r' e'
    rw [e, List.append_assoc, List.append_assoc, dropWhile_blank_append hu, List.cons_append,
      List.dropWhile_cons_of_neg (by simp [sign_not_blank hc])] at e'
    injection e' with e1
    subst e1
    rcases hc with h | h
    · exact Or.inl h
    · exact Or.inr (Or.inl h)

/-- no further term follows -/
def Halt (t : List Char) : Prop := Stop t ∧ ∃ k u, preceded space0 signedTerm t = .ok (.err k u)

theorem EndC.halt {t : List Char} (ht : EndC t) : Halt t := by
  refine ⟨ht.stop, .oneOf, t.dropWhile isBlank, ?_⟩
  unfold preceded
  rw [andThen_eq (space0_eq t)]
  refine signed_err ?_
  intro c r e hc
  have := ht c r e
  subst this
  exact absurd hc (by decide)

theorem tail_text {w : List Char} {l : List (ℚ × Option (Fin 3))} (h : Tail w l) {t : List Char} (ht : Halt t) :
    ∀ (fuel : Nat) (acc : List Term), (w ++ t).length < fuel →
      ∃ ts : List Term, ts.map specTerm = l ∧
        many0Loop (preceded space0 signedTerm) fuel acc (w ++ t) = .ok (.done t (acc ++ ts)) := by
  induction h with
  | nil =>
    intro fuel acc hf
    refine ⟨[], rfl, ?_⟩
    obtain ⟨k, u, herr⟩ := ht.2
    cases fuel with
    | zero => exact absurd hf (Nat.not_lt_zero _)
    | succ fuel =>
      unfold many0Loop
      rw [List.nil_append, herr]
      simp
  | @cons u s t' q k l hu hs hl ih =>
    intro fuel acc hf
    have e : u ++ s ++ t' ++ t = u ++ (s ++ (t' ++ t)) := by simp
    rw [e] at hf ⊢
    obtain ⟨a, ha, hst⟩ := signed_text hs (tail_stop hl ht.1)
    obtain ⟨c, r, ec, hc⟩ := signed_head hs
    have hp : preceded space0 signedTerm (u ++ (s ++ (t' ++ t))) = .ok (.done (t' ++ t) (q, a)) := by
      unfold preceded
      rw [andThen_eq (space0_append hu ?_), hst]
      intro d r' e'
      rw [ec] at e'; injection e' with e1; subst e1; simp [sign_not_blank hc]
    cases fuel with
    | zero => exact absurd hf (Nat.not_lt_zero _)
    | succ fuel =>
      have hlen : s.length ≥ 1 := by rw [ec]; simp
      obtain ⟨ts, h1, h2⟩ := ih fuel (acc ++ [(q, a)]) (by simp only [List.length_append] at hf ⊢; omega)
      refine ⟨(q, a) :: ts, by simp [h1, specTerm, ha], ?_⟩
      unfold many0Loop
      rw [hp]
      simp only [Outcome.ok_bind]
      rw [if_neg (by simp only [List.length_append]; omega), h2]
      simp

/-! ### The sums -/

theorem numeral_lt {w : List Char} {n : Nat} (h : Numeral w n) : n < 10 ^ 9 := by
  obtain ⟨-, h2, h3, h4⟩ := h
  have : ∀ (w : List Char) (a : Nat), (∀ c ∈ w, '0' ≤ c ∧ c ≤ '9') →
      w.foldl (fun n c => 10 * n + (c.toNat - '0'.toNat)) a + 1 ≤ (a + 1) * 10 ^ w.length := by
    intro w
    induction w with
    | nil => intro a _; simp
    | cons c w ih =>
      intro a hw
      have hc := (hw c (by simp)).2
      have hc' : c.toNat ≤ 57 := by
        have := Char.le_def.1 hc
        exact UInt32.le_iff_toNat_le.1 this
      have h1 := ih (10 * a + (c.toNat - '0'.toNat)) (fun d hd => hw d (by simp [hd]))
      rw [List.foldl_cons, List.length_cons, pow_succ]
      have h0 : '0'.toNat = 48 := rfl
      calc _ ≤ (10 * a + (c.toNat - '0'.toNat) + 1) * 10 ^ w.length := h1
        _ ≤ (10 * (a + 1)) * 10 ^ w.length := by
          apply Nat.mul_le_mul_right
          rw [h0]
          omega
        _ = _ := by ring
  have h5 := this w 0 h3
  rw [← h4] at h5
  have : 10 ^ w.length ≤ 10 ^ 9 := Nat.pow_le_pow_right (by norm_num) h2
  omega

theorem fraction_small {w : List Char} {q : Rat} (h : Fraction w q) : Small q := by
  cases h with
  | @int _ n hn =>
    have := numeral_lt hn
    refine ⟨?_, ?_⟩
    · rw [Rat.num_natCast, Int.natAbs_natCast]; exact this
    · rw [Rat.den_natCast]; norm_num
  | @quot s u v t n d hn hu hv hd h0 =>
    have h1 := numeral_lt hn
    have h2 := numeral_lt hd
    constructor
    · have := Rat.num_dvd (n : ℤ) (b := (d : ℤ)) (by exact_mod_cast h0)
      have e : (((n : ℤ) / (d : ℤ) : ℚ)) = (n : ℚ) / d := by push_cast; rfl
      rw [Rat.divInt_eq_div, e] at this
      rcases Nat.eq_zero_or_pos n with hz | hz
      · subst hz; simp
      · have hle := Nat.le_of_dvd (by simpa using hz) (Int.natAbs_dvd_natAbs.2 this)
        rw [Int.natAbs_natCast] at hle
        omega
    · have := Rat.den_dvd (n : ℤ) (d : ℤ)
      have e : (((n : ℤ) / (d : ℤ) : ℚ)) = (n : ℚ) / d := by push_cast; rfl
      rw [Rat.divInt_eq_div, e] at this
      have hle := Nat.le_of_dvd (Nat.pos_of_ne_zero h0) (Int.natCast_dvd_natCast.1 this)
      omega

theorem unsigned_small {w : List Char} {q : Rat} {k : Option (Fin 3)} (h : Unsigned w q k) : Small q := by
  cases h with
  | times hf => exact fraction_small hf
  | juxt hf => exact fraction_small hf
  | const hf => exact fraction_small hf
  | axis => exact ⟨by norm_num, by norm_num⟩

theorem signed_small {w : List Char} {q : Rat} {k : Option (Fin 3)} (h : Signed w q k) : Small q := by
  cases h with
  | plus _ h => exact unsigned_small h
  | minus _ h =>
    have := unsigned_small h
    exact ⟨by rw [Rat.num_neg_eq_neg_num, Int.natAbs_neg]; exact this.1, by rw [Rat.den_neg_eq_den]; exact this.2⟩

theorem tail_small {w : List Char} {l : List (ℚ × Option (Fin 3))} (h : Tail w l) : ∀ p ∈ l, Small p.1 := by
  induction h with
  | nil => simp
  | cons _ hs _ ih =>
    intro p hp
    rcases List.mem_cons.1 hp with rfl | hp
    · exact signed_small hs
    · exact ih p hp

theorem i32_some {z : Int} (h : z.natAbs < 10 ^ 9) : i32 z = some z := by
  unfold i32
  rw [if_pos (by omega)]

theorem checkedAdd_zero {q : Rat} (h : Small q) : checkedAdd q 0 = some q := by
  have h1 : checkedAdd q 0 ≠ none := by
    unfold checkedAdd
    have e1 : i32 ((q.den / Nat.gcd q.den (0 : ℚ).den * (0 : ℚ).den : Nat) : Int) = some (q.den : Int) := by
      rw [Rat.den_zero, Nat.gcd_one_right, Nat.div_one, Nat.mul_one]
      exact i32_some (by simpa using h.2)
    have hd : (q.den : Int) ≠ 0 := by exact_mod_cast q.den_ne_zero
    have e2 : i32 ((q.den : Int) / q.den * q.num) = some q.num := by
      rw [Int.ediv_self hd, one_mul]; exact i32_some h.1
    have e3 : i32 ((q.den : Int) / (0 : ℚ).den * (0 : ℚ).num) = some 0 := by
      rw [Rat.num_zero, mul_zero]; exact i32_some (by norm_num)
    have e4 : i32 (q.num + 0) = some q.num := by rw [add_zero]; exact i32_some h.1
    simp only [e1, e2, e3, e4, Option.bind_eq_bind, Option.bind_some]
    simp
  obtain ⟨c, hc⟩ := Option.ne_none_iff_exists'.1 h1
  rw [hc, checkedAdd_eq hc, add_zero]

theorem collectLoop_once : ∀ (l : List Term) (rx ry rz s : Rat), Once (l.map specTerm) → (∀ p ∈ l, Small p.1) →
    (some 0 ∈ (l.map specTerm).map Prod.snd → rx = 0) → (some 1 ∈ (l.map specTerm).map Prod.snd → ry = 0) →
    (some 2 ∈ (l.map specTerm).map Prod.snd → rz = 0) → (none ∈ (l.map specTerm).map Prod.snd → s = 0) →
    ∃ c, collectLoop l (rx, ry, rz) s = some c
  | [], _, _, _, _, _, _, _, _, _, _ => ⟨_, rfl⟩
  | (q, a) :: l, rx, ry, rz, s, ho, hs, h0, h1, h2, h3 => by
    have ho' := List.nodup_cons.1 (show (axisIdx a :: (l.map specTerm).map Prod.snd).Nodup from ho)
    have hq := checkedAdd_zero (hs _ (List.mem_cons_self ..))
    have hs' : ∀ p ∈ l, Small p.1 := fun p hp => hs p (List.mem_cons_of_mem _ hp)
    have key : ∀ k, k ∈ (l.map specTerm).map Prod.snd → k ∈ (((q, a) :: l).map specTerm).map Prod.snd := by
      intro k hk; rw [List.map_cons, List.map_cons]; exact List.mem_cons_of_mem _ hk
    have hhd : axisIdx a ∈ (((q, a) :: l).map specTerm).map Prod.snd := by
      rw [List.map_cons, List.map_cons]; exact List.mem_cons_self ..
    cases a with
    | x =>
      unfold collectLoop
      rw [h0 hhd, hq]
      exact collectLoop_once l _ _ _ _ ho'.2 hs' (fun h => absurd h ho'.1) (fun h => h1 (key _ h)) (fun h => h2 (key _ h)) (fun h => h3 (key _ h))
    | y =>
      unfold collectLoop
      rw [h1 hhd, hq]
      exact collectLoop_once l _ _ _ _ ho'.2 hs' (fun h => h0 (key _ h)) (fun h => absurd h ho'.1) (fun h => h2 (key _ h)) (fun h => h3 (key _ h))
    | z =>
      unfold collectLoop
      rw [h2 hhd, hq]
      exact collectLoop_once l _ _ _ _ ho'.2 hs' (fun h => h0 (key _ h)) (fun h => h1 (key _ h)) (fun h => absurd h ho'.1) (fun h => h3 (key _ h))
    | none =>
      unfold collectLoop
      rw [h3 hhd, hq]
      exact collectLoop_once l _ _ _ _ ho'.2 hs' (fun h => h0 (key _ h)) (fun h => h1 (key _ h)) (fun h => h2 (key _ h)) (fun h => absurd h ho'.1)

/-- The sum is computed, or it is out of range and the coordinate is rejected. -/
theorem collect_cases (l : List Term) : collectLoop l (0, 0, 0) 0 = none ∨
    collectLoop l (0, 0, 0) 0 = some (specCoord (l.map specTerm)) := by
  cases h : collectLoop l (0, 0, 0) 0 with
  | none => exact Or.inl rfl
  | some c =>
    have := collectLoop_eq _ _ _ _ _ _ h
    simp only [zero_add] at this
    right
    rw [this]
    rfl

/-- What `coordinate` does on the text of a coordinate. -/
theorem coordinate_text {w t : List Char} {l : List (ℚ × Option (Fin 3))} (h : Coord w l) (ht : Halt t) :
    ∃ ts : List Term, ts.map specTerm = l ∧ (∀ p ∈ ts, Small p.1) ∧
      ((collectLoop ts (0, 0, 0) 0 = none ∧ coordinate (w ++ t) = .ok (.err .mapOpt (w ++ t))) ∨
       coordinate (w ++ t) = .ok (.done t (specCoord l)) ∧ ∃ c, collectLoop ts (0, 0, 0) 0 = some c) := by
  have fin : ∀ {a : Term} {ts : List Term} {s : List Char}, (∀ p ∈ ts, Small p.1) → Small a.1 →
      pair term (many0 (preceded space0 signedTerm)) s = .ok (.done t (a, ts)) →
      ((collectLoop (a :: ts) (0, 0, 0) 0 = none ∧ coordinate s = .ok (.err .mapOpt s)) ∨
       coordinate s = .ok (.done t (specCoord ((a :: ts).map specTerm))) ∧ ∃ c, collectLoop (a :: ts) (0, 0, 0) 0 = some c) := by
    intro a ts s _ _ hp
    rcases collect_cases (a :: ts) with h | h
    · exact Or.inl ⟨h, mapOpt_none hp (by rw [collectTerms, h])⟩
    · exact Or.inr ⟨mapOpt_eq hp (by rw [collectTerms, h]), _, h⟩
  cases h with
  | @unsigned s t' q k l hu hl =>
    obtain ⟨a, ha, e1⟩ := unsigned_text hu (tail_stop hl ht.1)
    obtain ⟨ts, h1, h2⟩ := tail_text hl ht ((t' ++ t).length + 1) [] (by omega)
    have hsm : ∀ p ∈ ts, Small p.1 := by
      intro p hp
      have : specTerm p ∈ l := h1 ▸ List.mem_map_of_mem hp
      exact tail_small hl _ this
    have hterm : term (s ++ (t' ++ t)) = .ok (.done (t' ++ t) (q, a)) := by
      unfold term
      obtain ⟨c, r, ec, -, c1, c2, -⟩ := unsigned_head hu
      rw [orElse_right (signed_err ?_), e1]
      intro d r' e' hd
      rw [ec] at e'; injection e' with e2; subst e2
      rcases hd with hd | hd
      · exact c1 hd
      · exact c2 hd
    have hp : pair term (many0 (preceded space0 signedTerm)) (s ++ t' ++ t) = .ok (.done t ((q, a), ts)) := by
      rw [List.append_assoc]
      unfold pair
      rw [andThen_eq hterm, andThen_eq (show many0 (preceded space0 signedTerm) (t' ++ t) = .ok (.done t ts) from h2)]
      rfl
    have := fin hsm (unsigned_small hu) hp
    refine ⟨(q, a) :: ts, by simp [specTerm, ha, h1], ?_, ?_⟩
    · intro p hp
      rcases List.mem_cons.1 hp with rfl | hp
      · exact unsigned_small hu
      · exact hsm p hp
    · have e : ((q, a) :: ts).map specTerm = (q, k) :: l := by simp [specTerm, ha, h1]
      rw [e] at this
      exact this
  | @signed s t' q k l hu hl =>
    obtain ⟨a, ha, e1⟩ := signed_text hu (tail_stop hl ht.1)
    obtain ⟨ts, h1, h2⟩ := tail_text hl ht ((t' ++ t).length + 1) [] (by omega)
    have hsm : ∀ p ∈ ts, Small p.1 := by
      intro p hp
      have : specTerm p ∈ l := h1 ▸ List.mem_map_of_mem hp
      exact tail_small hl _ this
    have hp : pair term (many0 (preceded space0 signedTerm)) (s ++ t' ++ t) = .ok (.done t ((q, a), ts)) := by
      rw [List.append_assoc]
      unfold pair
      rw [andThen_eq (show term (s ++ (t' ++ t)) = _ from orElse_left e1),
        andThen_eq (show many0 (preceded space0 signedTerm) (t' ++ t) = .ok (.done t ts) from h2)]
      rfl
    have := fin hsm (signed_small hu) hp
    refine ⟨(q, a) :: ts, by simp [specTerm, ha, h1], ?_, ?_⟩
    · intro p hp
      rcases List.mem_cons.1 hp with rfl | hp
      · exact signed_small hu
      · exact hsm p hp
    · have e : ((q, a) :: ts).map specTerm = (q, k) :: l := by simp [specTerm, ha, h1]
      rw [e] at this
      exact this

theorem coordinate_once {w t : List Char} {l : List (ℚ × Option (Fin 3))} (h : Coord w l) (ho : Once l) (ht : Halt t) :
    coordinate (w ++ t) = .ok (.done t (specCoord l)) := by
  obtain ⟨ts, h1, h2, h3⟩ := coordinate_text h ht
  rcases h3 with ⟨h3, -⟩ | ⟨h3, -⟩
  · obtain ⟨c, hc⟩ := collectLoop_once ts 0 0 0 0 (h1 ▸ ho) h2 (fun _ => rfl) (fun _ => rfl) (fun _ => rfl) (fun _ => rfl)
    rw [hc] at h3
    cases h3
  · exact h3

theorem coord_head {w : List Char} {l : List (ℚ × Option (Fin 3))} (h : Coord w l) :
    ∃ c r, w = c :: r ∧ isBlank c = false ∧ c ≠ ',' := by
  cases h with
  | unsigned hu hl =>
    obtain ⟨c, r, e, h1, -, -, h2⟩ := unsigned_head hu
    exact ⟨c, _, by rw [e]; rfl, h1, h2⟩
  | signed hu hl =>
    obtain ⟨c, r, e, h1⟩ := signed_head hu
    refine ⟨c, _, by rw [e]; rfl, sign_not_blank h1, ?_⟩
    rcases h1 with rfl | rfl <;> decide

theorem blank_endC {t : List Char} (h : Blank t) : EndC t := by
  intro c r e
  have := dropWhile_blank_append (t := []) h
  rw [List.append_nil] at this
  rw [this] at e
  cases e

theorem more_halt {w t : List Char} {ls : List (List (ℚ × Option (Fin 3)))} (h : More w ls) (ht : Halt t) : Halt (w ++ t) := by
  cases h with
  | nil => exact ht
  | @cons u v s t' l ls hu hv hc hm =>
    refine EndC.halt ?_
    intro c r e
    have e1 : u ++ ',' :: v ++ s ++ t' ++ t = u ++ ',' :: (v ++ s ++ t' ++ t) := by simp
    rw [e1, dropWhile_blank_append hu, List.dropWhile_cons_of_neg (by decide)] at e
    injection e with e1
    exact e1.symm

/-- no further coordinate follows -/
def Close (t : List Char) : Prop :=
  ∀ (fuel : Nat) (acc : List Coordinate), sepLoop comma coordinate (fuel + 1) acc t = .ok (.done t acc)

theorem close_of_comma {t : List Char} {k : Kind} {u : List Char} (h : comma t = .ok (.err k u)) : Close t := by
  intro fuel acc
  unfold sepLoop
  rw [h]
  simp

theorem blank_close {t : List Char} (ht : Blank t) : Close t := by
  have : comma t = .ok (.err .char (t.dropWhile isBlank)) := by
    refine sep_err ?_
    intro d r e
    have := dropWhile_blank_append (t := []) ht
    rw [List.append_nil] at this
    rw [this] at e
    cases e
  exact close_of_comma this

theorem more_text {w : List Char} {ls : List (List (ℚ × Option (Fin 3)))} (h : More w ls) (ho : ∀ l ∈ ls, Once l) {t : List Char}
    (ht : Halt t) (hcl : Close t) : ∀ (fuel : Nat) (acc : List Coordinate), (w ++ t).length < fuel →
      sepLoop comma coordinate fuel acc (w ++ t) = .ok (.done t (acc ++ ls.map specCoord)) := by
  induction h with
  | nil =>
    intro fuel acc hf
    cases fuel with
    | zero => exact absurd hf (Nat.not_lt_zero _)
    | succ fuel =>
      rw [List.nil_append, hcl]
      simp
  | @cons u v s t' l ls hu hv hc hm ih =>
    intro fuel acc hf
    have e1 : u ++ ',' :: v ++ s ++ t' ++ t = u ++ ',' :: v ++ (s ++ (t' ++ t)) := by simp
    rw [e1] at hf ⊢
    obtain ⟨c, r, ec, hb, -⟩ := coord_head hc
    have hcm : comma (u ++ ',' :: v ++ (s ++ (t' ++ t))) = .ok (.done (s ++ (t' ++ t)) ()) := by
      refine sep_text (by decide) hu hv ?_
      intro d r' e' hd
      rw [ec] at e'; injection e' with e2; subst e2; simp [hb] at hd
    have hco := coordinate_once hc (ho l (by simp)) (more_halt hm ht)
    cases fuel with
    | zero => exact absurd hf (Nat.not_lt_zero _)
    | succ fuel =>
      unfold sepLoop
      rw [hcm]
      simp only [Outcome.ok_bind]
      rw [if_neg (by simp only [List.length_append, List.length_cons]; omega), hco]
      simp only [Outcome.ok_bind]
      rw [ih (fun l hl => ho l (by simp [hl])) fuel _ (by simp only [List.length_append, List.length_cons] at hf ⊢; omega)]
      simp

theorem operator_more {w : List Char} {ls : List (List (ℚ × Option (Fin 3)))} (h : Operator w ls) :
    ∃ s m l ls', w = s ++ m ∧ ls = l :: ls' ∧ Coord s l ∧ More m ls' := by
  induction h with
  | single hc => exact ⟨_, [], _, [], by simp, rfl, hc, .nil⟩
  | @cons s u v t l ls hc hu hv ho ih =>
    obtain ⟨s', m, l', ls', e1, e2, hc', hm⟩ := ih
    refine ⟨s, u ++ ',' :: v ++ s' ++ m, l, l' :: ls', by rw [e1]; simp, by rw [e2], hc, .cons hu hv hc' hm⟩

/-- What `parse_operator` does on a first coordinate, further coordinates and something that is neither a further
term nor a further coordinate. -/
theorem parseOperator_prefix {u s m t : List Char} {l : List (ℚ × Option (Fin 3))} {ls : List (List (ℚ × Option (Fin 3)))}
    (hu : Blank u) (hc : Coord s l) (hm : More m ls) (ho : ∀ l' ∈ l :: ls, Once l') (ht : Halt t) (hcl : Close t) :
    parseOperator (u ++ (s ++ (m ++ t))) = .ok (.parsed (t.dropWhile isBlank) ((l :: ls).map (row (ls.length + 1)))
      ((l :: ls).map (fun l => coefficient l none))) := by
  obtain ⟨c, r, ec, hb, -⟩ := coord_head hc
  have h1 : space0 (u ++ (s ++ (m ++ t))) = .ok (.done (s ++ (m ++ t)) ()) := by
    refine space0_append hu ?_
    intro d r' e'
    rw [ec] at e'; injection e' with e3; subst e3; simp [hb]
  have h2 : operator (s ++ (m ++ t)) = .ok (.done t ((l :: ls).map specCoord)) := by
    unfold operator separatedList1
    rw [coordinate_once hc (ho l (by simp)) (more_halt hm ht)]
    simp only [Outcome.ok_bind]
    rw [more_text hm (fun l hl => ho l (by simp [hl])) ht hcl _ _ (by omega)]
    simp
  have h4 : delimited space0 operator space0 (u ++ (s ++ (m ++ t))) = .ok (.done (t.dropWhile isBlank) ((l :: ls).map specCoord)) := by
    unfold delimited
    rw [andThen_eq h1, andThen_eq h2, andThen_eq (space0_eq t)]
    rfl
  unfold parseOperator
  rw [h4]
  simp only [Outcome.ok_bind, convert_spec]
  rfl

theorem parseOperator_complete {u w v : List Char} {ls : List (List (ℚ × Option (Fin 3)))} (hu : Blank u) (hv : Blank v)
    (h : Operator w ls) (ho : ∀ l ∈ ls, Once l) :
    parseOperator (u ++ w ++ v) = .ok (.parsed [] (ls.map (row ls.length)) (ls.map (fun l => coefficient l none))) := by
  obtain ⟨s, m, l, ls', e1, e2, hc, hm⟩ := operator_more h
  have h1 := parseOperator_prefix hu hc hm (e2 ▸ ho) (blank_endC hv).halt (blank_close hv)
  have e3 : u ++ w ++ v = u ++ (s ++ (m ++ v)) := by rw [e1]; simp
  have e4 : v.dropWhile isBlank = [] := by
    have := dropWhile_blank_append (t := []) hv
    rwa [List.append_nil] at this
  rw [e3, h1, e4, e2]
  rfl

end Systre.ParseOperator
