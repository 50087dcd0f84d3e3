import Verif.Lemmas.CgdFields

/-! # Lines that are not read to the end: errors and panics -/

namespace Systre.Cgd
open Nom OpText CgdText
open ParseOperator (NoHead isDig_iff isBlank_iff takeWhile_text char_done char_text char_err space0_done space0_append
  space0_eq)

variable {D : Type} {F : Floats D}

theorem fraction_cases (s : List Char) :
    ((∃ t q, fraction s = .ok (.done t q)) ∨ ∃ k u, fraction s = .ok (.err k u)) ∨
    (fraction s = .panic ∧ ZeroFraction s) := by
  unfold fraction
  rcases integer_total s with ⟨t, z, hz⟩ | ⟨k, u, hz⟩
  · by_cases hs : NoHead (fun c => c = '/') t
    · refine Or.inl (Or.inr ⟨.char, t, mapOpt_err ?_⟩)
      unfold separatedPair
      rw [andThen_eq hz, andThen_err (char_err hs)]
    · unfold NoHead at hs
      push Not at hs
      obtain ⟨c, r, rfl, rfl⟩ := hs
      rcases unsigned_total r with ⟨v, d, hd⟩ | ⟨k, u, hd⟩
      · have hp : separatedPair integer (char '/') unsignedInteger s = .ok (.done v (z, d)) := by
          unfold separatedPair
          rw [andThen_eq hz, andThen_eq (char_text _ _), andThen_eq hd]
          rfl
        by_cases h0 : ((d : ℕ) : ℤ) = 0
        · right
          have hd0 : d = 0 := by exact_mod_cast h0
          subst hd0
          refine ⟨?_, ?_⟩
          · unfold mapOpt
            rw [hp]
            rfl
          · obtain ⟨b, rfl, hb, hdig⟩ := ParseOperator.integer_done hd
            obtain ⟨⟨a, n, e, ha, -⟩ | ⟨a, n, e, ha, -⟩, -⟩ := integer_done' hz
            · exact ⟨[], a, b, v, n, by rw [e]; simp, Or.inl rfl, ha, hb, fun c r e h => hdig c r e (isDig_iff.2 h)⟩
            · exact ⟨['-'], a, b, v, n, by rw [e]; simp, Or.inr rfl, ha, hb, fun c r e h => hdig c r e (isDig_iff.2 h)⟩
        · refine Or.inl (Or.inl ⟨v, (z : ℚ) / ((d : ℕ) : ℤ), mapOpt_eq hp ?_⟩)
          unfold ParseOperator.ratioNew
          dsimp only
          rw [if_neg h0]
          rfl
      · refine Or.inl (Or.inr ⟨k, u, mapOpt_err ?_⟩)
        unfold separatedPair
        rw [andThen_eq hz, andThen_eq (char_text _ _), andThen_err hd]
  · exact Or.inl (Or.inr ⟨k, u, mapOpt_err (andThen_err hz)⟩)

theorem zeroFraction_panic {s : List Char} (h : ZeroFraction s) : fraction s = .panic := by
  obtain ⟨g, a, b, t, n, rfl, hg, ha, hb, ht⟩ := h
  have key : ∀ s z, integer s = .ok (.done ('/' :: (b ++ t)) z) → fraction s = .panic := by
    intro s z hz
    have hp : separatedPair integer (char '/') unsignedInteger s = .ok (.done t (z, 0)) := by
      unfold separatedPair
      rw [andThen_eq hz, andThen_eq (char_text _ _)]
      have : unsignedInteger (b ++ t) = .ok (.done t 0) := ParseOperator.integer_text hb (fun c r e h => ht c r e (isDig_iff.1 h))
      rw [andThen_eq this]
      rfl
    unfold fraction mapOpt
    rw [hp]
    rfl
  have h1 : unsignedInteger (a ++ '/' :: (b ++ t)) = .ok (.done ('/' :: (b ++ t)) n) :=
    ParseOperator.integer_text ha (numeral_noDig_slash _)
  rcases hg with rfl | rfl
  · have e : [] ++ a ++ '/' :: b ++ t = a ++ '/' :: (b ++ t) := by simp
    rw [e]
    exact key _ _ (orElse_left (mapOpt_eq h1 rfl))
  · have e : ['-'] ++ a ++ '/' :: b ++ t = '-' :: (a ++ '/' :: (b ++ t)) := by simp
    rw [e]
    refine key _ (-(n : ℤ)) ?_
    have h2 : digit1 ('-' :: (a ++ '/' :: (b ++ t))) = .ok (.err .digit ('-' :: (a ++ '/' :: (b ++ t)))) := by
      apply digit1_err
      intro c r e hc
      injection e with e1
      subst e1
      exact absurd hc (by decide)
    have h3 : unsignedInteger ('-' :: (a ++ '/' :: (b ++ t))) = .ok (.err .digit ('-' :: (a ++ '/' :: (b ++ t)))) := mapOpt_err h2
    unfold integer
    rw [orElse_right (mapOpt_err h3)]
    refine mapOpt_eq (a := n) ?_ rfl
    unfold preceded
    rw [andThen_eq (char_text _ _)]
    exact h1

theorem bad_floatText {s : List Char} (h : BadExponent s) : floatText s = .ok (.fail .float s) := by
  obtain ⟨g, m, c, h', t, rfl, hg, hm, hc, hh, h1, h2⟩ := h
  have e : g ++ m ++ c :: h' ++ t = g ++ (m ++ (c :: (h' ++ t))) := by simp
  rw [e]
  have hE : isDig c = false ∧ c ≠ '.' := by rcases hc with rfl | rfl <;> decide
  obtain ⟨o, ho⟩ := signP_text hg (fun _ => mantissa_head (t := c :: (h' ++ t)) hm)
  have hmt := mantissaP_text (t := c :: (h' ++ t)) hm (fun d r e hd => by
      injection e with e1
      subst e1
      rw [hE.1] at hd; cases hd) (fun d r e hd => by
      injection e with e1
      subst e1
      exact hE.2 hd)
  obtain ⟨o2, ho2⟩ := signP_text (t := t) hh (fun e d r e2 hd => by
    have := h2 e d r e2
    rcases hd with hd | hd
    · exact this.1 hd
    · exact this.2 hd)
  have hx : expP (c :: (h' ++ t)) = .ok (.fail .digit t) := by
    refine opt_of_fail ?_
    rw [andThen_eq (eP_text hc _), andThen_eq ho2]
    exact cut_of_err (digit1_err (fun d r e hd => h1 d r e (isDig_iff.1 hd)))
  have hr : recognizeFloat (g ++ (m ++ (c :: (h' ++ t)))) = .ok (.fail .digit t) := by
    unfold recognizeFloat recognize
    rw [andThen_eq ho, andThen_eq hmt, andThen_fail hx]
    rfl
  unfold floatText
  exact orElse_fail (floatErr_fail hr)

theorem bad_fraction {s : List Char} (h : BadExponent s) : ∃ k u, fraction s = .ok (.err k u) := by
  obtain ⟨g, m, c, h', t, rfl, hg, hm, hc, -, -, -⟩ := h
  rcases integer_total (g ++ m ++ c :: h' ++ t) with ⟨t', z, hz⟩ | ⟨k, u, hz⟩
  · refine ⟨.char, t', mapOpt_err ?_⟩
    unfold separatedPair
    rw [andThen_eq hz, andThen_err (char_err ?_)]
    rintro d r rfl rfl
    have hEd : ¬ ('0' ≤ c ∧ c ≤ '9') ∧ c ≠ '-' ∧ c ≠ '/' := by rcases hc with rfl | rfl <;> decide
    obtain ⟨⟨a, n, e, ha, -⟩ | ⟨a, n, e, ha, -⟩, -⟩ := integer_done' hz
    all_goals
      have e2 := e
      rw [show g ++ m ++ c :: h' ++ t = (g ++ m ++ [c]) ++ (h' ++ t) by simp] at e2
      rcases List.append_eq_append_iff.1 e2 with ⟨x, hx, -⟩ | ⟨x, hx, hy⟩
      · have hca : c ∈ g ++ m ++ [c] ++ x := by simp
        rw [← hx] at hca
        first
          | exact hEd.1 (ha.2.2.1 c hca)
          | rcases List.mem_cons.1 hca with h | h
            · exact hEd.2.1 h
            · exact hEd.1 (ha.2.2.1 c h)
      · cases x with
        | nil =>
          rw [List.append_nil] at hx
          have hca : c ∈ g ++ m ++ [c] := by simp
          rw [hx] at hca
          first
            | exact hEd.1 (ha.2.2.1 c hca)
            | rcases List.mem_cons.1 hca with h | h
              · exact hEd.2.1 h
              · exact hEd.1 (ha.2.2.1 c h)
        | cons y x =>
          injection hy with hy1
          have hs : '/' ∈ g ++ m ++ [c] := by rw [hx, hy1]; simp
          rcases List.mem_append.1 hs with hs | hs
          · rcases List.mem_append.1 hs with hs | hs
            · exact absurd (sign_numChar hg _ hs) (by decide)
            · exact absurd (mantissa_numChar hm _ hs) (by decide)
          · exact hEd.2.2 (List.mem_singleton.1 hs).symm
  · exact ⟨k, u, mapOpt_err (andThen_err hz)⟩

theorem field_bad {s : List Char} (h : BadExponent s) : field F s = .ok (.fail .float s) := by
  obtain ⟨k, u, h1⟩ := bad_fraction h
  have h2 : mapOpt floatText (fun w => .ok (some (doubleToField F w))) s = .ok (.fail .float s) := by
    unfold mapOpt
    rw [bad_floatText h]
    rfl
  unfold field
  rw [orElse_right (mapOpt_err h1), orElse_fail h2]

theorem field_zero {s : List Char} (h : ZeroFraction s) : field F s = .panic := by
  unfold field orElse mapOpt
  rw [zeroFraction_panic h]
  rfl

theorem field_rest_ok (s : List Char) : ∃ r, (orElse (mapOpt floatText (fun w => .ok (some (doubleToField F w))))
      (orElse (mapOpt quotedString (fun s => .ok (some (Field.name s))))
        (mapOpt name (fun s => .ok (some (Field.name (D := D) s)))))) s = .ok r := by
  have hP : ∀ s t : List Char, True → t <:+ s → True := fun _ _ _ _ => trivial
  have hft : Safe (fun _ => True) floatText := by
    intro s _
    rcases floatText_total s with ⟨w, t, e, -, h⟩ | ⟨-, h⟩ | ⟨u, h⟩
    · refine ⟨_, h, fun t' a h => ?_⟩
      injection h with e1
      subst e1
      exact ⟨w, e.symm⟩
    · exact ⟨_, h, by simp⟩
    · exact ⟨_, h, by simp⟩
  have htu : Safe (fun _ => True) (takeUntil1 '"') := by
    intro s _
    unfold takeUntil1
    split_ifs
    · refine ⟨_, rfl, fun t' a h => ?_⟩
      injection h with e1
      subst e1
      exact List.dropWhile_suffix _
    · exact ⟨_, rfl, by simp⟩
  have hn : Safe (fun _ => True) name := safe_takeTill1 _
  obtain ⟨r, h, -⟩ := (safe_orElse (safe_mapOpt' hft)
      (safe_orElse (safe_mapOpt' (safe_delimited hP (safe_char _) htu (safe_char _))) (safe_mapOpt' hn)) :
      Safe (fun _ => True) (orElse (mapOpt floatText (fun w => .ok (some (doubleToField F w))))
      (orElse (mapOpt quotedString (fun s => .ok (some (Field.name s))))
        (mapOpt name (fun s => .ok (some (Field.name (D := D) s))))))) s trivial
  exact ⟨r, h⟩

theorem field_outcome (s : List Char) : (∃ r, field F s = .ok r) ∨ (field F s = .panic ∧ ZeroFraction s) := by
  rcases fraction_cases s with (⟨t, q, h⟩ | ⟨k, u, h⟩) | ⟨h, h2⟩
  · exact Or.inl ⟨_, orElse_left (mapOpt_eq h rfl)⟩
  · left
    unfold field
    rw [orElse_right (mapOpt_err h)]
    exact field_rest_ok s
  · exact Or.inr ⟨field_zero h2, h2⟩

/-- how the list of fields stops other than by returning -/
inductive Stops (F : Floats D) (t : List Char) : Outcome (Res (List (Field D))) → Prop
  | fail : BadExponent t → Stops F t (.ok (.fail .float t))
  | panic : ZeroFraction t → Stops F t .panic

theorem sepLoop_cases : ∀ (fuel : Nat) (acc : List (Field D)) (s : List Char), s.length < fuel →
    (∃ t l, sepLoop space1 (field F) fuel acc s = .ok (.done t l)) ∨
    ∃ x fs b t, s = x ++ b ++ t ∧ More (Word F) x fs ∧ Blank b ∧ b ≠ [] ∧ Stops F t (sepLoop space1 (field F) fuel acc s) := by
  intro fuel
  induction fuel with
  | zero => intro acc s h; omega
  | succ fuel ih =>
    intro acc s hl
    rw [sepLoop_succ]
    rcases space1_total s with ⟨u, h1⟩ | h1
    · rw [h1]
      obtain ⟨b, hb, hb0, rfl⟩ := space1_done h1
      dsimp only
      rcases field_outcome (F := F) u with ⟨r, h2⟩ | ⟨h2, h3⟩
      · rw [h2]
        cases r with
        | done v f =>
          obtain ⟨w, rfl, hw⟩ := field_done_word h2
          have : v.length < fuel := by
            have := List.length_pos_iff.2 hb0
            simp only [List.length_append] at hl
            omega
          rcases ih (acc ++ [f]) v this with ⟨t, l, h⟩ | ⟨x, fs, b', t, rfl, hx, hb', hb0', hst⟩
          · exact Or.inl ⟨t, l, h⟩
          · exact Or.inr ⟨b ++ w ++ x, f :: fs, b', t, by simp, .cons hb hb0 hw hx, hb', hb0', hst⟩
        | err k v => exact Or.inl ⟨_, _, rfl⟩
        | fail k v =>
          obtain ⟨h3, h4, h5⟩ := field_fail h2
          subst h3 h4
          exact Or.inr ⟨[], [], b, v, rfl, .nil, hb, hb0, .fail h5⟩
      · rw [h2]
        exact Or.inr ⟨[], [], b, u, rfl, .nil, hb, hb0, .panic h3⟩
    · rw [h1]
      exact Or.inl ⟨_, _, rfl⟩

/-- the fields before a stop -/
def Upto (F : Floats D) (s : List Char) (l : List (Field D)) (t : List Char) : Prop :=
  (s = t ∧ l = []) ∨ ∃ c b, s = c ++ b ++ t ∧ Blank b ∧ b ≠ [] ∧ Fields (Word F) c l

theorem listP_cases (s : List Char) : (∃ t l, listP F s = .ok (.done t l)) ∨
    ∃ t l, Upto F s l t ∧ Stops F t (listP F s) := by
  unfold listP separatedList0
  rcases field_outcome (F := F) s with ⟨r, h2⟩ | ⟨h2, h3⟩
  · rw [h2]
    cases r with
    | done v f =>
      change (∃ t l, sepLoop space1 (field F) (v.length + 1) [f] v = .ok (.done t l)) ∨ ∃ t l, Upto F s l t ∧
        Stops F t (sepLoop space1 (field F) (v.length + 1) [f] v)
      obtain ⟨w, rfl, hw⟩ := field_done_word h2
      rcases sepLoop_cases (F := F) (v.length + 1) [f] v (by omega) with ⟨t, l, h⟩ | ⟨x, fs, b, t, rfl, hx, hb, hb0, hst⟩
      · exact Or.inl ⟨t, l, h⟩
      · exact Or.inr ⟨t, f :: fs, Or.inr ⟨w ++ x, b, by simp, hb, hb0, hx.fields hw⟩, hst⟩
    | err k v => exact Or.inl ⟨_, _, rfl⟩
    | fail k v =>
      obtain ⟨h3, h4, h5⟩ := field_fail h2
      subst h3 h4
      exact Or.inr ⟨v, [], Or.inl ⟨rfl, rfl⟩, .fail h5⟩
  · rw [h2]
    exact Or.inr ⟨s, [], Or.inl ⟨rfl, rfl⟩, .panic h3⟩

theorem stops_field {t : List Char} {o : Outcome (Res (List (Field D)))} (h : Stops F t o) :
    (o = .ok (.fail .float t) ∧ field F t = .ok (.fail .float t)) ∨ (o = .panic ∧ field F t = .panic) := by
  cases h with
  | fail h => exact Or.inl ⟨rfl, field_bad h⟩
  | panic h => exact Or.inr ⟨rfl, field_zero h⟩

/-- a bad number does not begin with a blank, a letter or `#` -/
theorem stops_head {t : List Char} {o : Outcome (Res (List (Field D)))} (h : Stops F t o) :
    ∃ c r, t = c :: r ∧ isBlank c = false ∧ isLetter c = false := by
  have dig : ∀ c, '0' ≤ c ∧ c ≤ '9' → isBlank c = false ∧ isLetter c = false := by
    intro c hc
    have h1 : 48 ≤ c.toNat := hc.1
    have h2 : c.toNat ≤ 57 := hc.2
    have e : c = Char.ofNat c.toNat := (Char.ofNat_toNat c).symm
    generalize c.toNat = n at *
    subst e
    clear hc
    interval_cases n <;> decide
  have digs : ∀ a x, Digits a → ∃ c r, a ++ x = c :: r ∧ isBlank c = false ∧ isLetter c = false := by
    rintro a x ⟨h1, h2⟩
    cases a with
    | nil => exact absurd rfl h1
    | cons c a => exact ⟨c, a ++ x, rfl, dig c (h2 c (by simp))⟩
  have man : ∀ m x, Mantissa m → ∃ c r, m ++ x = c :: r ∧ isBlank c = false ∧ isLetter c = false := by
    intro m x hm
    cases hm with
    | int ha => exact digs _ _ ha
    | point ha => rw [List.append_assoc]; exact digs _ _ ha
    | decimal ha hb => rw [List.append_assoc]; exact digs _ _ ha
    | fraction hb => exact ⟨'.', _, rfl, by decide, by decide⟩
  cases h with
  | fail h =>
    obtain ⟨g, m, c, h', t, rfl, hg, hm, -⟩ := h
    rcases hg with rfl | rfl | rfl
    · obtain ⟨c', r, e, h⟩ := man m (c :: h' ++ t) hm
      exact ⟨c', r, by rw [← e]; simp, h⟩
    · exact ⟨'+', _, rfl, by decide, by decide⟩
    · exact ⟨'-', _, rfl, by decide, by decide⟩
  | panic h =>
    obtain ⟨g, a, b, t, n, rfl, hg, ha, -⟩ := h
    rcases hg with rfl | rfl
    · obtain ⟨c', r, e, h⟩ := digs a ('/' :: b ++ t) (numeral_digits ha)
      exact ⟨c', r, by rw [← e]; simp, h⟩
    · exact ⟨'-', _, rfl, by decide, by decide⟩

theorem listP_stops {s t : List Char} {l : List (Field D)} {o : Outcome (Res (List (Field D)))} (h : Upto F s l t)
    (ho : Stops F t o) : listP F s = o := by
  unfold listP separatedList0
  rcases h with ⟨rfl, -⟩ | ⟨c, b, rfl, hb, hb0, hc⟩
  · rcases stops_field ho with ⟨rfl, h⟩ | ⟨rfl, h⟩ <;> rw [h] <;> rfl
  · obtain ⟨w, f, x, gs, rfl, rfl, hw, hx⟩ := fields_more hc
    have hend : FieldEnd (b ++ t) := by
      intro c r e
      cases b with
      | nil => exact absurd rfl hb0
      | cons d b =>
        injection e with e1
        subst e1
        exact Or.inl (isBlank_iff.2 (hb d (by simp)))
    have e : w ++ x ++ b ++ t = w ++ (x ++ (b ++ t)) := by simp
    rw [e, field_text hw (more_end hx hend)]
    change sepLoop space1 (field F) ((x ++ (b ++ t)).length + 1) [f] (x ++ (b ++ t)) = _
    have hl := more_length hx
    have e : (x ++ (b ++ t)).length + 1 = (x.length - gs.length + (b ++ t).length) + 1 + gs.length := by
      rw [List.length_append]; omega
    obtain ⟨d, r, rfl, hd, -⟩ := stops_head ho
    rw [e, sepLoop_text hx _ _ _ hend, sepLoop_succ, space1_text hb hb0 (fun c q e hc => by
      injection e with e1
      subst e1
      rw [hd] at hc; cases hc)]
    dsimp only
    rcases stops_field ho with ⟨rfl, h⟩ | ⟨rfl, h⟩ <;> rw [h]

/-- the content before a stop -/
def UptoLine (F : Floats D) (s : List Char) (l : List (Field D)) (t : List Char) : Prop :=
  ∃ c b, s = c ++ b ++ t ∧ Blank b ∧ (c = [] ∧ b = [] ∨ b ≠ []) ∧ Content Key (Word F) c l

theorem separatedPair_stops {s u v : List Char} {k : List Char} {o : Outcome (Res (List (Field D)))} {t : List Char}
    (h1 : key s = .ok (.done u k)) (h2 : space1 u = .ok (.done v ())) (h3 : listP F v = o) (ho : Stops F t o) :
    lineContent F s = o := by
  have h3 : separatedList0 space1 (field F) v = o := h3
  unfold lineContent orElse mapOpt separatedPair
  rw [andThen_eq h1, andThen_eq h2]
  unfold andThen
  rw [h3]
  cases ho <;> rfl

theorem lineContent_nokey {s u : List Char} {k : Kind} (h1 : key s = .ok (.err k u)) :
    lineContent F s = listP F s := by
  have hsp := andThen_err (f := fun a => andThen space1 fun _ => andThen (separatedList0 space1 (field F)) fun c => ret (a, c)) h1
  change separatedPair key space1 (separatedList0 space1 (field F)) _ = _ at hsp
  unfold lineContent
  rw [orElse_right (mapOpt_err hsp), orElse_right (mapOpt_err h1)]

theorem lineContent_cases (s : List Char) : (∃ t l, lineContent F s = .ok (.done t l)) ∨
    ∃ t l, UptoLine F s l t ∧ Stops F t (lineContent F s) := by
  have hnil : Blank [] := by intro c hc; cases hc
  rcases key_total s with ⟨u, k, h1⟩ | ⟨⟨k, u, h1⟩, hl⟩
  · obtain ⟨rfl, hk⟩ := key_done h1
    rcases space1_total u with ⟨v, h2⟩ | h2
    · obtain ⟨b, hb, hb0, rfl⟩ := space1_done h2
      rcases listP_cases (F := F) v with ⟨t, l, h3⟩ | ⟨t, l, h3, h4⟩
      · refine Or.inl ⟨t, .key k :: l, orElse_left (mapOpt_eq (a := (k, l)) ?_ rfl)⟩
        have h3 : separatedList0 space1 (field F) v = .ok (.done t l) := h3
        unfold separatedPair
        rw [andThen_eq h1, andThen_eq h2, andThen_eq h3]
        rfl
      · right
        rw [separatedPair_stops h1 h2 rfl h4]
        rcases h3 with ⟨rfl, rfl⟩ | ⟨c, b', rfl, hb', hb0', hc⟩
        · exact ⟨v, [.key k], ⟨k, b, by simp, hb, Or.inr hb0, .key hk⟩, h4⟩
        · exact ⟨t, .key k :: l, ⟨k ++ b ++ c, b', by simp, hb', Or.inr hb0', .keyed hk hb hb0 hc⟩, h4⟩
    · left
      have : separatedPair key space1 (separatedList0 space1 (field F)) (k ++ u) = .ok (.err .space u) := by
        unfold separatedPair
        rw [andThen_eq h1, andThen_err h2]
      refine ⟨u, [.key k], ?_⟩
      unfold lineContent
      rw [orElse_right (mapOpt_err this)]
      exact orElse_left (mapOpt_eq h1 rfl)
  · rw [lineContent_nokey h1]
    rcases listP_cases (F := F) s with ⟨t, l, h3⟩ | ⟨t, l, h3, h4⟩
    · exact Or.inl ⟨t, l, h3⟩
    · refine Or.inr ⟨t, l, ?_, h4⟩
      rcases h3 with ⟨rfl, rfl⟩ | ⟨c, b', rfl, hb', hb0', hc⟩
      · exact ⟨[], [], rfl, hnil, Or.inl ⟨rfl, rfl⟩, .empty⟩
      · refine ⟨c, b', rfl, hb', Or.inr hb0', .fields hc ?_⟩
        rintro d r rfl hd
        have := hl d (r ++ b' ++ t) rfl
        rw [letter_iff.2 hd] at this
        cases this

theorem lineContent_stops {s t : List Char} {l : List (Field D)} {o : Outcome (Res (List (Field D)))} (h : UptoLine F s l t)
    (hs : NoHead (fun c => isBlank c = true) s) (ho : Stops F t o) : lineContent F s = o := by
  obtain ⟨c, b, rfl, hb, hcb, hc⟩ := h
  obtain ⟨d, r, rfl, hd, hdl⟩ := stops_head ho
  have hnokey : (∀ e q, c ++ b ++ d :: r = e :: q → isLetter e = false) → ∃ k u, key (c ++ b ++ d :: r) = .ok (.err k u) := by
    intro hl
    rcases key_total (c ++ b ++ d :: r) with ⟨u, k, h1⟩ | ⟨h1, -⟩
    · obtain ⟨e, ⟨-, e', r', rfl, hl'⟩, -⟩ := key_done h1
      have := hl e' (r' ++ u) e
      rw [letter_iff.2 hl'] at this
      cases this
    · exact h1
  have hbst : ∀ x : List Char, b ≠ [] → NoHead (fun c => stopsName c = false) (b ++ x) := by
    intro x hb0 e q he hst
    cases b with
    | nil => exact hb0 rfl
    | cons y b =>
      injection he with e1
      subst e1
      rcases hb y (by simp) with rfl | rfl <;> exact absurd hst (by decide)
  have hdb : NoHead (fun c => isBlank c = true) (d :: r) := by
    intro c q e hc
    injection e with e1
    subst e1
    rw [hd] at hc; cases hc
  cases hc with
  | empty =>
    have hb0 : b = [] := by
      cases b with
      | nil => rfl
      | cons x b => exact absurd (isBlank_iff.2 (hb x (by simp))) (hs x (b ++ d :: r) rfl)
    subst hb0
    obtain ⟨k, u, h1⟩ := hnokey (fun e q he => by
      injection he with e1
      subst e1
      exact hdl)
    rw [lineContent_nokey h1]
    exact listP_stops (Or.inl ⟨rfl, rfl⟩) ho
  | fields hf hl =>
    have hb0 : b ≠ [] := by
      rcases hcb with ⟨rfl, -⟩ | h
      · obtain ⟨w, f, x, gs, e, -, hw, -⟩ := fields_more hf
        obtain ⟨d', r', e2, -⟩ := word_head hw.1 x
        rw [← e] at e2; cases e2
      · exact h
    obtain ⟨k, u, h1⟩ := hnokey (fun e q he => by
      obtain ⟨w, f, x, gs, e0, -, hw, -⟩ := fields_more hf
      obtain ⟨d', r', e2, -⟩ := word_head hw.1 x
      rw [← e0] at e2
      rw [e2] at he
      injection he with e1
      subst e1
      by_contra hh
      rw [Bool.not_eq_false] at hh
      exact hl d' r' e2 (letter_iff.1 hh))
    rw [lineContent_nokey h1]
    exact listP_stops (Or.inr ⟨c, b, rfl, hb, hb0, hf⟩) ho
  | key hk =>
    have hb0 : b ≠ [] := by
      rcases hcb with ⟨rfl, -⟩ | h
      · exact absurd rfl hk.1.1.1
      · exact h
    have e : c ++ b ++ d :: r = c ++ (b ++ d :: r) := by simp
    rw [e]
    exact separatedPair_stops (key_text hk (hbst _ hb0)) (space1_text hb hb0 hdb) (listP_stops (Or.inl ⟨rfl, rfl⟩) ho) ho
  | @keyed k b2 x fs hk hb2 hb20 hf =>
    have hb0 : b ≠ [] := by
      rcases hcb with ⟨e, -⟩ | h
      · have := hk.1.1.1
        simp only [List.append_eq_nil_iff] at e
        exact absurd e.1.1 this
      · exact h
    have e : k ++ b2 ++ x ++ b ++ d :: r = k ++ (b2 ++ (x ++ b ++ d :: r)) := by simp
    rw [e]
    have hb2st : NoHead (fun c => stopsName c = false) (b2 ++ (x ++ b ++ d :: r)) := by
      intro e q he hst
      cases b2 with
      | nil => exact hb20 rfl
      | cons y b =>
        injection he with e1
        subst e1
        rcases hb2 y (by simp) with rfl | rfl <;> exact absurd hst (by decide)
    have hxb : NoHead (fun c => isBlank c = true) (x ++ b ++ d :: r) := by
      obtain ⟨w, f, y, gs, rfl, -, hw, -⟩ := fields_more hf
      obtain ⟨d', r', e2, h2, -⟩ := word_head hw.1 (y ++ b ++ d :: r)
      have e3 : w ++ y ++ b ++ d :: r = w ++ (y ++ b ++ d :: r) := by simp
      rw [e3, e2]
      intro c q e hc
      injection e with e1
      subst e1
      rw [h2] at hc; cases hc
    exact separatedPair_stops (key_text hk hb2st) (space1_text hb2 hb20 hxb)
      (listP_stops (Or.inr ⟨x, b, rfl, hb, hb0, hf⟩) ho) ho

/-- how a line stops -/
inductive LineStops (t : List Char) : Outcome (LineResult D) → Prop
  | fail : BadExponent t → LineStops t (.ok (.error .float t))
  | panic : ZeroFraction t → LineStops t .panic

theorem line_of_stops {s t : List Char} (h : Stops F t (lineContent F (s.dropWhile isBlank))) :
    LineStops t (parseCgdLine F s) := by
  unfold parseCgdLine line delimited
  rw [andThen_eq (space0_eq s)]
  unfold andThen
  revert h
  generalize lineContent F (s.dropWhile isBlank) = o
  intro h
  cases h with
  | fail h => exact .fail h
  | panic h => exact .panic h

theorem line_cases (s : List Char) : (∃ rest l, parseCgdLine F s = .ok (.parsed rest l)) ∨
    ∃ t l, At F s l t ∧ LineStops t (parseCgdLine F s) := by
  rcases lineContent_cases (F := F) (s.dropWhile isBlank) with ⟨t, l, h⟩ | ⟨t, l, ⟨c, b, e, hb, hcb, hc⟩, h⟩
  · left
    obtain ⟨v, t', rest', o', -, -, h9, -⟩ := tailP_total t
    have h9 : pair space0 (opt comment) t = .ok (.done rest' o') := h9
    refine ⟨rest', l, ?_⟩
    unfold parseCgdLine line delimited
    rw [andThen_eq (space0_eq s), andThen_eq h, andThen_eq h9]
    rfl
  · refine Or.inr ⟨t, l, ⟨s.takeWhile isBlank, c, b, ?_, fun c hc => isBlank_iff.1 (List.mem_takeWhile_imp hc), hb, ?_, hc⟩,
      line_of_stops h⟩
    · rw [List.append_assoc, List.append_assoc, ← List.append_assoc c, ← e, List.takeWhile_append_dropWhile]
    · rcases hcb with ⟨h, -⟩ | h
      · exact Or.inl h
      · exact Or.inr h

theorem line_stops {s t : List Char} {l : List (Field D)} {o : Outcome (Res (List (Field D)))} (h : At F s l t)
    (ho : Stops F t o) : LineStops t (parseCgdLine F s) := by
  obtain ⟨u, c, b, rfl, hu, hb, hcb, hc⟩ := h
  have hnil : Blank [] := by intro c hc; cases hc
  obtain ⟨d, r, rfl, hd, -⟩ := stops_head ho
  apply line_of_stops
  have hdb : NoHead (fun c => isBlank c = true) (d :: r) := by
    intro c q e hc
    injection e with e1
    subst e1
    rw [hd] at hc; cases hc
  have hfront : UptoLine F ((u ++ c ++ b ++ d :: r).dropWhile isBlank) l (d :: r) := by
    by_cases hc0 : c = []
    · subst hc0
      have e : u ++ [] ++ b ++ d :: r = (u ++ b) ++ d :: r := by simp
      have hub : Blank (u ++ b) := by
        intro x hx
        rcases List.mem_append.1 hx with hx | hx
        · exact hu x hx
        · exact hb x hx
      rw [e, ParseOperator.dropWhile_blank_append hub, List.dropWhile_cons_of_neg (by simp [hd])]
      exact ⟨[], [], rfl, hnil, Or.inl ⟨rfl, rfl⟩, hc⟩
    · have hb0 : b ≠ [] := hcb.resolve_left hc0
      have hcn : NoHead (fun c => isBlank c = true) (c ++ (b ++ d :: r)) := by
        have hkey : ∀ k (x : List Char), Key k → NoHead (fun c => isBlank c = true) (k ++ x) := by
          intro k x hk
          obtain ⟨⟨⟨-, h2⟩, c, r, rfl, -⟩, -⟩ := hk
          intro d' q e' hd
          injection e' with e1
          subst e1
          rcases isBlank_iff.1 hd with h | h
          · exact h2 c (by simp) (Or.inl h)
          · exact h2 c (by simp) (Or.inr (Or.inl h))
        cases hc with
        | empty => exact absurd rfl hc0
        | fields hf hl =>
          obtain ⟨w, f, y, gs, rfl, -, hw, -⟩ := fields_more hf
          obtain ⟨d', r', e2, h2, -⟩ := word_head hw.1 (y ++ (b ++ d :: r))
          rw [List.append_assoc, e2]
          intro c q e hc
          injection e with e1
          subst e1
          rw [h2] at hc; cases hc
        | key hk => exact hkey _ _ hk
        | keyed hk _ _ _ => rw [List.append_assoc, List.append_assoc]; exact hkey _ _ hk
      have e : u ++ c ++ b ++ d :: r = u ++ (c ++ (b ++ d :: r)) := by simp
      have e2 : (c ++ (b ++ d :: r)).dropWhile isBlank = c ++ (b ++ d :: r) := by
        cases hh : c ++ (b ++ d :: r) with
        | nil => rfl
        | cons y q => rw [List.dropWhile_cons_of_neg (hcn y q hh)]
      rw [e, ParseOperator.dropWhile_blank_append hu, e2]
      exact ⟨c, b, by simp, hb, Or.inr hb0, hc⟩
  have hs : NoHead (fun c => isBlank c = true) ((u ++ c ++ b ++ d :: r).dropWhile isBlank) := by
    intro c' r' e hc'
    have := List.head?_dropWhile_not (p := isBlank) (l := u ++ c ++ b ++ d :: r)
    rw [e] at this
    simp [hc'] at this
  rw [lineContent_stops hfront hs ho]
  exact ho

end Systre.Cgd
