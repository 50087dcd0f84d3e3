import Verif.Lemmas.CgdField

/-! # Lists of fields, and whole lines -/

namespace Systre.Cgd
open Nom OpText CgdText
open ParseOperator (NoHead isDig_iff isBlank_iff takeWhile_text char_done char_text char_err space0_done space0_append
  space0_eq)

variable {D : Type} {F : Floats D}

/-- more words, each with blanks before it -/
inductive More (R : List Char → Field D → Prop) : List Char → List (Field D) → Prop
  | nil : More R [] []
  | cons {b w f x fs} : Blank b → b ≠ [] → R w f → More R x fs → More R (b ++ w ++ x) (f :: fs)

theorem More.fields {R : List Char → Field D → Prop} {x : List Char} {fs : List (Field D)} (h : More R x fs) :
    ∀ {w f}, R w f → Fields R (w ++ x) (f :: fs) := by
  induction h with
  | nil => intro w f hw; rw [List.append_nil]; exact .one hw
  | @cons b v g x fs hb hb0 hv _ ih =>
    intro w f hw
    have e : w ++ (b ++ v ++ x) = w ++ b ++ (v ++ x) := by simp
    rw [e]
    exact .cons hw hb hb0 (ih hv)

theorem fields_more {R : List Char → Field D → Prop} {t : List Char} {fs : List (Field D)} (h : Fields R t fs) :
    ∃ w f x gs, t = w ++ x ∧ fs = f :: gs ∧ R w f ∧ More R x gs := by
  induction h with
  | @one w f hw => exact ⟨w, f, [], [], by simp, rfl, hw, .nil⟩
  | @cons w f b t fs hw hb hb0 _ ih =>
    obtain ⟨v, g, x, gs, rfl, rfl, hv, hx⟩ := ih
    exact ⟨w, f, b ++ v ++ x, g :: gs, by simp, rfl, hw, .cons hb hb0 hv hx⟩

theorem space1_done {s t : List Char} {x : Unit} (h : space1 s = .ok (.done t x)) :
    ∃ b, Blank b ∧ b ≠ [] ∧ s = b ++ t := by
  unfold space1 at h
  cases s with
  | nil => cases Outcome.ok.inj h
  | cons c s =>
    dsimp only at h
    split_ifs at h with hc
    · have h := Outcome.ok.inj h
      injection h with e1
      refine ⟨c :: s.takeWhile isBlank, ?_, by simp, ?_⟩
      · intro d hd
        rcases List.mem_cons.1 hd with rfl | hd
        · exact isBlank_iff.1 hc
        · exact isBlank_iff.1 (List.mem_takeWhile_imp hd)
      · rw [← e1, List.cons_append, List.takeWhile_append_dropWhile]
    · cases Outcome.ok.inj h

theorem space1_text {b t : List Char} (hb : Blank b) (hb0 : b ≠ []) (ht : NoHead (fun c => isBlank c = true) t) :
    space1 (b ++ t) = .ok (.done t ()) := by
  cases b with
  | nil => exact absurd rfl hb0
  | cons c b =>
    unfold space1
    simp only [List.cons_append]
    rw [if_pos (isBlank_iff.2 (hb c (by simp)))]
    have := space0_append (u := b) (t := t) (fun d hd => hb d (by simp [hd])) (fun c r e => ht c r e)
    exact this

theorem space1_err {s : List Char} (h : NoHead (fun c => isBlank c = true) s) : space1 s = .ok (.err .space s) := by
  unfold space1
  cases s with
  | nil => rfl
  | cons c s => dsimp only; rw [if_neg (h c s rfl)]

theorem space1_total (s : List Char) : (∃ t, space1 s = .ok (.done t ())) ∨ space1 s = .ok (.err .space s) := by
  unfold space1
  cases s with
  | nil => exact Or.inr rfl
  | cons c s =>
    dsimp only
    split_ifs
    · exact Or.inl ⟨_, rfl⟩
    · exact Or.inr rfl

theorem field_cases (F : Floats D) (s : List Char) : (∃ t f, field F s = .ok (.done t f)) ∨ (∃ k u, field F s = .ok (.err k u)) ∨
    (∃ k u, field F s = .ok (.fail k u)) ∨ field F s = .panic ∨ field F s = .diverge := by
  cases h : field F s with
  | ok r =>
    cases r with
    | done t f => exact Or.inl ⟨_, _, rfl⟩
    | err k u => exact Or.inr (Or.inl ⟨_, _, rfl⟩)
    | fail k u => exact Or.inr (Or.inr (Or.inl ⟨_, _, rfl⟩))
  | panic => simp
  | diverge => simp

/-- one pass of the loop of `separated_list0` -/
theorem sepLoop_succ (fuel : Nat) (acc : List (Field D)) (s : List Char) :
    sepLoop space1 (field F) (fuel + 1) acc s =
      (match space1 s with
      | .ok (.done t _) =>
        (match field F t with
        | .ok (.done u f) => sepLoop space1 (field F) fuel (acc ++ [f]) u
        | .ok (.err _ _) => .ok (.done s acc)
        | .ok (.fail k u) => .ok (.fail k u)
        | .panic => .panic
        | .diverge => .diverge)
      | _ => .ok (.done s acc)) := by
  rw [sepLoop]
  rcases space1_total s with ⟨t, h⟩ | h
  · obtain ⟨b, hb, hb0, rfl⟩ := space1_done h
    rw [h]
    have hlen : ¬ t.length = (b ++ t).length := by
      rw [List.length_append]
      have : 0 < b.length := List.length_pos_iff.2 hb0
      omega
    change (if t.length = (b ++ t).length then _ else _) = _
    rw [if_neg hlen]
    dsimp only
    rcases field_cases F t with ⟨u, f, h2⟩ | ⟨k, u, h2⟩ | ⟨k, u, h2⟩ | h2 | h2 <;> rw [h2] <;> rfl
  · rw [h]; rfl

theorem sepLoop_done : ∀ (fuel : Nat) (acc : List (Field D)) (s t : List Char) (l : List (Field D)),
    sepLoop space1 (field F) fuel acc s = .ok (.done t l) →
    ∃ x fs, s = x ++ t ∧ l = acc ++ fs ∧ More (Word F) x fs := by
  intro fuel
  induction fuel with
  | zero => intro acc s t l h; cases h
  | succ fuel ih =>
    intro acc s t l h
    rw [sepLoop_succ] at h
    rcases space1_total s with ⟨u, h1⟩ | h1
    · rw [h1] at h
      obtain ⟨b, hb, hb0, rfl⟩ := space1_done h1
      dsimp only at h
      rcases field_cases F u with ⟨v, f, h2⟩ | ⟨k, v, h2⟩ | ⟨k, v, h2⟩ | h2 | h2 <;> rw [h2] at h <;> dsimp only at h
      · obtain ⟨x, fs, rfl, rfl, hx⟩ := ih _ _ _ _ h
        obtain ⟨w, rfl, hw⟩ := field_done_word h2
        exact ⟨b ++ w ++ x, f :: fs, by simp, by simp, .cons hb hb0 hw hx⟩
      · have h := Outcome.ok.inj h
        injection h with e1 e2
        subst e1 e2
        exact ⟨[], [], rfl, by simp, .nil⟩
      · cases Outcome.ok.inj h
      · cases h
      · cases h
    · rw [h1] at h
      have h := Outcome.ok.inj h
      injection h with e1 e2
      subst e1 e2
      exact ⟨[], [], rfl, by simp, .nil⟩

theorem sepLoop_fail : ∀ (fuel : Nat) (acc : List (Field D)) (s t : List Char) (k : Kind),
    sepLoop space1 (field F) fuel acc s = .ok (.fail k t) → k = .float ∧ t <:+ s ∧ BadExponent t := by
  intro fuel
  induction fuel with
  | zero => intro acc s t k h; cases h
  | succ fuel ih =>
    intro acc s t k h
    rw [sepLoop_succ] at h
    rcases space1_total s with ⟨u, h1⟩ | h1
    · rw [h1] at h
      obtain ⟨b, hb, hb0, rfl⟩ := space1_done h1
      dsimp only at h
      rcases field_cases F u with ⟨v, f, h2⟩ | ⟨k', v, h2⟩ | ⟨k', v, h2⟩ | h2 | h2 <;> rw [h2] at h <;> dsimp only at h
      · obtain ⟨h3, h4, h5⟩ := ih _ _ _ _ h
        obtain ⟨w, rfl, -⟩ := field_done h2
        exact ⟨h3, (h4.trans (List.suffix_append _ _)).trans (List.suffix_append _ _), h5⟩
      · cases Outcome.ok.inj h
      · obtain ⟨h3, h4, h5⟩ := field_fail h2
        have h := Outcome.ok.inj h
        injection h with e1 e2
        subst e1 e2 h4
        exact ⟨h3, List.suffix_append _ _, h5⟩
      · cases h
      · cases h
    · rw [h1] at h; cases Outcome.ok.inj h

theorem sepLoop_no_err : ∀ (fuel : Nat) (acc : List (Field D)) (s t : List Char) (k : Kind),
    sepLoop space1 (field F) fuel acc s ≠ .ok (.err k t) := by
  intro fuel
  induction fuel with
  | zero => intro acc s t k h; cases h
  | succ fuel ih =>
    intro acc s t k h
    rw [sepLoop_succ] at h
    rcases space1_total s with ⟨u, h1⟩ | h1
    · rw [h1] at h
      dsimp only at h
      rcases field_cases F u with ⟨v, f, h2⟩ | ⟨k', v, h2⟩ | ⟨k', v, h2⟩ | h2 | h2 <;> rw [h2] at h <;> dsimp only at h
      · exact ih _ _ _ _ h
      · cases Outcome.ok.inj h
      · cases Outcome.ok.inj h
      · cases h
      · cases h
    · rw [h1] at h; cases Outcome.ok.inj h

theorem number_head_blank {c : Char} (h : c ∈ numChars) : isBlank c = false := by
  have : ∀ c ∈ numChars, isBlank c = false := by decide
  exact this c h

theorem word_head {w : List Char} {f : Field D} (h : IsField F w f) (t : List Char) :
    ∃ c r, w ++ t = c :: r ∧ isBlank c = false ∧ c ≠ '#' := by
  have num : ∀ w, Number w → ∃ c r, w ++ t = c :: r ∧ isBlank c = false ∧ c ≠ '#' := by
    intro w hw
    have h1 := number_numChar hw
    have h2 := number_ne hw
    cases w with
    | nil => exact absurd rfl h2
    | cons c w =>
      refine ⟨c, w ++ t, rfl, number_head_blank (h1 c (by simp)), ?_⟩
      rintro rfl
      exact absurd (h1 '#' (by simp)) (by decide)
  cases h with
  | @fraction a b n d ha hb hd =>
    have hN : Number a := by simpa using Number.float (Or.inl rfl) (.int (numeral_digits ha)) .none
    have h1 := number_numChar hN
    cases a with
    | nil => exact absurd rfl ha.1
    | cons c a =>
      refine ⟨c, _, rfl, number_head_blank (h1 c (by simp)), ?_⟩
      rintro rfl
      exact absurd (h1 '#' (by simp)) (by decide)
  | negative ha hb hd => exact ⟨'-', _, rfl, by decide, by decide⟩
  | int hw => exact num w hw
  | double hw => exact num w hw
  | quoted => exact ⟨'"', _, rfl, by decide, by decide⟩
  | name hw =>
    obtain ⟨h1, h2⟩ := hw
    cases w with
    | nil => exact absurd rfl h1
    | cons c w =>
      have h3 := h2 c (by simp)
      refine ⟨c, w ++ t, rfl, ?_, fun e => h3 (Or.inr (Or.inr (Or.inl e)))⟩
      rw [Bool.eq_false_iff]
      intro hb
      rcases isBlank_iff.1 hb with e | e
      · exact h3 (Or.inl e)
      · exact h3 (Or.inr (Or.inl e))

theorem more_end {R : List Char → Field D → Prop} {x t : List Char} {fs : List (Field D)} (h : More R x fs) (ht : FieldEnd t) :
    FieldEnd (x ++ t) := by
  cases h with
  | nil => exact ht
  | @cons b w f x fs hb hb0 _ _ =>
    cases b with
    | nil => exact absurd rfl hb0
    | cons c b =>
      intro d r e
      injection e with e1
      subst e1
      exact Or.inl (isBlank_iff.2 (hb c (by simp)))

theorem more_length {R : List Char → Field D → Prop} {x : List Char} {fs : List (Field D)} (h : More R x fs) : fs.length ≤ x.length := by
  induction h with
  | nil => simp
  | cons hb hb0 _ _ ih =>
    have := List.length_pos_iff.2 hb0
    simp only [List.length_append, List.length_cons]
    omega

/-- words that are read -/
theorem sepLoop_text {x : List Char} {fs : List (Field D)} (h : More (Word F) x fs) : ∀ (t : List Char) (fuel : Nat)
    (acc : List (Field D)), FieldEnd t → sepLoop space1 (field F) (fuel + fs.length) acc (x ++ t) =
      sepLoop space1 (field F) fuel (acc ++ fs) t := by
  induction h with
  | nil => intro t fuel acc _; simp
  | @cons b w f x fs hb hb0 hw hx ih =>
    intro t fuel acc ht
    rw [List.length_cons, ← Nat.add_assoc, sepLoop_succ]
    have e : b ++ w ++ x ++ t = b ++ (w ++ (x ++ t)) := by simp
    have h1 : space1 (b ++ (w ++ (x ++ t))) = .ok (.done (w ++ (x ++ t)) ()) := by
      refine space1_text hb hb0 ?_
      obtain ⟨c, r, e, h2, -⟩ := word_head hw.1 (x ++ t)
      rw [e]
      intro d q e' hd
      injection e' with e1
      subst e1
      rw [h2] at hd; cases hd
    rw [e, h1]
    dsimp only
    rw [field_text hw (more_end hx ht)]
    dsimp only
    rw [ih t fuel _ ht]
    simp

/-- the blanks and the comment at the end of a line -/
def Closing (t : List Char) : Prop := LineEnd (t.dropWhile isBlank)

theorem Closing.fieldEnd {t : List Char} (h : Closing t) : FieldEnd t := by
  rintro c r rfl
  by_cases hb : isBlank c = true
  · exact Or.inl hb
  · right
    unfold Closing at h
    rw [List.dropWhile_cons_of_neg hb] at h
    exact h c r rfl

theorem sepLoop_closing {t : List Char} (h : Closing t) (fuel : Nat) (acc : List (Field D)) :
    sepLoop space1 (field F) (fuel + 1) acc t = .ok (.done t acc) := by
  rw [sepLoop_succ]
  rcases space1_total t with ⟨u, h1⟩ | h1
  · rw [h1]
    dsimp only
    have hu : LineEnd u := by
      have : t.dropWhile isBlank = u := by
        unfold space1 at h1
        cases t with
        | nil => cases Outcome.ok.inj h1
        | cons c t =>
          dsimp only at h1
          split_ifs at h1 with hc
          · have h1 := Outcome.ok.inj h1
            injection h1 with e1
            rw [List.dropWhile_cons_of_pos hc, e1]
          · cases Outcome.ok.inj h1
      rw [← this]; exact h
    obtain ⟨k, v, h2⟩ := field_err (F := F) hu
    rw [h2]
  · rw [h1]

/-- the list of fields -/
abbrev listP (F : Floats D) : Parser (List (Field D)) := separatedList0 space1 (field F)

theorem listP_done {s t : List Char} {l : List (Field D)} (h : listP F s = .ok (.done t l)) :
    (l = [] ∧ t = s) ∨ ∃ c, s = c ++ t ∧ Fields (Word F) c l := by
  unfold listP separatedList0 at h
  rcases field_cases F s with ⟨v, f, h2⟩ | ⟨k', v, h2⟩ | ⟨k', v, h2⟩ | h2 | h2 <;> rw [h2] at h
  · obtain ⟨x, fs, rfl, rfl, hx⟩ := sepLoop_done _ _ _ _ _ h
    obtain ⟨w, rfl, hw⟩ := field_done_word h2
    exact Or.inr ⟨w ++ x, by simp, hx.fields hw⟩
  · have h := Outcome.ok.inj h
    injection h with e1 e2
    exact Or.inl ⟨e2.symm, e1.symm⟩
  · cases Outcome.ok.inj h
  · cases h
  · cases h

theorem listP_fail {s t : List Char} {k : Kind} (h : listP F s = .ok (.fail k t)) : k = .float ∧ t <:+ s ∧ BadExponent t := by
  unfold listP separatedList0 at h
  rcases field_cases F s with ⟨v, f, h2⟩ | ⟨k', v, h2⟩ | ⟨k', v, h2⟩ | h2 | h2 <;> rw [h2] at h
  · obtain ⟨h3, h4, h5⟩ := sepLoop_fail _ _ _ _ _ h
    obtain ⟨w, rfl, -⟩ := field_done h2
    exact ⟨h3, h4.trans (List.suffix_append _ _), h5⟩
  · cases Outcome.ok.inj h
  · have h := Outcome.ok.inj h
    injection h with e1 e2
    subst e1 e2
    obtain ⟨h3, h4, h5⟩ := field_fail h2
    subst h4
    exact ⟨h3, List.suffix_refl _, h5⟩
  · cases h
  · cases h

theorem listP_no_err {s t : List Char} {k : Kind} : listP F s ≠ .ok (.err k t) := by
  intro h
  unfold listP separatedList0 at h
  rcases field_cases F s with ⟨v, f, h2⟩ | ⟨k', v, h2⟩ | ⟨k', v, h2⟩ | h2 | h2 <;> rw [h2] at h
  · exact sepLoop_no_err _ _ _ _ _ h
  · cases Outcome.ok.inj h
  · cases Outcome.ok.inj h
  · cases h
  · cases h

theorem listP_text {c t : List Char} {fs : List (Field D)} (h : Fields (Word F) c fs) (ht : Closing t) :
    listP F (c ++ t) = .ok (.done t fs) := by
  obtain ⟨w, f, x, gs, rfl, rfl, hw, hx⟩ := fields_more h
  unfold listP separatedList0
  rw [List.append_assoc, field_text hw (more_end hx ht.fieldEnd)]
  change sepLoop space1 (field F) ((x ++ t).length + 1) [f] (x ++ t) = _
  have hl := more_length hx
  have e : (x ++ t).length + 1 = (x.length - gs.length + t.length) + 1 + gs.length := by rw [List.length_append]; omega
  rw [e, sepLoop_text hx t _ _ ht.fieldEnd, sepLoop_closing ht]
  rfl

theorem listP_closing {t : List Char} (ht : LineEnd t) : listP F t = .ok (.done t []) := by
  unfold listP separatedList0
  obtain ⟨k, u, h⟩ := field_err (F := F) ht
  rw [h]
  rfl

/-! ### Keywords -/

theorem letter_iff {c : Char} : isLetter c = true ↔ (('A' ≤ c ∧ c ≤ 'Z') ∨ ('a' ≤ c ∧ c ≤ 'z')) := by
  unfold isLetter
  simp

theorem key_done {s t k : List Char} (h : key s = .ok (.done t k)) : s = k ++ t ∧ Key k := by
  obtain ⟨w, h1, h2⟩ := mapOpt_done.1 h
  obtain ⟨e, hw, hst⟩ := name_done h1
  have h2 := Outcome.ok.inj h2
  cases w with
  | nil => cases h2
  | cons c w =>
    dsimp only at h2
    split_ifs at h2 with hc
    have h2 := Option.some.inj h2
    subst h2
    exact ⟨e, ⟨hw, c, w, rfl, letter_iff.1 hc⟩, fun d hd => not_stops_narrow (hst d hd)⟩

theorem letter_not_stops {c : Char} (h : isLetter c = true) : stopsName c = false := by
  rcases letter_iff.1 h with h | h
  · have h1 : 65 ≤ c.toNat := h.1
    have h2 : c.toNat ≤ 90 := h.2
    have e : c = Char.ofNat c.toNat := (Char.ofNat_toNat c).symm
    generalize c.toNat = n at *
    subst e
    clear h
    interval_cases n <;> decide
  · have h1 : 97 ≤ c.toNat := h.1
    have h2 : c.toNat ≤ 122 := h.2
    have e : c = Char.ofNat c.toNat := (Char.ofNat_toNat c).symm
    generalize c.toNat = n at *
    subst e
    clear h
    interval_cases n <;> decide

theorem key_total (s : List Char) : (∃ t k, key s = .ok (.done t k)) ∨
    ((∃ k u, key s = .ok (.err k u)) ∧ ∀ c r, s = c :: r → isLetter c = false) := by
  cases s with
  | nil => exact Or.inr ⟨⟨_, _, mapOpt_err (name_err (fun c r e => by cases e))⟩, fun c r e => by cases e⟩
  | cons c s =>
    by_cases hs : stopsName c = true
    · refine Or.inr ⟨⟨_, _, mapOpt_err (name_err (fun d r e hd => ?_))⟩, fun d r e => ?_⟩
      · injection e with e1
        subst e1
        rw [hs] at hd; cases hd
      · injection e with e1
        subst e1
        by_contra hl
        rw [Bool.not_eq_false] at hl
        rw [letter_not_stops hl] at hs; cases hs
    · have h1 : name (c :: s) = .ok (.done ((c :: s).dropWhile (fun c => !stopsName c)) ((c :: s).takeWhile (fun c => !stopsName c))) := by
        unfold name takeTill1
        dsimp only
        rw [if_neg hs]
      have h2 : (c :: s).takeWhile (fun c => !stopsName c) = c :: s.takeWhile (fun c => !stopsName c) :=
        List.takeWhile_cons_of_pos (by simpa using hs)
      by_cases hl : isLetter c = true
      · refine Or.inl ⟨_, c :: s.takeWhile (fun c => !stopsName c), mapOpt_eq h1 ?_⟩
        rw [h2]
        dsimp only
        rw [if_pos hl]
      · refine Or.inr ⟨⟨_, _, mapOpt_none h1 ?_⟩, fun d r e => ?_⟩
        · rw [h2]
          dsimp only
          rw [if_neg hl]
        · injection e with e1
          subst e1
          simpa using hl

theorem key_text {k t : List Char} (h : Key k) (ht : NoHead (fun c => stopsName c = false) t) : key (k ++ t) = .ok (.done t k) := by
  obtain ⟨⟨hn, c, r, rfl, hc⟩, hnar⟩ := h
  refine mapOpt_eq (name_text hn hnar ht) ?_
  dsimp only
  rw [if_pos (letter_iff.2 hc)]

/-! ### Lines -/

theorem lineContent_done {s t : List Char} {l : List (Field D)} (h : lineContent F s = .ok (.done t l)) :
    ∃ c b, s = c ++ b ++ t ∧ Blank b ∧ Content Key (Word F) c l := by
  have hnil : Blank [] := by intro c hc; cases hc
  rcases orElse_done.1 h with h | ⟨-, -, -, h⟩
  · obtain ⟨p, h1, h2⟩ := mapOpt_done.1 h
    rw [← Option.some.inj (Outcome.ok.inj h2)]
    obtain ⟨u, k, h3, h4⟩ := andThen_done.1 h1
    obtain ⟨v, _, h5, h6⟩ := andThen_done.1 h4
    obtain ⟨w, fs, h7, h8⟩ := andThen_done.1 h6
    have h8 := Outcome.ok.inj h8
    injection h8 with e1 e2
    subst e1 e2
    obtain ⟨rfl, hk⟩ := key_done h3
    obtain ⟨b, hb, hb0, rfl⟩ := space1_done h5
    rcases listP_done h7 with ⟨rfl, rfl⟩ | ⟨c, rfl, hc⟩
    · exact ⟨k, b, by simp, hb, .key hk⟩
    · exact ⟨k ++ b ++ c, [], by simp, hnil, .keyed hk hb hb0 hc⟩
  rcases orElse_done.1 h with h | ⟨k, u, h0, h⟩
  · obtain ⟨k, h1, h2⟩ := mapOpt_done.1 h
    rw [← Option.some.inj (Outcome.ok.inj h2)]
    obtain ⟨rfl, hk⟩ := key_done h1
    exact ⟨k, [], by simp, hnil, .key hk⟩
  · rcases listP_done h with ⟨rfl, rfl⟩ | ⟨c, rfl, hc⟩
    · exact ⟨[], [], by simp, hnil, .empty⟩
    · refine ⟨c, [], by simp, hnil, .fields hc ?_⟩
      rcases key_total (c ++ t) with ⟨v, k', hk⟩ | ⟨-, hk⟩
      · have : mapOpt key (fun k => .ok (some [Field.key (D := D) k])) (c ++ t) = .ok (.done v [Field.key k']) := mapOpt_eq hk rfl
        rw [this] at h0
        cases Outcome.ok.inj h0
      · rintro d r rfl hd
        have := hk d (r ++ t) rfl
        rw [letter_iff.2 hd] at this
        cases this

theorem lineContent_fail {s t : List Char} {k : Kind} (h : lineContent F s = .ok (.fail k t)) :
    k = .float ∧ t <:+ s ∧ BadExponent t := by
  have nokey : ∀ k t, key s ≠ .ok (.fail k t) := by
    intro k t h
    exact name_no_fail (mapOpt_fail_cases h)
  rcases orElse_fail_cases h with h | h
  · replace h := mapOpt_fail_cases h
    unfold separatedPair at h
    rcases key_total s with ⟨u, k', h1⟩ | ⟨⟨k', u, h1⟩, -⟩
    · have hh := (andThen_eq h1).symm.trans h
      clear h
      obtain ⟨rfl, -⟩ := key_done h1
      rcases space1_total u with ⟨v, h2⟩ | h2
      · have hh2 := (andThen_eq h2).symm.trans hh
        obtain ⟨b, -, -, rfl⟩ := space1_done h2
        have h3 : listP F v = .ok (.fail k t) := by
          unfold andThen at hh2
          obtain ⟨r, h4, h5⟩ := Outcome.bind_eq_ok.1 hh2
          change listP F v = .ok r at h4
          rw [h4]
          cases r with
          | done w a => cases Outcome.ok.inj h5
          | err k w => cases Outcome.ok.inj h5
          | fail k w =>
            have h5 := Outcome.ok.inj h5
            injection h5 with e1 e2
            rw [e1, e2]
        obtain ⟨g1, g2, g3⟩ := listP_fail h3
        exact ⟨g1, (g2.trans (List.suffix_append _ _)).trans (List.suffix_append _ _), g3⟩
      · have h := (andThen_err h2).symm.trans hh; cases Outcome.ok.inj h
    · rw [andThen_err h1] at h; cases Outcome.ok.inj h
  rcases orElse_fail_cases h with h | h
  · exact absurd (mapOpt_fail_cases h) (nokey _ _)
  · exact listP_fail h

theorem lineContent_no_err {s t : List Char} {k : Kind} : lineContent F s ≠ .ok (.err k t) := by
  intro h
  have key : ∀ (p q : Parser (List (Field D))), orElse p q s = .ok (.err k t) → q s = .ok (.err k t) := by
    intro p q h
    unfold orElse at h
    cases hp : p s with
    | ok r =>
      rw [hp] at h
      cases r with
      | done u a => cases Outcome.ok.inj h
      | err k' u => exact h
      | fail k' u => cases Outcome.ok.inj h
    | panic => rw [hp] at h; cases h
    | diverge => rw [hp] at h; cases h
  exact listP_no_err (key _ _ (key _ _ h))

theorem comment_text (r : List Char) : comment ('#' :: r) = .ok (.done [] ()) := by
  refine mapOpt_eq (a := (['#'], r)) ?_ rfl
  unfold pair
  have : tag ['#'] ('#' :: r) = .ok (.done r ['#']) := by simp [tag]
  rw [andThen_eq this]
  rfl

theorem comment_err {s : List Char} (h : NoHead (fun c => c = '#') s) : ∃ k u, comment s = .ok (.err k u) := by
  refine ⟨.tag, s, mapOpt_err (andThen_err ?_)⟩
  unfold tag
  rw [if_neg]
  cases s with
  | nil => simp
  | cons c s =>
    have := h c s rfl
    simp only [List.isPrefixOf, Bool.and_true, beq_iff_eq]
    exact fun e => this e.symm

/-- what follows the content -/
abbrev tailP : Parser (Unit × Option Unit) := pair space0 (opt comment)

theorem tailP_total (s : List Char) : ∃ v t rest o, s = v ++ t ∧ Blank v ∧ tailP s = .ok (.done rest o) ∧
    ((∃ r, t = '#' :: r ∧ rest = []) ∨ (rest = t ∧ NoHead (fun c => isBlank c = true ∨ c = '#') t)) := by
  have hbl : NoHead (fun c => isBlank c = true) (s.dropWhile isBlank) := by
    intro c r e hc
    have := List.head?_dropWhile_not (p := isBlank) (l := s)
    rw [e] at this
    simp [hc] at this
  have hv : Blank (s.takeWhile isBlank) := fun c hc => isBlank_iff.1 (List.mem_takeWhile_imp hc)
  have e : s = s.takeWhile isBlank ++ s.dropWhile isBlank := List.takeWhile_append_dropWhile.symm
  by_cases h : NoHead (fun c => c = '#') (s.dropWhile isBlank)
  · obtain ⟨k, u, h1⟩ := comment_err h
    refine ⟨_, _, s.dropWhile isBlank, ((), none), e, hv, ?_, Or.inr ⟨rfl, ?_⟩⟩
    · unfold tailP pair
      rw [andThen_eq (space0_eq s), andThen_eq (opt_of_err h1)]
      rfl
    · intro c r e hc
      rcases hc with hc | hc
      · exact hbl c r e hc
      · exact h c r e hc
  · unfold NoHead at h
    push Not at h
    obtain ⟨c, r, e2, rfl⟩ := h
    refine ⟨_, _, [], ((), some ()), e, hv, ?_, Or.inl ⟨r, e2, rfl⟩⟩
    unfold tailP pair
    rw [andThen_eq (space0_eq s), e2, andThen_eq (opt_of_done (comment_text r))]
    rfl

theorem line_done {s rest : List Char} {l : List (Field D)} (h : parseCgdLine F s = .ok (.parsed rest l)) :
    ∃ u c v t, s = u ++ c ++ v ++ t ∧ Blank u ∧ Blank v ∧ Content Key (Word F) c l ∧
      ((∃ r, t = '#' :: r ∧ rest = []) ∨ (rest = t ∧ NoHead (fun c => isBlank c = true ∨ c = '#') t)) := by
  unfold parseCgdLine at h
  obtain ⟨r, h1, h2⟩ := Outcome.bind_eq_ok.1 h
  cases r with
  | err k t => cases Outcome.ok.inj h2
  | fail k t => cases Outcome.ok.inj h2
  | done r l' =>
    have h2 := Outcome.ok.inj h2
    injection h2 with e1 e2
    subst e1 e2
    obtain ⟨s1, _, h3, h4⟩ := andThen_done.1 h1
    obtain ⟨s2, l2, h5, h6⟩ := andThen_done.1 h4
    obtain ⟨s3, o, h7, h8⟩ := andThen_done.1 h6
    have h8 := Outcome.ok.inj h8
    injection h8 with e1 e2
    subst e1 e2
    obtain ⟨u, hu, rfl⟩ := space0_done h3
    obtain ⟨c, b, rfl, hb, hc⟩ := lineContent_done h5
    obtain ⟨v, t, rest', o', rfl, hv, h9, h10⟩ := tailP_total s2
    have h7 : tailP (v ++ t) = .ok (.done s3 o) := h7
    rw [h7] at h9
    have h9 := Outcome.ok.inj h9
    injection h9 with e1
    subst e1
    refine ⟨u, c, b ++ v, t, by simp, hu, ?_, hc, h10⟩
    intro d hd
    rcases List.mem_append.1 hd with hd | hd
    · exact hb d hd
    · exact hv d hd

theorem line_error {s t : List Char} {k : Kind} (h : parseCgdLine F s = .ok (.error k t)) :
    k = .float ∧ t <:+ s ∧ BadExponent t := by
  unfold parseCgdLine at h
  obtain ⟨r, h1, h2⟩ := Outcome.bind_eq_ok.1 h
  have hs0 := space0_eq s
  have hsuf : s.dropWhile isBlank <:+ s := List.dropWhile_suffix _
  unfold line delimited at h1
  rw [andThen_eq hs0] at h1
  cases hc : lineContent F (s.dropWhile isBlank) with
  | panic => unfold andThen at h1; rw [hc] at h1; cases h1
  | diverge => unfold andThen at h1; rw [hc] at h1; cases h1
  | ok q =>
    cases q with
    | err k' u => exact absurd hc lineContent_no_err
    | fail k' u =>
      rw [andThen_fail hc] at h1
      have h1 := Outcome.ok.inj h1
      subst h1
      have h2 := Outcome.ok.inj h2
      injection h2 with e1 e2
      subst e1 e2
      obtain ⟨g1, g2, g3⟩ := lineContent_fail hc
      exact ⟨g1, g2.trans hsuf, g3⟩
    | done u l =>
      rw [andThen_eq hc] at h1
      obtain ⟨v, t', rest', o', -, -, h9, -⟩ := tailP_total u
      have h9 : pair space0 (opt comment) u = .ok (.done rest' o') := h9
      rw [andThen_eq h9] at h1
      have h1 := Outcome.ok.inj h1
      subst h1
      cases Outcome.ok.inj h2

theorem content_text {c t : List Char} {l : List (Field D)} (h : Content Key (Word F) c l) (ht : Closing t) :
    ∃ u, Closing u ∧ (∃ b, t = b ++ u ∧ Blank b) ∧ lineContent F (c ++ t) = .ok (.done u l) := by
  have hnil : Blank [] := by intro c hc; cases hc
  have hb2 : ∀ b t : List Char, Blank b → b ≠ [] → NoHead (fun c => stopsName c = false) (b ++ t) := by
    intro b t hb hb0 d r e hd
    cases b with
    | nil => exact hb0 rfl
    | cons x b =>
      injection e with e1
      subst e1
      rcases hb x (by simp) with rfl | rfl <;> exact absurd hd (by decide)
  have hfb : ∀ {c fs} (t : List Char), Fields (Word F) c fs → NoHead (fun c => isBlank c = true) (c ++ t) := by
    intro c fs t hc
    obtain ⟨w, f, x, gs, rfl, rfl, hw, -⟩ := fields_more hc
    obtain ⟨d, r, e, h2, -⟩ := word_head hw.1 (x ++ t)
    rw [List.append_assoc, e]
    intro d' q e' hd
    injection e' with e1
    subst e1
    rw [h2] at hd; cases hd
  cases h with
  | empty =>
    refine ⟨t, ht, ⟨[], rfl, hnil⟩, ?_⟩
    have hk : (∃ k u, key ([] ++ t) = .ok (.err k u)) := ⟨_, _, mapOpt_err (name_err ht.fieldEnd.stops)⟩
    obtain ⟨k, u, hk⟩ := hk
    unfold lineContent
    have hsp := andThen_err (f := fun a => andThen space1 fun _ => andThen (separatedList0 space1 (field F)) fun c => ret (a, c)) hk
    change separatedPair key space1 (separatedList0 space1 (field F)) _ = _ at hsp
    rw [orElse_right (mapOpt_err hsp), orElse_right (mapOpt_err hk)]
    unfold separatedList0
    have hf : ∃ k u, field F ([] ++ t) = .ok (.err k u) := by
      rw [List.nil_append]
      by_cases hb : LineEnd t
      · exact field_err hb
      · unfold LineEnd at hb
        push Not at hb
        obtain ⟨c, r, rfl, hc⟩ := hb
        have hbl : isBlank c = true := by
          rcases ht.fieldEnd c r rfl with h | h
          · exact h
          · exact absurd h hc
        have hno : ∀ p, p <+: c :: r → ¬ Number p := by
          intro p hp hN
          have h1 := number_numChar hN
          have h2 := number_ne hN
          cases p with
          | nil => exact h2 rfl
          | cons d p =>
            obtain ⟨q, e⟩ := hp
            injection e with e1
            subst e1
            have := number_head_blank (h1 d (by simp))
            rw [this] at hbl; cases hbl
        obtain ⟨⟨k1, u1, h1⟩, k2, u2, h2⟩ := noNumber_err hno
        obtain ⟨k3, u3, h3⟩ := quoted_err (s := c :: r) (fun d q e hd => by
          injection e with e1
          subst e1
          subst hd
          exact absurd hbl (by decide))
        unfold field
        rw [orElse_right (mapOpt_err h2), orElse_right (mapOpt_err h1), orElse_right (mapOpt_err h3)]
        exact ⟨_, _, mapOpt_err (name_err ht.fieldEnd.stops)⟩
    obtain ⟨k', u', hf⟩ := hf
    rw [hf]
    rfl
  | fields hf hl =>
    refine ⟨t, ht, ⟨[], rfl, hnil⟩, ?_⟩
    have hk : ∃ k u, key (c ++ t) = .ok (.err k u) := by
      rcases key_total (c ++ t) with ⟨u, k, hk⟩ | ⟨hk, -⟩
      · exfalso
        obtain ⟨w, f, x, gs, rfl, rfl, hw, -⟩ := fields_more hf
        obtain ⟨d, r, e, -, -⟩ := word_head hw.1 []
        rw [List.append_nil] at e
        subst e
        obtain ⟨e, ⟨-, d', r', rfl, hd'⟩, -⟩ := key_done hk
        injection e with e1
        subst e1
        exact hl d (r ++ x) rfl hd'
      · exact hk
    obtain ⟨k, u, hk⟩ := hk
    unfold lineContent
    have hsp := andThen_err (f := fun a => andThen space1 fun _ => andThen (separatedList0 space1 (field F)) fun c => ret (a, c)) hk
    change separatedPair key space1 (separatedList0 space1 (field F)) _ = _ at hsp
    rw [orElse_right (mapOpt_err hsp), orElse_right (mapOpt_err hk)]
    exact listP_text hf ht
  | @key k hk =>
    have h1 := key_text hk (t := t) ht.fieldEnd.stops
    unfold lineContent
    by_cases hb : NoHead (fun c => isBlank c = true) t
    · refine ⟨t, ht, ⟨[], rfl, hnil⟩, ?_⟩
      have : separatedPair key space1 (separatedList0 space1 (field F)) (c ++ t) = .ok (.err .space t) := by
        unfold separatedPair
        rw [andThen_eq h1, andThen_err (space1_err hb)]
      rw [orElse_right (mapOpt_err this)]
      exact orElse_left (mapOpt_eq h1 rfl)
    · have hs : ∃ b, Blank b ∧ b ≠ [] ∧ t = b ++ t.dropWhile isBlank := by
        refine ⟨t.takeWhile isBlank, fun c hc => isBlank_iff.1 (List.mem_takeWhile_imp hc), ?_, List.takeWhile_append_dropWhile.symm⟩
        unfold NoHead at hb
        push Not at hb
        obtain ⟨d, r, rfl, hd⟩ := hb
        rw [List.takeWhile_cons_of_pos hd]; simp
      obtain ⟨b, hb1, hb0, e⟩ := hs
      have hle : LineEnd (t.dropWhile isBlank) := ht
      have hnb : NoHead (fun c => isBlank c = true) (t.dropWhile isBlank) := by
        intro d r e hd
        have := hle d r e
        rw [this] at hd; exact absurd hd (by decide)
      have hcl : Closing (t.dropWhile isBlank) := by
        unfold Closing
        have : (t.dropWhile isBlank).dropWhile isBlank = t.dropWhile isBlank := by
          cases hh : t.dropWhile isBlank with
          | nil => rfl
          | cons d r => rw [List.dropWhile_cons_of_neg (hnb d r hh)]
        rw [this]; exact ht
      refine ⟨t.dropWhile isBlank, hcl, ⟨b, e, hb1⟩, ?_⟩
      have h2 : space1 t = .ok (.done (t.dropWhile isBlank) ()) := by
        conv_lhs => rw [e]
        exact space1_text hb1 hb0 hnb
      refine orElse_left (mapOpt_eq (a := (c, [])) ?_ rfl)
      unfold separatedPair
      rw [andThen_eq h1, andThen_eq h2, andThen_eq (listP_closing hle)]
      rfl
  | @keyed k b x fs hk hb hb0 hf =>
    refine ⟨t, ht, ⟨[], rfl, hnil⟩, ?_⟩
    have e : k ++ b ++ x ++ t = k ++ (b ++ (x ++ t)) := by simp
    rw [e]
    refine orElse_left (mapOpt_eq (a := (k, fs)) ?_ rfl)
    unfold separatedPair
    rw [andThen_eq (key_text hk (hb2 b _ hb hb0)), andThen_eq (space1_text hb hb0 (hfb t hf)), andThen_eq (listP_text hf ht)]
    rfl

theorem line_text {u c v t : List Char} {l : List (Field D)} (hu : Blank u) (hv : Blank v) (h : Content Key (Word F) c l)
    (ht : LineEnd t) : parseCgdLine F (u ++ c ++ v ++ t) = .ok (.parsed [] l) := by
  have hnb : NoHead (fun c => isBlank c = true) t := by
    intro d r e hd
    have := ht d r e
    rw [this] at hd; exact absurd hd (by decide)
  have htd : t.dropWhile isBlank = t := by
    cases t with
    | nil => rfl
    | cons d r => rw [List.dropWhile_cons_of_neg (hnb d r rfl)]
  have hcl : Closing (v ++ t) := by
    unfold Closing
    rw [ParseOperator.dropWhile_blank_append hv, htd]
    exact ht
  have hend : ∀ x, Closing x → ∃ o, tailP x = .ok (.done [] o) := by
    intro x hx
    obtain ⟨v', t', rest', o', e, hv', h9, h10⟩ := tailP_total x
    refine ⟨o', ?_⟩
    rw [h9]
    rcases h10 with ⟨r, -, rfl⟩ | ⟨rfl, h11⟩
    · rfl
    · have : x.dropWhile isBlank = rest' := by
        rw [e, ParseOperator.dropWhile_blank_append hv']
        cases rest' with
        | nil => rfl
        | cons d r => rw [List.dropWhile_cons_of_neg (fun hd => h11 d r rfl (Or.inl hd))]
      have hx : LineEnd (x.dropWhile isBlank) := hx
      rw [this] at hx
      cases rest' with
      | nil => rfl
      | cons d r => exact absurd (Or.inr (hx d r rfl)) (h11 d r rfl)
  -- the blanks in front
  have hfront : ∃ b c' v', u ++ c ++ v ++ t = b ++ (c' ++ v') ∧ Blank b ∧ Content Key (Word F) c' l ∧ Closing v' ∧
      NoHead (fun c => isBlank c = true) (c' ++ v') := by
    have hword : ∀ w f (x : List Char), Word F w f → NoHead (fun c => isBlank c = true) (w ++ x) := by
      intro w f x hw
      obtain ⟨d, r, e, h2, -⟩ := word_head hw.1 x
      rw [e]
      intro d' q e' hd
      injection e' with e1
      subst e1
      rw [h2] at hd; cases hd
    have hkey : ∀ k (x : List Char), Key k → NoHead (fun c => isBlank c = true) (k ++ x) := by
      intro k x hk
      obtain ⟨⟨⟨-, h2⟩, c, r, rfl, -⟩, -⟩ := hk
      intro d' q e' hd
      injection e' with e1
      subst e1
      rcases isBlank_iff.1 hd with h | h
      · exact h2 c (by simp) (Or.inl h)
      · exact h2 c (by simp) (Or.inr (Or.inl h))
    cases h with
    | empty =>
      refine ⟨u ++ v, [], t, by simp, ?_, .empty, ?_, hnb⟩
      · intro d hd
        rcases List.mem_append.1 hd with hd | hd
        · exact hu d hd
        · exact hv d hd
      · unfold Closing; rw [htd]; exact ht
    | fields hf hl =>
      refine ⟨u, c, v ++ t, by simp, hu, .fields hf hl, hcl, ?_⟩
      obtain ⟨w, f, x, gs, rfl, rfl, hw, -⟩ := fields_more hf
      rw [List.append_assoc]
      exact hword _ _ _ hw
    | key hk => exact ⟨u, _, v ++ t, by simp, hu, .key hk, hcl, hkey _ _ hk⟩
    | keyed hk hb hb0 hf =>
      refine ⟨u, _, v ++ t, by simp, hu, .keyed hk hb hb0 hf, hcl, ?_⟩
      rw [List.append_assoc, List.append_assoc]
      exact hkey _ _ hk
  obtain ⟨b, c', v', e, hb, hc', hv', hn⟩ := hfront
  obtain ⟨x, hx, -, h1⟩ := content_text hc' hv'
  obtain ⟨o, ho⟩ := hend x hx
  have hline : line F (u ++ c ++ v ++ t) = .ok (.done [] l) := by
    unfold line delimited
    rw [e, andThen_eq (space0_append hb (fun c r e => hn c r e)), andThen_eq h1]
    have ho : pair space0 (opt comment) x = .ok (.done [] o) := ho
    rw [andThen_eq ho]
    rfl
  unfold parseCgdLine
  rw [hline]
  rfl

/-! ### No panic -/

theorem safe_restAll {P : List Char → Prop} : Safe P restAll := fun s _ => ⟨_, rfl, fun t a h => by
  injection h with e1
  subst e1
  exact List.nil_suffix⟩

theorem line_safe {s : List Char} (h : NoZeroAfterSlash s) : ∃ r, parseCgdLine F s = .ok r := by
  have hP : ∀ s t, NoZeroAfterSlash s → t <:+ s → NoZeroAfterSlash t := by
    rintro s t h ⟨p, rfl⟩ pre w post e hw hp
    exact h (p ++ pre) w post (by rw [e]; simp) hw hp
  have hui : Safe NoZeroAfterSlash unsignedInteger := ParseOperator.safe_integer
  have hi : Safe NoZeroAfterSlash integer :=
    safe_orElse (safe_mapOpt' hui) (safe_mapOpt' (safe_preceded hP (safe_char _) hui))
  have hfr : Safe NoZeroAfterSlash fraction := by
    refine safe_mapOpt (safe_separatedPair hP hi (safe_char _) hui) ?_
    intro s t v hs h
    obtain ⟨u, z', hz, h3⟩ := andThen_done.1 h
    obtain ⟨x, c, hc, h4⟩ := andThen_done.1 h3
    obtain ⟨y, d', hd, h5⟩ := andThen_done.1 h4
    have h5 := Outcome.ok.inj h5
    injection h5 with e1 e2
    subst e1 e2
    have := char_done hc
    subst this
    obtain ⟨b, rfl, hb, hdig⟩ := ParseOperator.integer_done hd
    unfold ParseOperator.ratioNew
    dsimp only
    by_cases hz0 : ((d' : ℕ) : ℤ) = 0
    · exfalso
      have hd0 : d' = 0 := by exact_mod_cast hz0
      subst hd0
      obtain ⟨a, e, -⟩ := integer_number hz
      refine hs a b y (by rw [e]; simp) hb ?_
      intro c r hc h9
      exact hdig c r hc (isDig_iff.2 h9)
    · rw [if_neg hz0]
      exact ⟨_, rfl⟩
  have hft : Safe NoZeroAfterSlash floatText := by
    intro s _
    rcases floatText_total s with ⟨w, t, e, -, h⟩ | ⟨-, h⟩ | ⟨u, h⟩
    · refine ⟨_, h, fun t' a h => ?_⟩
      injection h with e1
      subst e1
      exact ⟨w, e.symm⟩
    · exact ⟨_, h, by simp⟩
    · exact ⟨_, h, by simp⟩
  have htu : Safe NoZeroAfterSlash (takeUntil1 '"') := by
    intro s _
    unfold takeUntil1
    split_ifs
    · refine ⟨_, rfl, fun t' a h => ?_⟩
      injection h with e1
      subst e1
      exact List.dropWhile_suffix _
    · exact ⟨_, rfl, by simp⟩
  have hn : Safe NoZeroAfterSlash name := safe_takeTill1 _
  have hk : Safe NoZeroAfterSlash key := safe_mapOpt' hn
  have hf : Safe NoZeroAfterSlash (field F) :=
    safe_orElse (safe_mapOpt' hfr) (safe_orElse (safe_mapOpt' hft)
      (safe_orElse (safe_mapOpt' (safe_delimited hP (safe_char _) htu (safe_char _))) (safe_mapOpt' hn)))
  have hl : Safe NoZeroAfterSlash (separatedList0 space1 (field F)) := safe_separatedList0 hP safe_space1 hf
  have hlc : Safe NoZeroAfterSlash (lineContent F) :=
    safe_orElse (safe_mapOpt' (safe_separatedPair hP hk safe_space1 hl)) (safe_orElse (safe_mapOpt' hk) hl)
  have hline : Safe NoZeroAfterSlash (line F) :=
    safe_delimited hP safe_space0 hlc (safe_pair hP safe_space0 (safe_opt (safe_mapOpt' (safe_pair hP (safe_tag _) safe_restAll))))
  obtain ⟨r, h1, -⟩ := hline s h
  unfold parseCgdLine
  rw [h1]
  cases r <;> exact ⟨_, rfl⟩

end Systre.Cgd
