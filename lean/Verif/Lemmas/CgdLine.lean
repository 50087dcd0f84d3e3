import Verif.Spec.CgdLine
import Verif.Lemmas.ParseComplete
import Mathlib.Tactic.IntervalCases

/-! # Reading a line of a CGD file -/

namespace Systre.Cgd
open Nom OpText CgdText
open ParseOperator (NoHead isDig_iff isBlank_iff takeWhile_text char_done char_text char_err space0_done space0_append
  space0_eq integer_done integer_text integer_err)

variable {D : Type} {F : Floats D}

/-- does not begin with a digit -/
abbrev NoDig (s : List Char) : Prop := NoHead (fun c => isDig c = true) s

theorem digit1_done {s t ds : List Char} (h : digit1 s = .ok (.done t ds)) : s = ds ++ t ∧ Digits ds ∧ NoDig t := by
  unfold digit1 at h
  cases s with
  | nil => cases Outcome.ok.inj h
  | cons c s =>
    dsimp only at h
    split_ifs at h with hc
    swap
    · cases Outcome.ok.inj h
    · have h := Outcome.ok.inj h
      injection h with e1 e2
      refine ⟨?_, ⟨?_, ?_⟩, ?_⟩
      · rw [← e1, ← e2, List.takeWhile_append_dropWhile]
      · rw [← e2, List.takeWhile_cons_of_pos hc]; simp
      · intro d hd
        rw [← e2] at hd
        exact isDig_iff.1 (List.mem_takeWhile_imp hd)
      · intro d r hr hd
        rw [← e1] at hr
        have := List.head?_dropWhile_not (p := isDig) (l := c :: s)
        rw [hr] at this
        simp [hd] at this

theorem digit1_text {ds t : List Char} (h : Digits ds) (ht : NoDig t) : digit1 (ds ++ t) = .ok (.done t ds) := by
  obtain ⟨h1, h3⟩ := h
  obtain ⟨e1, e2⟩ := takeWhile_text (p := isDig) (fun c hc => isDig_iff.2 (h3 c hc)) ht
  unfold digit1
  rw [e1, e2]
  cases ds with
  | nil => exact absurd rfl h1
  | cons c r =>
    simp only [List.cons_append]
    rw [if_pos (isDig_iff.2 (h3 c (by simp)))]

theorem digit1_err {s : List Char} (h : NoDig s) : digit1 s = .ok (.err .digit s) := by
  unfold digit1
  cases s with
  | nil => rfl
  | cons c r => dsimp only; rw [if_neg (h c r rfl)]

/-- `digit1` reads digits or makes an error -/
theorem digit1_total (s : List Char) : (∃ ds t, s = ds ++ t ∧ Digits ds ∧ NoDig t ∧ digit1 s = .ok (.done t ds)) ∨
    (NoDig s ∧ digit1 s = .ok (.err .digit s)) := by
  by_cases h : NoDig s
  · exact Or.inr ⟨h, digit1_err h⟩
  · left
    unfold NoDig NoHead at h
    push Not at h
    obtain ⟨c, r, rfl, hc⟩ := h
    have : digit1 (c :: r) = .ok (.done ((c :: r).dropWhile isDig) ((c :: r).takeWhile isDig)) := by
      unfold digit1; dsimp only; rw [if_pos hc]
    obtain ⟨h1, h2, h3⟩ := digit1_done this
    exact ⟨_, _, h1, h2, h3, this⟩

theorem opt_of_done {α : Type} {p : Parser α} {s t : List Char} {a : α} (h : p s = .ok (.done t a)) :
    opt p s = .ok (.done t (some a)) := by
  unfold opt; rw [h]; rfl

theorem opt_of_err {α : Type} {p : Parser α} {s t : List Char} {k : Kind} (h : p s = .ok (.err k t)) :
    opt p s = .ok (.done s none) := by
  unfold opt; rw [h]; rfl

theorem opt_of_fail {α : Type} {p : Parser α} {s t : List Char} {k : Kind} (h : p s = .ok (.fail k t)) :
    opt p s = .ok (.fail k t) := by
  unfold opt; rw [h]; rfl

/-- the two signs -/
abbrev signP : Parser (Option Char) := opt (orElse (char '+') (char '-'))

/-- does not begin with a sign -/
abbrev NoSign (s : List Char) : Prop := NoHead (fun c => c = '+' ∨ c = '-') s

theorem signP_text {g t : List Char} (h : Sign g) (ht : g = [] → NoSign t) : ∃ o, signP (g ++ t) = .ok (.done t o) := by
  rcases h with rfl | rfl | rfl
  · have ht := ht rfl
    refine ⟨none, opt_of_err (k := .char) (t := t) ?_⟩
    have h1 : char '+' ([] ++ t) = .ok (.err .char t) := char_err (fun c r e hc => ht c r e (Or.inl hc))
    rw [orElse_right h1]
    exact char_err (fun c r e hc => ht c r e (Or.inr hc))
  · exact ⟨_, opt_of_done (orElse_left (char_text _ _))⟩
  · refine ⟨some '-', opt_of_done ?_⟩
    have h1 : char '+' (['-'] ++ t) = .ok (.err .char ('-' :: t)) := by
      apply char_err
      intro c r e hc
      injection e with e1
      subst e1; exact absurd hc (by decide)
    rw [orElse_right h1]
    exact char_text _ _

theorem signP_total (s : List Char) : ∃ g t o, s = g ++ t ∧ Sign g ∧ (g = [] → NoSign t) ∧ signP s = .ok (.done t o) := by
  by_cases h : NoSign s
  · obtain ⟨o, ho⟩ := signP_text (g := []) (Or.inl rfl) (fun _ => h)
    exact ⟨[], s, o, rfl, Or.inl rfl, fun _ => h, ho⟩
  · unfold NoSign NoHead at h
    push Not at h
    obtain ⟨c, r, rfl, hc⟩ := h
    have hs : Sign [c] := by rcases hc with rfl | rfl; exacts [Or.inr (Or.inl rfl), Or.inr (Or.inr rfl)]
    obtain ⟨o, ho⟩ := signP_text (g := [c]) (t := r) hs (by simp)
    exact ⟨[c], r, o, rfl, hs, by simp, ho⟩

/-- the mantissa -/
abbrev mantissaP : Parser Unit :=
  orElse
    (andThen digit1 (fun _ => andThen (opt (pair (char '.') (opt digit1))) (fun _ => ret ())))
    (andThen (char '.') (fun _ => andThen digit1 (fun _ => ret ())))

theorem pointP (t : List Char) : ∃ x u o, t = x ++ u ∧ (x = [] ∧ NoHead (fun c => c = '.') u ∨ x = ['.'] ∧ NoDig u ∨
    (∃ b, x = '.' :: b ∧ Digits b) ∧ NoDig u) ∧ opt (pair (char '.') (opt digit1)) t = .ok (.done u o) := by
  by_cases h : NoHead (fun c => c = '.') t
  · refine ⟨[], t, none, rfl, Or.inl ⟨rfl, h⟩, opt_of_err (andThen_err (char_err h))⟩
  · unfold NoHead at h
    push Not at h
    obtain ⟨c, r, rfl, rfl⟩ := h
    rcases digit1_total r with ⟨ds, u, rfl, h1, h2, h3⟩ | ⟨h1, h2⟩
    · refine ⟨'.' :: ds, u, some ('.', some ds), rfl, Or.inr (Or.inr ⟨⟨ds, rfl, h1⟩, h2⟩), opt_of_done ?_⟩
      unfold pair
      rw [andThen_eq (char_text _ _), andThen_eq (opt_of_done h3)]
      rfl
    · refine ⟨['.'], r, some ('.', none), rfl, Or.inr (Or.inl ⟨rfl, h1⟩), opt_of_done ?_⟩
      unfold pair
      rw [andThen_eq (char_text _ _), andThen_eq (opt_of_err h2)]
      rfl

theorem pointP_text {x u : List Char} (h : x = [] ∧ NoHead (fun c => c = '.') u ∨ x = ['.'] ∧ NoDig u ∨
    (∃ b, x = '.' :: b ∧ Digits b) ∧ NoDig u) : ∃ o, opt (pair (char '.') (opt digit1)) (x ++ u) = .ok (.done u o) := by
  rcases h with ⟨rfl, h⟩ | ⟨rfl, h⟩ | ⟨⟨b, rfl, hb⟩, h⟩
  · exact ⟨none, opt_of_err (andThen_err (char_err h))⟩
  · refine ⟨some ('.', none), opt_of_done ?_⟩
    unfold pair
    have : char '.' (['.'] ++ u) = .ok (.done u '.') := char_text _ _
    rw [andThen_eq this, andThen_eq (opt_of_err (digit1_err h))]
    rfl
  · refine ⟨some ('.', some b), opt_of_done ?_⟩
    unfold pair
    have : char '.' ('.' :: b ++ u) = .ok (.done (b ++ u) '.') := char_text _ _
    rw [andThen_eq this, andThen_eq (opt_of_done (digit1_text hb h))]
    rfl

theorem mantissaP_text {m t : List Char} (h : Mantissa m) (ht : NoDig t) (hp : NoHead (fun c => c = '.') t) :
    mantissaP (m ++ t) = .ok (.done t ()) := by
  have hdot : ∀ r, NoDig ('.' :: r) := by
    intro r c q e hc
    injection e with e1
    subst e1
    exact absurd hc (by decide)
  have go : ∀ a x, Digits a → (x = [] ∧ NoHead (fun c => c = '.') t ∨ x = ['.'] ∧ NoDig t ∨
      (∃ b, x = '.' :: b ∧ Digits b) ∧ NoDig t) → mantissaP (a ++ (x ++ t)) = .ok (.done t ()) := by
    intro a x ha hx
    have hnd : NoDig (x ++ t) := by
      rcases hx with ⟨rfl, -⟩ | ⟨rfl, -⟩ | ⟨⟨b, rfl, -⟩, -⟩
      · exact ht
      · exact hdot _
      · exact hdot _
    obtain ⟨o, ho⟩ := pointP_text hx
    refine orElse_left ?_
    rw [andThen_eq (digit1_text ha hnd), andThen_eq ho]
    rfl
  cases h with
  | int ha => exact go _ [] ha (Or.inl ⟨rfl, hp⟩)
  | point ha => rw [List.append_assoc]; exact go _ _ ha (Or.inr (Or.inl ⟨rfl, ht⟩))
  | @decimal a b ha hb => rw [List.append_assoc]; exact go _ _ ha (Or.inr (Or.inr ⟨⟨b, rfl, hb⟩, ht⟩))
  | @fraction b hb =>
    have h1 : andThen digit1 (fun _ => andThen (opt (pair (char '.') (opt digit1))) (fun _ => ret ())) ('.' :: b ++ t) =
        .ok (.err .digit ('.' :: b ++ t)) := andThen_err (digit1_err (hdot _))
    unfold mantissaP
    rw [orElse_right h1]
    have h2 : char '.' ('.' :: b ++ t) = .ok (.done (b ++ t) '.') := char_text _ _
    rw [andThen_eq h2, andThen_eq (digit1_text hb ht)]
    rfl

theorem mantissaP_total (s : List Char) :
    (∃ m t, s = m ++ t ∧ Mantissa m ∧ NoDig t ∧ mantissaP s = .ok (.done t ())) ∨ ∃ k u, mantissaP s = .ok (.err k u) := by
  rcases digit1_total s with ⟨ds, u, rfl, h1, h2, h3⟩ | ⟨h1, h2⟩
  · left
    obtain ⟨x, v, o, rfl, hx, h4⟩ := pointP u
    refine ⟨ds ++ x, v, by simp, ?_, ?_, ?_⟩
    · rcases hx with ⟨rfl, -⟩ | ⟨rfl, -⟩ | ⟨⟨b, rfl, hb⟩, -⟩
      · rw [List.append_nil]; exact .int h1
      · exact .point h1
      · exact .decimal h1 hb
    · rcases hx with ⟨rfl, -⟩ | ⟨-, h⟩ | ⟨-, h⟩
      · exact h2
      · exact h
      · exact h
    · refine orElse_left ?_
      rw [andThen_eq h3, andThen_eq h4]
      rfl
  · have h3 : andThen digit1 (fun _ => andThen (opt (pair (char '.') (opt digit1))) (fun _ => ret ())) s =
        .ok (.err .digit s) := andThen_err h2
    unfold mantissaP
    rw [orElse_right h3]
    by_cases h : NoHead (fun c => c = '.') s
    · exact Or.inr ⟨_, _, andThen_err (char_err h)⟩
    · unfold NoHead at h
      push Not at h
      obtain ⟨c, r, rfl, rfl⟩ := h
      rw [andThen_eq (char_text _ _)]
      rcases digit1_total r with ⟨ds, u, rfl, h4, h5, h6⟩ | ⟨h4, h5⟩
      · left
        refine ⟨'.' :: ds, u, rfl, .fraction h4, h5, ?_⟩
        rw [andThen_eq h6]
        rfl
      · exact Or.inr ⟨_, _, andThen_err h5⟩

/-- the exponent -/
abbrev expP : Parser (Option (List Char)) :=
  opt (andThen (orElse (char 'e') (char 'E')) (fun _ =>
    andThen (opt (orElse (char '+') (char '-'))) (fun _ => cut digit1)))

theorem cut_of_done {α : Type} {p : Parser α} {s t : List Char} {a : α} (h : p s = .ok (.done t a)) :
    cut p s = .ok (.done t a) := by
  unfold cut; rw [h]; rfl

theorem cut_of_err {α : Type} {p : Parser α} {s t : List Char} {k : Kind} (h : p s = .ok (.err k t)) :
    cut p s = .ok (.fail k t) := by
  unfold cut; rw [h]; rfl

theorem andThen_fail {α β : Type} {p : Parser α} {f : α → Parser β} {s u : List Char} {k : Kind} (h : p s = .ok (.fail k u)) :
    andThen p f s = .ok (.fail k u) := by
  unfold andThen; rw [h]; rfl

/-- does not begin with `e` or `E` -/
abbrev NoE (s : List Char) : Prop := NoHead (fun c => c = 'e' ∨ c = 'E') s

theorem eP_text {c : Char} (hc : c = 'e' ∨ c = 'E') (t : List Char) : orElse (char 'e') (char 'E') (c :: t) = .ok (.done t c) := by
  rcases hc with rfl | rfl
  · exact orElse_left (char_text _ _)
  · have h1 : char 'e' ('E' :: t) = .ok (.err .char ('E' :: t)) := by
      apply char_err
      intro c r e hc
      injection e with e1
      subst e1; exact absurd hc (by decide)
    rw [orElse_right h1]
    exact char_text _ _

theorem eP_err {s : List Char} (h : NoE s) : ∃ k u, orElse (char 'e') (char 'E') s = .ok (.err k u) := by
  have h1 : char 'e' s = .ok (.err .char s) := char_err (fun c r e hc => h c r e (Or.inl hc))
  rw [orElse_right h1]
  exact ⟨_, _, char_err (fun c r e hc => h c r e (Or.inr hc))⟩

theorem expP_total (s : List Char) :
    (∃ x t o, s = x ++ t ∧ Exponent x ∧ expP s = .ok (.done t o)) ∨
    (∃ c g t, s = c :: g ++ t ∧ (c = 'e' ∨ c = 'E') ∧ Sign g ∧ NoDig t ∧ (g = [] → NoSign t) ∧ ∃ k u, expP s = .ok (.fail k u)) := by
  by_cases h : NoE s
  · obtain ⟨k, u, hu⟩ := eP_err h
    exact Or.inl ⟨[], s, none, rfl, .none, opt_of_err (andThen_err hu)⟩
  · unfold NoE NoHead at h
    push Not at h
    obtain ⟨c, r, rfl, hc⟩ := h
    obtain ⟨g, t, o, rfl, hg, hgt, ho⟩ := signP_total r
    rcases digit1_total t with ⟨ds, u, rfl, h1, h2, h3⟩ | ⟨h1, h2⟩
    · refine Or.inl ⟨c :: g ++ ds, u, some ds, by simp, .some hc hg h1, opt_of_done ?_⟩
      rw [andThen_eq (eP_text hc _), andThen_eq ho]
      exact cut_of_done h3
    · refine Or.inr ⟨c, g, t, rfl, hc, hg, h1, hgt, .digit, t, opt_of_fail ?_⟩
      rw [andThen_eq (eP_text hc _), andThen_eq ho]
      exact cut_of_err h2

theorem expP_text {x t : List Char} (h : Exponent x) (ht : NoDig t) (he : NoE t) : ∃ o, expP (x ++ t) = .ok (.done t o) := by
  cases h with
  | none =>
    obtain ⟨k, u, hu⟩ := eP_err he
    exact ⟨none, opt_of_err (andThen_err hu)⟩
  | @some c g a hc hg ha =>
    refine ⟨some a, opt_of_done ?_⟩
    have e : c :: g ++ a ++ t = c :: (g ++ (a ++ t)) := by simp
    rw [e, andThen_eq (eP_text hc _)]
    have hs : g = [] → NoSign (a ++ t) := by
      intro _ d r e hd
      obtain ⟨h1, h2⟩ := ha
      cases a with
      | nil => exact absurd rfl h1
      | cons y a =>
        injection e with e1
        subst e1
        have := h2 y (by simp)
        rcases hd with rfl | rfl <;> exact absurd this (by decide)
    obtain ⟨o, ho⟩ := signP_text hg hs
    rw [andThen_eq ho]
    exact cut_of_done (digit1_text ha ht)

theorem recognize_of {α : Type} {p : Parser α} {w t : List Char} {a : α} (h : p (w ++ t) = .ok (.done t a)) :
    recognize p (w ++ t) = .ok (.done t w) := by
  unfold recognize
  rw [h]
  simp

theorem mantissa_head {m t : List Char} (h : Mantissa m) : NoSign (m ++ t) := by
  have hd : ∀ a t, Digits a → NoSign (a ++ t) := by
    intro a t ha d r e hd
    obtain ⟨h1, h2⟩ := ha
    cases a with
    | nil => exact absurd rfl h1
    | cons y a =>
      injection e with e1
      subst e1
      have := h2 y (by simp)
      rcases hd with rfl | rfl <;> exact absurd this (by decide)
  cases h with
  | int ha => exact hd _ _ ha
  | point ha => rw [List.append_assoc]; exact hd _ _ ha
  | decimal ha _ => rw [List.append_assoc]; exact hd _ _ ha
  | fraction hb =>
    intro d r e hd
    injection e with e1
    subst e1
    rcases hd with h | h <;> exact absurd h (by decide)

/-- a text after which a number ends -/
def NumEnd (t : List Char) : Prop := NoDig t ∧ NoHead (fun c => c = '.') t ∧ NoE t

theorem recognizeFloat_text {g m x t : List Char} (hg : Sign g) (hm : Mantissa m) (hx : Exponent x) (ht : NumEnd t) :
    recognizeFloat (g ++ m ++ x ++ t) = .ok (.done t (g ++ m ++ x)) := by
  unfold recognizeFloat
  refine recognize_of (a := ()) ?_
  have e : g ++ m ++ x ++ t = g ++ (m ++ (x ++ t)) := by simp
  rw [e]
  obtain ⟨o, ho⟩ := signP_text hg (fun _ => mantissa_head (t := x ++ t) hm)
  rw [andThen_eq ho]
  have hE : ∀ c, c = 'e' ∨ c = 'E' → isDig c = false ∧ c ≠ '.' := by rintro c (rfl | rfl) <;> decide
  have h1 : NoDig (x ++ t) := by
    cases hx with
    | none => exact ht.1
    | some hc _ _ =>
      intro d r e hd
      injection e with e1
      subst e1
      rw [(hE _ hc).1] at hd; cases hd
  have h2 : NoHead (fun c => c = '.') (x ++ t) := by
    cases hx with
    | none => exact ht.2.1
    | some hc _ _ =>
      intro d r e hd
      injection e with e1
      subst e1
      exact (hE _ hc).2 hd
  rw [andThen_eq (mantissaP_text hm h1 h2)]
  obtain ⟨o2, ho2⟩ := expP_text hx ht.1 ht.2.2
  rw [andThen_eq ho2]
  rfl

theorem recognizeFloat_total (s : List Char) :
    (∃ g m x t, s = g ++ m ++ x ++ t ∧ Sign g ∧ Mantissa m ∧ Exponent x ∧ recognizeFloat s = .ok (.done t (g ++ m ++ x))) ∨
    (BadExponent s ∧ ∃ k u, recognizeFloat s = .ok (.fail k u)) ∨
    (∃ k u, recognizeFloat s = .ok (.err k u)) := by
  obtain ⟨g, t, o, rfl, hg, hgt, ho⟩ := signP_total s
  rcases mantissaP_total t with ⟨m, u, rfl, hm, hu, h1⟩ | ⟨k, u, h1⟩
  · rcases expP_total u with ⟨x, v, o2, rfl, hx, h2⟩ | ⟨c, h, v, rfl, hc, hh, hv, hhv, k, w, h2⟩
    · refine Or.inl ⟨g, m, x, v, by simp, hg, hm, hx, ?_⟩
      have e : g ++ (m ++ (x ++ v)) = (g ++ m ++ x) ++ v := by simp
      rw [e]
      refine recognize_of (a := ()) ?_
      rw [← e, andThen_eq ho, andThen_eq h1, andThen_eq h2]
      rfl
    · refine Or.inr (Or.inl ⟨⟨g, m, c, h, v, by simp, hg, hm, hc, hh, ?_, ?_⟩, k, w, ?_⟩)
      · intro d r e hd
        exact hv d r e (isDig_iff.2 hd)
      · intro e d r e2
        have := hhv e d r e2
        push Not at this
        exact this
      · unfold recognizeFloat recognize
        rw [andThen_eq ho, andThen_eq h1, andThen_fail h2]
        rfl
  · refine Or.inr (Or.inr ⟨k, u, ?_⟩)
    unfold recognizeFloat recognize
    rw [andThen_eq ho, andThen_err h1]
    rfl

theorem lower_letter {c : Char} : (lowerAscii c = 'n' ↔ c = 'n' ∨ c = 'N') ∧ (lowerAscii c = 'a' ↔ c = 'a' ∨ c = 'A') ∧
    (lowerAscii c = 'i' ↔ c = 'i' ∨ c = 'I') ∧ (lowerAscii c = 'f' ↔ c = 'f' ∨ c = 'F') := by
  unfold lowerAscii
  by_cases h : 'A' ≤ c ∧ c ≤ 'Z'
  · rw [if_pos h]
    have h1 : 65 ≤ c.toNat := h.1
    have h2 : c.toNat ≤ 90 := h.2
    have e : c = Char.ofNat c.toNat := (Char.ofNat_toNat c).symm
    generalize c.toNat = n at *
    subst e
    clear h
    interval_cases n <;> decide
  · rw [if_neg h]
    have : ∀ l : Char, ('A' ≤ l ∧ l ≤ 'Z') → c ≠ l := by rintro l hl rfl; exact h hl
    refine ⟨?_, ?_, ?_, ?_⟩
    · simp [this 'N' (by decide)]
    · simp [this 'A' (by decide)]
    · simp [this 'I' (by decide)]
    · simp [this 'F' (by decide)]

theorem three_iff {x y z : Char} {s : List Char} : [x, y, z].isPrefixOf (s.map lowerAscii) = true ↔
    ∃ a b c t, s = a :: b :: c :: t ∧ lowerAscii a = x ∧ lowerAscii b = y ∧ lowerAscii c = z := by
  rcases s with _ | ⟨a, _ | ⟨b, _ | ⟨c, t⟩⟩⟩
  · simp
  · simp
  · simp
  · simp only [List.map_cons, List.isPrefixOf, Bool.and_eq_true, beq_iff_eq]
    constructor
    · rintro ⟨h1, h2, h3, -⟩
      exact ⟨a, b, c, t, rfl, h1.symm, h2.symm, h3.symm⟩
    · rintro ⟨a', b', c', t', e, h1, h2, h3⟩
      simp only [List.cons.injEq] at e
      obtain ⟨rfl, rfl, rfl, rfl⟩ := e
      exact ⟨h1.symm, h2.symm, h3.symm, trivial⟩

theorem tagNoCase_three {x y z : Char} (s : List Char) :
    (∃ a b c t, s = a :: b :: c :: t ∧ lowerAscii a = x ∧ lowerAscii b = y ∧ lowerAscii c = z ∧
      tagNoCase [x, y, z] s = .ok (.done t [a, b, c])) ∨
    (¬ [x, y, z].isPrefixOf (s.map lowerAscii) = true ∧ tagNoCase [x, y, z] s = .ok (.err .tag s)) := by
  by_cases h : [x, y, z].isPrefixOf (s.map lowerAscii) = true
  · obtain ⟨a, b, c, t, rfl, h1, h2, h3⟩ := three_iff.1 h
    refine Or.inl ⟨a, b, c, t, rfl, h1, h2, h3, ?_⟩
    unfold tagNoCase
    rw [if_pos h]
    rfl
  · refine Or.inr ⟨h, ?_⟩
    unfold tagNoCase
    rw [if_neg h]

theorem floatErr_done {α : Type} {p : Parser α} {s t : List Char} {a : α} (h : p s = .ok (.done t a)) :
    floatErr p s = .ok (.done t a) := by
  unfold floatErr; rw [h]; rfl

theorem floatErr_err {α : Type} {p : Parser α} {s t : List Char} {k : Kind} (h : p s = .ok (.err k t)) :
    floatErr p s = .ok (.err .float s) := by
  unfold floatErr; rw [h]; rfl

theorem floatErr_fail {α : Type} {p : Parser α} {s t : List Char} {k : Kind} (h : p s = .ok (.fail k t)) :
    floatErr p s = .ok (.fail .float s) := by
  unfold floatErr; rw [h]; rfl

theorem orElse_fail {α : Type} {p q : Parser α} {s t : List Char} {k : Kind} (h : p s = .ok (.fail k t)) :
    orElse p q s = .ok (.fail k t) := by
  unfold orElse; rw [h]; rfl

/-- what `double` does: a number is read, or `e` without an exponent follows, or there is no number -/
theorem floatText_total (s : List Char) :
    (∃ w t, s = w ++ t ∧ Number w ∧ floatText s = .ok (.done t w)) ∨
    (BadExponent s ∧ floatText s = .ok (.fail .float s)) ∨
    (∃ u, floatText s = .ok (.err .float u)) := by
  unfold floatText
  rcases recognizeFloat_total s with ⟨g, m, x, t, rfl, hg, hm, hx, h⟩ | ⟨hb, k, u, h⟩ | ⟨k, u, h⟩
  · exact Or.inl ⟨_, t, rfl, .float hg hm hx, orElse_left (floatErr_done h)⟩
  · exact Or.inr (Or.inl ⟨hb, orElse_fail (floatErr_fail h)⟩)
  · rw [orElse_right (floatErr_err h)]
    rcases tagNoCase_three (x := 'n') (y := 'a') (z := 'n') s with ⟨a, b, c, t, rfl, h1, h2, h3, h4⟩ | ⟨-, h4⟩
    · exact Or.inl ⟨[a, b, c], t, rfl, .nan (lower_letter.1.1 h1) (lower_letter.2.1.1 h2) (lower_letter.1.1 h3),
        orElse_left (floatErr_done h4)⟩
    · rw [orElse_right (floatErr_err h4)]
      rcases tagNoCase_three (x := 'i') (y := 'n') (z := 'f') s with ⟨a, b, c, t, rfl, h1, h2, h3, h5⟩ | ⟨h5, h6⟩
      · exact Or.inl ⟨[a, b, c], t, rfl, .inf (lower_letter.2.2.1.1 h1) (lower_letter.1.1 h2) (lower_letter.2.2.2.1 h3),
          orElse_left (floatErr_done h5)⟩
      · rw [orElse_right (floatErr_err h6)]
        refine Or.inr (Or.inr ⟨s, floatErr_err (k := .tag) (t := s) ?_⟩)
        unfold tagNoCase
        rw [if_neg]
        intro h7
        apply h5
        rw [List.isPrefixOf_iff_prefix] at h7 ⊢
        exact List.IsPrefix.trans ⟨['i', 'n', 'i', 't', 'y'], rfl⟩ h7

theorem floatText_text {w t : List Char} (h : Number w) (ht : NumEnd t) : floatText (w ++ t) = .ok (.done t w) := by
  have hnone : ∀ a b c, (∀ r, NoSign (a :: r)) → (∀ r, NoDig (a :: r)) → a ≠ '.' →
      ∃ u, floatErr recognizeFloat (a :: b :: c :: t) = .ok (.err .float u) := by
    intro a b c h1 h2 h3
    refine ⟨_, floatErr_err (k := .char) (t := a :: b :: c :: t) ?_⟩
    obtain ⟨o, ho⟩ := signP_text (g := []) (Or.inl rfl) (fun _ => h1 (b :: c :: t))
    unfold recognizeFloat recognize
    rw [List.nil_append] at ho
    rw [andThen_eq ho]
    have h4 : andThen digit1 (fun _ => andThen (opt (pair (char '.') (opt digit1))) (fun _ => ret ())) (a :: b :: c :: t) =
        .ok (.err .digit (a :: b :: c :: t)) := andThen_err (digit1_err (h2 _))
    have h5 : char '.' (a :: b :: c :: t) = .ok (.err .char (a :: b :: c :: t)) := by
      apply char_err
      intro d r e hd
      injection e with e1
      exact h3 (e1.trans hd)
    rw [andThen_err (p := orElse _ _) (by rw [orElse_right h4]; exact andThen_err h5)]
    rfl
  have hlet : ∀ a : Char, a = 'n' ∨ a = 'N' ∨ a = 'i' ∨ a = 'I' → (∀ r, NoSign (a :: r)) ∧ (∀ r, NoDig (a :: r)) ∧ a ≠ '.' := by
    intro a ha
    refine ⟨fun r d q e hd => ?_, fun r d q e hd => ?_, ?_⟩
    · injection e with e1
      subst e1
      rcases ha with rfl | rfl | rfl | rfl <;> rcases hd with h | h <;> exact absurd h (by decide)
    · injection e with e1
      subst e1
      rcases ha with rfl | rfl | rfl | rfl <;> exact absurd hd (by decide)
    · rcases ha with rfl | rfl | rfl | rfl <;> decide
  cases h with
  | float hg hm hx => exact orElse_left (floatErr_done (recognizeFloat_text hg hm hx ht))
  | @nan a b c ha hb hc =>
    obtain ⟨h1, h2, h3⟩ := hlet a (by tauto)
    obtain ⟨u, hu⟩ := hnone a b c h1 h2 h3
    unfold floatText
    have hu : floatErr recognizeFloat ([a, b, c] ++ t) = .ok (.err .float u) := hu
    rw [orElse_right hu]
    refine orElse_left (floatErr_done ?_)
    rcases tagNoCase_three (x := 'n') (y := 'a') (z := 'n') ([a, b, c] ++ t) with ⟨a', b', c', t', e, -, -, -, h4⟩ | ⟨h4, -⟩
    · simp only [List.cons_append, List.nil_append, List.cons.injEq] at e
      obtain ⟨rfl, rfl, rfl, rfl⟩ := e
      exact h4
    · exact absurd (three_iff.2 ⟨a, b, c, t, rfl, lower_letter.1.2 ha, lower_letter.2.1.2 hb, lower_letter.1.2 hc⟩) h4
  | @inf a b c ha hb hc =>
    obtain ⟨h1, h2, h3⟩ := hlet a (by tauto)
    obtain ⟨u, hu⟩ := hnone a b c h1 h2 h3
    unfold floatText
    have hu : floatErr recognizeFloat ([a, b, c] ++ t) = .ok (.err .float u) := hu
    rw [orElse_right hu]
    rcases tagNoCase_three (x := 'n') (y := 'a') (z := 'n') ([a, b, c] ++ t) with ⟨a', b', c', t', e, e1, -, -, h4⟩ | ⟨-, h4⟩
    · simp only [List.cons_append, List.nil_append, List.cons.injEq] at e
      obtain ⟨rfl, rfl, rfl, rfl⟩ := e
      rcases lower_letter.1.1 e1 with rfl | rfl <;> rcases ha with h | h <;> exact absurd h (by decide)
    · rw [orElse_right (floatErr_err h4)]
      refine orElse_left (floatErr_done ?_)
      rcases tagNoCase_three (x := 'i') (y := 'n') (z := 'f') ([a, b, c] ++ t) with ⟨a', b', c', t', e, -, -, -, h4⟩ | ⟨h4, -⟩
      · simp only [List.cons_append, List.nil_append, List.cons.injEq] at e
        obtain ⟨rfl, rfl, rfl, rfl⟩ := e
        exact h4
      · exact absurd (three_iff.2 ⟨a, b, c, t, rfl, lower_letter.2.2.1.2 ha, lower_letter.1.2 hb, lower_letter.2.2.2.2 hc⟩) h4

end Systre.Cgd
