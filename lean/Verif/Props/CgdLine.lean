import Verif.Lemmas.CgdStop

/-!
# C66: the lines of a CGD file (src/io/parse_cgd_line.rs)

The specification is `Verif/Spec/CgdLine.lean`. The meaning of floating point texts is an arbitrary `F : Floats D`.
-/

namespace Systre
open Cgd CgdText OpText

variable {D : Type} {F : Floats D}

/-- **C66** (lines that are read). A line is read completely, with the fields `l`, exactly when it consists of blanks,
then a keyword and fields, or a keyword, or fields of which the first does not begin with a letter, or nothing, then
blanks, and then the end or a comment; the fields are separated by blanks and `l` lists what they mean. -/
theorem C66_read (s : List Char) (l : List (Cgd.Field D)) :
    parseCgdLine F s = .ok (.parsed [] l) ↔
      ∃ u c v t, s = u ++ c ++ v ++ t ∧ Blank u ∧ Blank v ∧ Content Key (Word F) c l ∧ (t = [] ∨ ∃ r, t = '#' :: r) := by
  constructor
  · intro h
    obtain ⟨u, c, v, t, e, hu, hv, hc, h1⟩ := line_done h
    refine ⟨u, c, v, t, e, hu, hv, hc, ?_⟩
    rcases h1 with ⟨r, e, -⟩ | ⟨e, -⟩
    · exact Or.inr ⟨r, e⟩
    · exact Or.inl e.symm
  · rintro ⟨u, c, v, t, rfl, hu, hv, hc, h1⟩
    refine line_text hu hv hc ?_
    rintro d q rfl
    rcases h1 with h1 | ⟨r, h1⟩
    · cases h1
    · injection h1 with e1

/-- **C66** (lines that are read in part). What is left over is the end of the line, begins with neither a blank nor `#`,
and the fields are those of the text before it. -/
theorem C66_rest (s rest : List Char) (l : List (Cgd.Field D)) (h : parseCgdLine F s = .ok (.parsed rest l)) (hr : rest ≠ []) :
    ∃ u c v, s = u ++ c ++ v ++ rest ∧ Blank u ∧ Blank v ∧ Content Key (Word F) c l ∧
      ∀ d r, rest = d :: r → d ≠ ' ' ∧ d ≠ '\t' ∧ d ≠ '#' := by
  obtain ⟨u, c, v, t, e, hu, hv, hc, h1⟩ := line_done h
  rcases h1 with ⟨r, -, e2⟩ | ⟨rfl, h1⟩
  · exact absurd e2 hr
  · refine ⟨u, c, v, e, hu, hv, hc, fun d r e => ?_⟩
    have := h1 d r e
    push Not at this
    refine ⟨fun e => this.1 (ParseOperator.isBlank_iff.2 (Or.inl e)), fun e => this.1 (ParseOperator.isBlank_iff.2 (Or.inr e)),
      this.2⟩

/-- **C66** (errors). `Err` is returned exactly when, where a field is expected, there is a number followed by `e` or `E`
without an exponent; the error names the text that begins with that number. -/
theorem C66_error (s t : List Char) (k : Nom.Kind) :
    parseCgdLine F s = .ok (.error k t) ↔ k = .float ∧ BadExponent t ∧ ∃ l, At F s l t := by
  constructor
  · intro h
    rcases line_cases (F := F) s with ⟨rest, l, h1⟩ | ⟨t', l, h1, h2⟩
    · rw [h] at h1
      cases Outcome.ok.inj h1
    · rw [h] at h2
      cases h2 with
      | fail h2 => exact ⟨rfl, h2, l, h1⟩
  · rintro ⟨rfl, hb, l, h⟩
    have := line_stops h (.fail hb)
    generalize hg : parseCgdLine F s = o at this
    cases this with
    | fail => rfl
    | panic hz =>
      have h1 := field_bad (F := F) hb
      rw [field_zero hz] at h1
      cases h1

/-- **C66** (panics). The parser panics exactly when, where a field is expected, there is a fraction with the denominator
zero. -/
theorem C66_panic (s : List Char) :
    parseCgdLine F s = .panic ↔ ∃ l t, ZeroFraction t ∧ At F s l t := by
  constructor
  · intro h
    rcases line_cases (F := F) s with ⟨rest, l, h1⟩ | ⟨t', l, h1, h2⟩
    · rw [h] at h1; cases h1
    · rw [h] at h2
      cases h2 with
      | panic h2 => exact ⟨l, t', h2, h1⟩
  · rintro ⟨l, t, hz, h⟩
    have := line_stops h (.panic hz)
    generalize hg : parseCgdLine F s = o at this
    cases this with
    | panic => rfl
    | fail hb =>
      have h1 := field_bad (F := F) hb
      rw [field_zero hz] at h1
      cases h1

/-- **C66** (termination). -/
theorem C66_terminates (s : List Char) : parseCgdLine F s ≠ .diverge := by
  intro h
  rcases line_cases (F := F) s with ⟨rest, l, h1⟩ | ⟨t', l, h1, h2⟩
  · rw [h] at h1; cases h1
  · rw [h] at h2; cases h2

/-- **C66** (no ambiguity). A word has at most one meaning, and so has a line. -/
theorem C66_unique {w : List Char} {f g : Cgd.Field D} (hf : Word F w f) (hg : Word F w g) : f = g := by
  have h1 := field_text (t := []) hf (fun c r e => by cases e)
  rw [field_text (t := []) hg (fun c r e => by cases e)] at h1
  have h1 := Outcome.ok.inj h1
  injection h1 with _ h1
  exact h1.symm

/-- an interpretation of floating point texts for the examples: digits are integers, the rest is kept as a text -/
def F0 : Floats (List Char) := ⟨id, fun w =>
  if w.all (fun c => '0' ≤ c && c ≤ '9') then some (w.foldl (fun n c => 10 * n + (c.toNat - '0'.toNat : Nat)) 0) else none⟩

/-- Non-trivial lines that are read. -/
theorem C66_witness :
    parseCgdLine F0 "  ATOM 1 -1/2 0.25 \"a name\" x#y".toList =
      .ok (.parsed [] [.key "ATOM".toList, .int 1, .fraction (-1 / 2), .double "0.25".toList, .name "a name".toList,
        .name "x".toList]) ∧
    parseCgdLine F0 "1 2  # 3".toList = .ok (.parsed [] [.int 1, .int 2]) ∧
    parseCgdLine F0 "END ".toList = .ok (.parsed [] [.key "END".toList]) ∧
    parseCgdLine F0 " # only a comment".toList = .ok (.parsed [] []) := by
  decide +kernel

/-- **C66** is false without the reservations above. A zero denominator panics, a word such as `4e` makes the whole line an
error, names that begin with `inf` or `nan` or with a digit are cut, the empty string in quotes is not read, and a letter
whose code ends in the byte 32 ends a name. -/
theorem C66_refuted :
    parseCgdLine F0 "NODE 1/0".toList = .panic ∧
    parseCgdLine F0 "NODE 4e".toList = .ok (.error .float "4e".toList) ∧
    parseCgdLine F0 "NODE info".toList = .ok (.parsed "o".toList [.key "NODE".toList, .double "inf".toList]) ∧
    parseCgdLine F0 "NODE 4a".toList = .ok (.parsed "a".toList [.key "NODE".toList, .int 4]) ∧
    parseCgdLine F0 "NAME \"\"".toList = .ok (.parsed "\"\"".toList [.key "NAME".toList]) ∧
    parseCgdLine F0 "NAME aĠb".toList = .ok (.parsed "Ġb".toList [.key "NAME".toList, .name "a".toList]) := by
  decide +kernel

end Systre
