import Verif.Lemmas.CgdEdit
import Verif.Props.CgdLine
import Verif.Props.Cgd

/-!
# Property C87: edits of a CGD file that do not concern a block leave it alone
-/

namespace Systre
open Cgd CgdText OpText

variable {D : Type} {F : Floats D} {lower : List Char → List Char}

theorem run_same {f : Nat → Nat} {text : Bool} {es es' : List (Entry D)}
    (h : List.Forall₂ (SameEntry f text false) es es') :
    SameOutcome (List.Forall₂ (SameBlock f text false))
      (finishBlocks (es.foldl (blockStep lower) ⟨[], Block.new, none, false⟩))
      (finishBlocks (es'.foldl (blockStep lower) ⟨[], Block.new, none, false⟩)) := by
  obtain ⟨_, h1⟩ := SameState.fold (lower := lower) (keys := false) h sameState_init fun _ _ _ _ _ _ _ => Or.inl trivial
  rcases h1.finish with ⟨h2, h3⟩ | ⟨bs, bs', h2, h3, h4⟩
  · rw [h2, h3]; exact .panic
  · rw [h2, h3]; exact .ok h4

theorem map_of_same {α β : Type} {R : α → β → Prop} {g : α → β} {x : Outcome α} {y : Outcome β}
    (h : SameOutcome R x y) (hR : ∀ a b, R a b → b = g a) : y = g <$> x := by
  cases h with
  | ok h => rw [hR _ _ h]; rfl
  | panic => rfl
  | diverge => rfl

/-- **C87** (blank lines and comments). A blank line or a comment can be inserted anywhere: the blocks are the same, with the
lines after it numbered one higher. -/
theorem C87_blank (s t : List Line) (u c : List Char) (hu : Blank u) (hc : c = [] ∨ ∃ r, c = '#' :: r) :
    parseBlocks F lower (s ++ .text (u ++ c) :: t) =
      (fun bs => bs.map (Block.renumber (insertedAt s.length))) <$> parseBlocks F lower (s ++ t) := by
  have hp : parseCgdLine F (u ++ c) = .ok (.parsed [] []) := by
    rw [C66_read]
    exact ⟨u, [], [], c, by simp, hu, (fun c hc => by cases hc), .empty, hc⟩
  refine map_of_same (R := List.Forall₂ (SameBlock (insertedAt s.length) false false)) ?_
    fun a b h => forall₂_map_eq (fun _ _ => SameBlock.eq) h
  unfold parseBlocks parseLines
  rw [parseLinesFrom_append, parseLinesFrom_append]
  simp only [Nat.zero_add, bind_assoc, parseLinesFrom, Outcome.ok_bind]
  refine SameOutcome.bind (parseLinesFrom_same (f := insertedAt s.length) (text := false) (sameMeaning_refl s)
    (fun _ => rfl) fun i hi => by simp [insertedAt, hi]) fun a a' ha => ?_
  rw [show parseLine F lower s.length (.text (u ++ c)) = .ok ⟨.empty, none, [], [], s.length, some (u ++ c)⟩ by
    unfold parseLine; simp [hp]]
  simp only [Outcome.ok_bind]
  refine SameOutcome.bind (parseLinesFrom_same (f := insertedAt s.length) (text := false) (sameMeaning_refl t)
    (fun _ => rfl) fun i hi => by simp [insertedAt]; omega) fun b b' hb => ?_
  have h1 := run_same (lower := lower) (List.rel_append ha hb)
  rw [show (a' ++ (⟨.empty, none, [], [], s.length, some (u ++ c)⟩ : Entry D) :: b').foldl (blockStep lower)
    ⟨[], Block.new, none, false⟩ = (a' ++ b').foldl (blockStep lower) ⟨[], Block.new, none, false⟩ by
      rw [List.foldl_append, List.foldl_append, List.foldl_cons]; rfl]
  exact h1

/-- **C87** (layout). Two files whose lines have the same fields one by one, up to upper and lower case of the keywords, have
the same blocks, up to the texts of the lines. -/
theorem C87_layout (s s' : List Line) (h : List.Forall₂ (SameMeaning F lower) s s') :
    SameOutcome (List.Forall₂ (SameBlock id true false)) (parseBlocks F lower s) (parseBlocks F lower s') := by
  unfold parseBlocks parseLines
  exact (parseLinesFrom_same (f := id) (text := true) h (fun h => (Bool.false_ne_true h.symm).elim) fun i _ => rfl).bind
    fun a a' ha => run_same ha

/-- **C87** (layout). Blanks at both ends and a comment at the end do not change the meaning of a line that has been read
without complaint. -/
theorem C87_comment (w : List Char) (l : List (Cgd.Field D)) (hw : parseCgdLine F w = .ok (.parsed [] l)) (u v c : List Char)
    (hu : Blank u) (hv : Blank v) (hc : c = [] ∨ ∃ r, c = '#' :: r) :
    SameMeaning F lower (.text w) (.text (u ++ w ++ v ++ c)) := by
  refine .fields ?_
  rw [hw]
  symm
  obtain ⟨a, b, d, t, rfl, ha, hd, hb, ht⟩ := (C66_read w l).1 hw
  rw [C66_read]
  have app : ∀ {x y : List Char}, Blank x → Blank y → Blank (x ++ y) := fun hx hy z hz =>
    (List.mem_append.1 hz).elim (hx z) (hy z)
  rcases ht with rfl | ⟨r, rfl⟩
  · exact ⟨u ++ a, b, d ++ v, c, by simp, app hu ha, app hd hv, hb, hc⟩
  · exact ⟨u ++ a, b, d, '#' :: r ++ v ++ c, by simp, app hu ha, hd, hb, Or.inr ⟨_, rfl⟩⟩

theorem concat_run {keys : Bool} (s t : List Line) (w r k : List Char) (fs : List (Cgd.Field D))
    (hw : parseCgdLine F w = .ok (.parsed r (.key k :: fs))) (hk : lower (lower k) = endText) (bs : List (Block D))
    (hs : parseBlocks F lower (s ++ [.text w]) = .ok bs)
    (ht : keys = false → ∀ p e q, parseLines F lower t = .ok (p ++ e :: q) → e.entryType = .data → e.key = none →
      ∃ c ∈ p, ∃ k, c.entryType = .data ∧ c.key = some k ∧ lower k ≠ endText) :
    SameOutcome (fun ct cs => ∃ ct', cs = bs ++ ct' ∧ List.Forall₂ (SameBlock (fun n => s.length + 1 + n) false keys) ct ct')
      (parseBlocks F lower t) (parseBlocks F lower (s ++ .text w :: t)) := by
  have hend : parseLine F lower s.length (.text w) =
      .ok ⟨.data, some (lower k), fs, if r.length > 0 then [Note.error (.unparsed r)] else [], s.length, some w⟩ := by
    unfold parseLine
    simp [hw]
  -- the state after the first file
  unfold parseBlocks parseLines at hs
  rw [parseLinesFrom_append] at hs
  simp only [Nat.zero_add, bind_assoc, parseLinesFrom, Outcome.ok_bind, hend] at hs
  obtain ⟨es, h1, h2⟩ := Outcome.bind_eq_ok.1 hs
  rw [List.foldl_append, List.foldl_cons, List.foldl_nil] at h2
  generalize hst : es.foldl (blockStep lower) (⟨[], Block.new, none, false⟩ : BlockState D) = st at h2
  obtain ⟨key', hst'⟩ : ∃ key', blockStep lower st ⟨.data, some (lower k), fs,
      if r.length > 0 then [Note.error (.unparsed r)] else [], s.length, some w⟩ = ⟨bs, Block.new, key', false⟩ := by
    generalize (if r.length > 0 then [Note.error (.unparsed r)] else []) = ns at h2 ⊢
    unfold blockStep at h2 ⊢
    simp only [hk, if_true] at h2 ⊢
    unfold finishBlocks at h2
    simp only [Bool.false_eq_true, if_false] at h2
    exact ⟨_, by rw [Outcome.ok.inj h2]⟩
  have key : ∀ et et', parseLines F lower t = .ok et →
      List.Forall₂ (SameEntry (fun n => s.length + 1 + n) false false) et et' →
      SameOutcome (fun ct cs => ∃ ct', cs = bs ++ ct' ∧ List.Forall₂ (SameBlock (fun n => s.length + 1 + n) false keys) ct ct')
        (finishBlocks (et.foldl (blockStep lower) ⟨[], Block.new, none, false⟩))
        (finishBlocks (et'.foldl (blockStep lower) ⟨bs, Block.new, key', false⟩)) := by
    intro et et' het hee
    have h0 : SameState (fun n => s.length + 1 + n) false keys bs False (⟨[], Block.new, none, false⟩ : BlockState D)
        ⟨bs, Block.new, key', false⟩ :=
      ⟨⟨[], by simp, List.Forall₂.nil⟩, rfl, List.Forall₂.nil, rfl, fun h => (Bool.false_ne_true h).elim,
        fun h => (h.elim Bool.false_ne_true id).elim⟩
    obtain ⟨_, h3⟩ := SameState.fold (lower := lower) hee h0 fun hk p e q hx h4 h5 =>
      Or.inr (ht hk p e q (by rw [het, hx]) h4 h5)
    rcases h3.finish with ⟨h4, h5⟩ | ⟨cs, cs', h4, h5, h6⟩
    · rw [h4, h5]; exact .panic
    · rw [h4, h5]; exact .ok ⟨cs', rfl, h6⟩
  unfold parseBlocks parseLines
  rw [parseLinesFrom_append]
  simp only [Nat.zero_add, bind_assoc, parseLinesFrom, Outcome.ok_bind, hend, h1]
  have hsame := parseLinesFrom_same (F := F) (lower := lower) (f := fun n => s.length + 1 + n) (text := false) (sameMeaning_refl t)
    (fun _ => rfl) (n := 0) (m := s.length + 1) fun i _ => by simp
  generalize hx : parseLinesFrom F lower 0 t = x at hsame
  generalize parseLinesFrom F lower (s.length + 1) t = y at hsame
  cases hsame with
  | panic => exact .panic
  | diverge => exact .diverge
  | ok h =>
    simp only [Outcome.ok_bind, List.foldl_append, List.foldl_cons, hst, hst']
    exact key _ _ hx h

/-- **C87** (concatenation). If a file ends with an `END` line, then the blocks of a second file appended to it are added to
its blocks, with other line numbers. The key of a line that comes before the start of its block can be different; all these
lines carry an error note. -/
theorem C87_concat (s t : List Line) (w r k : List Char) (fs : List (Cgd.Field D))
    (hw : parseCgdLine F w = .ok (.parsed r (.key k :: fs))) (hk : lower (lower k) = endText) (bs : List (Block D))
    (hs : parseBlocks F lower (s ++ [.text w]) = .ok bs) :
    SameOutcome (fun ct cs => ∃ ct', cs = bs ++ ct' ∧ List.Forall₂ (SameBlock (fun n => s.length + 1 + n) false true) ct ct')
      (parseBlocks F lower t) (parseBlocks F lower (s ++ .text w :: t)) :=
  concat_run s t w r k fs hw hk bs hs fun h => (Bool.false_ne_true h.symm).elim

/-- **C87** (concatenation). The keys are the same, too, if in the second file every data line without keyword comes after
a line with a keyword other than `END`. -/
theorem C87_concat_exact (s t : List Line) (w r k : List Char) (fs : List (Cgd.Field D))
    (hw : parseCgdLine F w = .ok (.parsed r (.key k :: fs))) (hk : lower (lower k) = endText) (bs : List (Block D))
    (hs : parseBlocks F lower (s ++ [.text w]) = .ok bs)
    (ht : ∀ p e q, parseLines F lower t = .ok (p ++ e :: q) → e.entryType = .data → e.key = none →
      ∃ c ∈ p, ∃ k, c.entryType = .data ∧ c.key = some k ∧ lower k ≠ endText) :
    parseBlocks F lower (s ++ .text w :: t) =
      (fun ct => bs ++ ct.map (Block.renumber (fun n => s.length + 1 + n))) <$> parseBlocks F lower t :=
  map_of_same (concat_run (keys := false) s t w r k fs hw hk bs hs fun _ => ht) fun a b ⟨c, h1, h2⟩ => by
    rw [h1, forall₂_map_eq (fun _ _ => SameBlock.eq) h2]

/-! ### Concrete files -/

def edited : List Line := [.text "first 7".toList, .text "  1 2".toList, .text "END # done".toList]
def added : List Line := [.text "second".toList, .text "5 x".toList, .text "end".toList]

-- a comment between two lines, and other blanks and cases
example : parseBlocks sampleFloats sampleLower ([.text "first 7".toList] ++ .text " # remark".toList ::
    [.text "  1 2".toList, .text "END # done".toList]) =
    (fun bs => bs.map (Block.renumber (insertedAt 1))) <$> parseBlocks sampleFloats sampleLower edited :=
  C87_blank [.text "first 7".toList] [.text "  1 2".toList, .text "END # done".toList] [' '] "# remark".toList
    (by intro c hc; simp at hc; exact Or.inl hc) (Or.inr ⟨_, rfl⟩)
example : (fun bs => bs.map (fun b => (b.linenoStart, b.linenoEnd, b.entries.length))) <$>
    parseBlocks sampleFloats sampleLower edited = .ok [(0, 2, 3)] := by decide +kernel
example : SameMeaning sampleFloats sampleLower (.text "Data 1".toList) (.text "DATA  1 # x".toList) :=
  .case (r := []) (k := "Data".toList) (k' := "DATA".toList) (fs := [.int 1]) (by decide +kernel) (by decide +kernel)
    (by decide +kernel)
-- the hypotheses of the concatenation
example : parseCgdLine sampleFloats "END # done".toList = .ok (.parsed [] [.key "END".toList]) ∧
    sampleLower (sampleLower "END".toList) = endText ∧
    (fun bs => bs.length) <$> parseBlocks sampleFloats sampleLower edited = .ok 1 := by
  refine ⟨?_, ?_, ?_⟩ <;> decide +kernel
example : ∀ p e q, parseLines sampleFloats sampleLower added = .ok (p ++ e :: q) → e.entryType = .data → e.key = none →
    ∃ c ∈ p, ∃ k, c.entryType = .data ∧ c.key = some k ∧ sampleLower k ≠ endText := by
  have h : parseLines sampleFloats sampleLower added = .ok [⟨.data, some "second".toList, [], [], 0, some "second".toList⟩,
      ⟨.data, none, [.int 5, .name "x".toList], [], 1, some "5 x".toList⟩,
      ⟨.data, some "end".toList, [], [], 2, some "end".toList⟩] := by decide +kernel
  intro p e q he h1 h2
  rw [h] at he
  have he := Outcome.ok.inj he
  rcases p with _ | ⟨c, p⟩
  · obtain rfl := (List.cons.inj he).1
    cases h2
  · obtain rfl := (List.cons.inj he).1
    exact ⟨_, List.mem_cons_self, _, rfl, rfl, by decide +kernel⟩
-- the reservation about the keys: the line `3` has the key `data` after another file, and none in a file of its own
example : (fun bs => bs.map (fun b => b.entries.map Entry.key)) <$>
      parseBlocks sampleFloats sampleLower [.text "3".toList, .text "second".toList, .text "end".toList] =
      .ok [[none, some "second".toList, some "end".toList]] ∧
    (fun bs => bs.map (fun b => b.entries.map Entry.key)) <$> parseBlocks sampleFloats sampleLower
        [.text "first".toList, .text "data".toList, .text "end".toList, .text "3".toList, .text "second".toList,
          .text "end".toList] =
      .ok [[some "first".toList, some "data".toList, some "end".toList],
        [some "data".toList, some "second".toList, some "end".toList]] := by
  constructor <;> decide +kernel

end Systre
