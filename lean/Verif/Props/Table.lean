import Verif.Lemmas.ParseTable

/-!
# C62, C63: the space group table (src/spacegroups/parse_table.rs, src/spacegroups/types.rs)

The specification is `Verif/Spec/Table.lean`. `lower` is `str::to_lowercase`, an arbitrary function here.
-/

namespace Systre
open Table ParseOperator
open Finder (CrystalSystem)

variable {lower : List Char → List Char}

/-- **C62** (words and ends). The words of a line are the longest stretches without white space, and `trim` removes the
white space at both ends and nothing else. -/
theorem C62_words (s : List Char) (ws : List (List Char)) :
    (Words s ws ↔ ws = wordsOf s) ∧ Trimmed s (trim s) := by
  refine ⟨⟨fun h => ?_, ?_⟩, trim_trimmed s⟩
  · unfold wordsOf
    rw [words_trim]
    exact words_unique h
  · rintro rfl
    unfold wordsOf
    rw [words_trim]
    exact words_split s

/-- **C62** (white space). The characters that separate words are those with the Unicode property White_Space. -/
theorem C62_white (c : Char) : isWhite c = true ↔ c.toNat ∈ [0x9, 0xA, 0xB, 0xC, 0xD, 0x20, 0x85, 0xA0, 0x1680, 0x2000,
    0x2001, 0x2002, 0x2003, 0x2004, 0x2005, 0x2006, 0x2007, 0x2008, 0x2009, 0x200A, 0x2028, 0x2029, 0x202F, 0x205F,
    0x3000] := by
  unfold isWhite
  simp only [Bool.or_eq_true, Bool.and_eq_true, decide_eq_true_eq, beq_iff_eq, List.mem_cons, List.not_mem_nil, or_false]
  omega

/-- **C62** (what is accepted). A table is read exactly when there is no I/O error and every line makes sense after the
lines before it; in particular an operator needs a setting line somewhere before it. -/
theorem C62_accepts (input : List (Option (List Char))) :
    (∃ T, parseTable lower input = .ok (some T)) ↔ ∃ lines, input = lines.map some ∧ AllOk lower lines := by
  constructor
  · rintro ⟨T, h⟩
    obtain ⟨lines, st, e, h1, -⟩ := parseTable_some h
    exact ⟨lines, e, run_allOk.1 ⟨st, h1⟩⟩
  · rintro ⟨lines, rfl, h⟩
    obtain ⟨st, h1⟩ := run_allOk.2 h
    refine ⟨st.tables, ?_⟩
    have := loop_run (lower := lower) init lines []
    rw [List.append_nil] at this
    unfold parseTable
    change tableLoop lower init _ = _
    rw [this, bind_ok h1]
    rfl

/-- **C62** (settings). The setting that a line `s` opens has, in the end, the name and the change of coordinates of that
line, the closest standard setting up to that line as its canonical name, and the operators of exactly the indented
lines between `s` and the next setting line, in their order; if a later line opens a setting with the same name, it
is that line that counts. -/
theorem C62_setting (pre mid post : List (List Char)) (s name : List Char) (T : Tables)
    (h : parseTable lower ((pre ++ s :: mid ++ post).map some) = .ok (some T)) (hs : IsSetting lower s name)
    (hmid : ∀ l ∈ mid, ∀ n, ¬ IsSetting lower l n)
    (hnext : ∀ l, post.head? = some l → ∃ n, IsSetting lower l n)
    (hlast : ∀ l ∈ post, ¬ IsSetting lower l name) :
    ∃ k c ops, mapGet T.settings name = some ⟨name, k, c, ops⟩ ∧ IsCanonical lower (pre ++ [s]) k ∧
      transformOf s = .ok (some c) ∧
      List.Forall₂ (fun l m => affFromString (trim l) = .ok (some m)) (mid.filter IsOperator) ops := by
  obtain ⟨lines, st, e, h1, hT⟩ := parseTable_some h
  have e : pre ++ s :: mid ++ post = lines := List.map_injective_iff.2 (Option.some_injective _) e
  subst e
  rw [show pre ++ s :: mid ++ post = (pre ++ [s]) ++ (mid ++ post) by simp] at h1
  obtain ⟨st1, h2, h3⟩ := run_append_some h1
  obtain ⟨st3, h5, h6⟩ := run_append_some h3
  have hcan := run_canonical h2
  obtain ⟨st0, h7, h8⟩ := run_append_some h2
  obtain ⟨st1', h9, h10⟩ := run_cons_some h8
  have := Option.some.inj (Outcome.ok.inj h10)
  subst this
  rcases step_cases h9 with ⟨g, -⟩ | ⟨g, -⟩ | ⟨a, b, g, -⟩ | ⟨g, -⟩ | ⟨n, c, b, g, g1, g2, g3⟩
  · exact absurd hs (nothing_not_setting g)
  · exact absurd hs (operator_not_setting g)
  · exact absurd hs (alias_not_setting g)
  · exact absurd hs (lookup_not_setting g)
  · have := setting_unique hs g
    subst this
    obtain ⟨ops, k1, k2, -⟩ := run_mid (name := name) (e := ⟨name, st1'.canonicalName, c, []⟩) h5 hmid (by rw [g3]) (by
      rw [g3]; exact mapGet_insert _ _ _)
    refine ⟨st1'.canonicalName, c, ops, ?_, hcan, g1, k1⟩
    rw [hT]
    change mapGet st.settings name = _
    cases post with
    | nil =>
      unfold run at h6
      rw [← Option.some.inj (Outcome.ok.inj h6), k2]
      rfl
    | cons l q =>
      obtain ⟨n', hn'⟩ := hnext l rfl
      rw [run_other h6 hlast (Or.inr (Or.inr ⟨l, q, n', rfl, hn'⟩)), k2]
      rfl

/-- **C62** (no other settings). A name that no setting line has is not in the table. -/
theorem C62_only (lines : List (List Char)) (T : Tables) (name : List Char)
    (h : parseTable lower (lines.map some) = .ok (some T)) (hn : ∀ l ∈ lines, ¬ IsSetting lower l name) :
    mapGet T.settings name = none := by
  obtain ⟨lines', st, e, h1, hT⟩ := parseTable_some h
  have e : lines = lines' := List.map_injective_iff.2 (Option.some_injective _) e
  subst e
  rw [hT]
  change mapGet st.settings name = _
  rw [run_other h1 hn (Or.inr (Or.inl rfl))]
  rfl

/-- **C62** (aliases). The alias of a name is the one in the last alias line for that name; without such a line there is
none. -/
theorem C62_alias (lines : List (List Char)) (T : Tables) (h : parseTable lower (lines.map some) = .ok (some T))
    (a : List Char) :
    (∀ p l q b, lines = p ++ l :: q → IsAlias lower l a b → (∀ x ∈ q, ∀ b', ¬ IsAlias lower x a b') →
      mapGet T.alias_ a = some b) ∧
    ((∀ l ∈ lines, ∀ b, ¬ IsAlias lower l a b) → mapGet T.alias_ a = none) := by
  obtain ⟨lines', st, e, h1, hT⟩ := parseTable_some h
  have e : lines = lines' := List.map_injective_iff.2 (Option.some_injective _) e
  subst e
  rw [hT]
  rw [show st.tables.alias_ = st.alias_ from rfl]
  constructor
  · rintro p l q b rfl hl hq
    obtain ⟨st1, h2, h3⟩ := run_append_some h1
    obtain ⟨st2, h4, h5⟩ := run_cons_some h3
    rw [run_alias h5 hq]
    rcases step_cases h4 with ⟨g, -⟩ | ⟨g, -⟩ | ⟨a', b', g, rfl⟩ | ⟨g, -⟩ | ⟨n, c, b', g, -⟩
    · obtain ⟨w, hw, -⟩ := hl
      exact absurd hw (nothing_not_starts g)
    · exact absurd g (alias_not_operator hl)
    · obtain ⟨w, -, -, e1, e2⟩ := hl
      obtain ⟨w', -, -, e3, e4⟩ := g
      rw [e1] at e3
      rw [e2] at e4
      cases e3
      cases e4
      exact mapGet_insert _ _ _
    · exact absurd g (alias_not_lookup hl)
    · exact absurd g (alias_not_setting hl)
  · intro hn
    rw [run_alias h1 hn]
    rfl

/-- **C62** (lookups). The lookups of the table are those that the lookup lines say, in the order of the lines. -/
theorem C62_lookup (lines : List (List Char)) (T : Tables) (h : parseTable lower (lines.map some) = .ok (some T))
    [DecidablePred (IsLookup lower)] : List.Forall₂ (Says lower) (lines.filter (IsLookup lower)) T.lookup := by
  obtain ⟨lines', st, e, h1, hT⟩ := parseTable_some h
  have e : lines = lines' := List.map_injective_iff.2 (Option.some_injective _) e
  subst e
  obtain ⟨es, k1, k2⟩ := run_lookup h1
  rw [hT]
  change List.Forall₂ _ _ st.lookup
  rw [k2]
  exact k1

/-- **C62** (malformed lines, partial). After lines that make sense, the result is `None` for an I/O error, for an
operator that cannot be read, for an operator before any setting, and for a setting whose change of coordinates cannot
be read, whatever follows. Missing: the malformed lines of `C62_malformed_refuted`, which are accepted or panic. -/
theorem C62_malformed_partial (pre : List (List Char)) (hpre : AllOk lower pre) (rest : List (Option (List Char))) :
    parseTable lower (pre.map some ++ none :: rest) = .ok none ∧
    (∀ l, IsOperator l → affFromString (trim l) = .ok none →
      parseTable lower (pre.map some ++ some l :: rest) = .ok none) ∧
    (∀ l m, IsOperator l → affFromString (trim l) = .ok (some m) → (∀ s ∈ pre, ∀ n, ¬ IsSetting lower s n) →
      parseTable lower (pre.map some ++ some l :: rest) = .ok none) ∧
    (∀ l n, IsSetting lower l n → transformOf l = .ok none →
      parseTable lower (pre.map some ++ some l :: rest) = .ok none) := by
  obtain ⟨st, h1⟩ := run_allOk.2 hpre
  have hgo : ∀ rest, parseTable lower (pre.map some ++ rest) = tableLoop lower st rest := by
    intro rest
    unfold parseTable
    change tableLoop lower init _ = _
    rw [loop_run, bind_ok h1]
  refine ⟨?_, ?_, ?_, ?_⟩
  · rw [hgo]; rfl
  · intro l ho hl
    rw [hgo, tableLoop, step_operator ho, bind_ok hl]
    rfl
  · intro l m ho hl hn
    rw [hgo, tableLoop, step_operator ho, bind_ok hl]
    have : mapGet st.settings st.currentName = none := by
      have := run_current h1
      rw [← Option.not_isSome_iff_eq_none, this]
      rintro ⟨s, hs, n, h⟩
      exact hn s hs n h
    simp only
    rw [this]
    rfl
  · intro l n hs hl
    rw [hgo, tableLoop, step_setting hs, bind_ok hl]
    rfl

/-- **C62** (exactly what happens). After lines that make sense comes the end, and the table is read; or an I/O error, and
the answer is `None`; or a line that makes no sense there: if it is one that stops the program nothing is returned, and
otherwise the answer is `None`, whatever follows. -/
theorem C62_outcome (input : List (Option (List Char))) :
    ((∃ T, parseTable lower input = .ok (some T)) ∧ ∃ lines, input = lines.map some ∧ AllOk lower lines) ∨
    (parseTable lower input = .ok none ∧ ∃ pre rest, input = pre.map some ++ none :: rest ∧ AllOk lower pre) ∨
    (parseTable lower input = .ok none ∧ ∃ pre l rest, input = pre.map some ++ some l :: rest ∧ AllOk lower pre ∧
      ¬ LineOk lower pre l ∧ ¬ LineStops lower l) ∨
    ((∀ r, parseTable lower input ≠ .ok r) ∧ ∃ pre l rest, input = pre.map some ++ some l :: rest ∧ AllOk lower pre ∧
      ¬ LineOk lower pre l ∧ LineStops lower l) := by
  rcases first_bad (lower := lower) input with ⟨lines, e, h⟩ | ⟨pre, rest, e, h⟩ | ⟨pre, l, rest, e, h, h'⟩
  · exact Or.inl ⟨(C62_accepts input).2 ⟨lines, e, h⟩, lines, e, h⟩
  · refine Or.inr (Or.inl ⟨?_, pre, rest, e, h⟩)
    rw [e]
    exact (C62_malformed_partial pre h rest).1
  · obtain ⟨st, h1⟩ := run_allOk.2 h
    have hgo : parseTable lower input = (do
        let r ← tableStep lower st l
        match r with
        | none => .ok none
        | some st => tableLoop lower st rest) := by
      unfold parseTable
      change tableLoop lower init _ = _
      rw [e, loop_run, bind_ok h1]
      rfl
    by_cases hs : LineStops lower l
    · refine Or.inr (Or.inr (Or.inr ⟨fun r hr => ?_, pre, l, rest, e, h, h', hs⟩))
      rw [hgo] at hr
      obtain ⟨a, ha, -⟩ := Outcome.bind_eq_ok.1 hr
      exact step_stops.1 ⟨a, ha⟩ hs
    · refine Or.inr (Or.inr (Or.inl ⟨?_, pre, l, rest, e, h, h', hs⟩))
      obtain ⟨r, hr⟩ := (step_stops (st := st)).2 hs
      rw [hgo, bind_ok hr]
      cases r with
      | none => rfl
      | some st' => exact absurd ((step_lineOk h1).1 ⟨st', hr⟩) h'

/-- `to_lowercase` on ASCII texts -/
def lowerLetters (s : List Char) : List Char := s.map Nom.lowerAscii

/-- the lines
    `# a`
    `P1 x,y`
    ` x,y`
    `alias p1 P1`
    `P2 x,y`
    ` x, y`
    `  -x,-y+1/2`
    `Q2 2x,y`
    ` x,y`
    `LookUp P2 Square p x,y`
-/
def C62_sample : List (List Char) := [
  ['#', ' ', 'a'],
  ['P', '1', ' ', 'x', ',', 'y'],
  [' ', 'x', ',', 'y'],
  ['a', 'l', 'i', 'a', 's', ' ', 'p', '1', ' ', 'P', '1'],
  ['P', '2', ' ', 'x', ',', 'y'],
  [' ', 'x', ',', ' ', 'y'],
  [' ', ' ', '-', 'x', ',', '-', 'y', '+', '1', '/', '2'],
  ['Q', '2', ' ', '2', 'x', ',', 'y'],
  [' ', 'x', ',', 'y'],
  ['L', 'o', 'o', 'k', 'U', 'p', ' ', 'P', '2', ' ', 'S', 'q', 'u', 'a', 'r', 'e', ' ', 'p', ' ', 'x', ',', 'y']]

/-- the result for `C62_sample` -/
def C62_result : Tables where
  settings := [
    (['P', '1'], ⟨['P', '1'], ['P', '1'], ⟨⟨⟨2, 2, [1, 0, 0, 1]⟩, ⟨⟨2, 1, [0, 0]⟩⟩⟩, ⟨⟨2, 2, [1, 0, 0, 1]⟩, ⟨⟨2, 1, [0, 0]⟩⟩⟩⟩,
      [⟨⟨2, 2, [1, 0, 0, 1]⟩, ⟨⟨2, 1, [0, 0]⟩⟩⟩]⟩),
    (['P', '2'], ⟨['P', '2'], ['P', '2'], ⟨⟨⟨2, 2, [1, 0, 0, 1]⟩, ⟨⟨2, 1, [0, 0]⟩⟩⟩, ⟨⟨2, 2, [1, 0, 0, 1]⟩, ⟨⟨2, 1, [0, 0]⟩⟩⟩⟩,
      [⟨⟨2, 2, [1, 0, 0, 1]⟩, ⟨⟨2, 1, [0, 0]⟩⟩⟩, ⟨⟨2, 2, [-1, 0, 0, -1]⟩, ⟨⟨2, 1, [0, 1 / 2]⟩⟩⟩]⟩),
    (['Q', '2'], ⟨['Q', '2'], ['P', '2'], ⟨⟨⟨2, 2, [2, 0, 0, 1]⟩, ⟨⟨2, 1, [0, 0]⟩⟩⟩, ⟨⟨2, 2, [1 / 2, 0, 0, 1]⟩, ⟨⟨2, 1, [0, 0]⟩⟩⟩⟩,
      [⟨⟨2, 2, [1, 0, 0, 1]⟩, ⟨⟨2, 1, [0, 0]⟩⟩⟩]⟩)]
  alias_ := [(['p', '1'], ['P', '1'])]
  lookup := [⟨['P', '2'], .square, .primitive2d, ⟨⟨⟨2, 2, [1, 0, 0, 1]⟩, ⟨⟨2, 1, [0, 0]⟩⟩⟩, ⟨⟨2, 2, [1, 0, 0, 1]⟩, ⟨⟨2, 1, [0, 0]⟩⟩⟩⟩⟩]

/-- the sample is read -/
theorem C62_witness : parseTable lowerLetters (C62_sample.map some) = .ok (some C62_result) := by decide +kernel

/-- the hypotheses of `C62_setting` for the setting `P2` of the sample -/
example : ∃ k c ops, mapGet C62_result.settings ['P', '2'] = some ⟨['P', '2'], k, c, ops⟩ ∧
    IsCanonical lowerLetters (C62_sample.take 5) k ∧ ops.length = 2 := by
  have dec : ∀ l n, (wordsOf l)[0]? = some n → ¬ IsNothing l → l.head? ≠ some ' ' → lowerLetters n ≠ aliasText →
      lowerLetters n ≠ lookupText → IsSetting lowerLetters l n := fun l n h1 h2 h3 h4 h5 => ⟨⟨h2, h3, h1⟩, h4, h5⟩
  obtain ⟨k, c, ops, h1, h2, h3, h4⟩ := C62_setting (lower := lowerLetters) (C62_sample.take 4) ((C62_sample.drop 5).take 2)
    (C62_sample.drop 7) (C62_sample.getD 4 []) ['P', '2'] C62_result C62_witness
    (dec _ _ (by decide +kernel) (by decide +kernel) (by decide +kernel) (by decide +kernel) (by decide +kernel))
    (by
      intro l hl n
      have : ∀ l ∈ (C62_sample.drop 5).take 2, l.head? = some ' ' := by decide +kernel
      exact fun h => h.1.2.1 (this l hl))
    (by
      intro l hl
      have hl : some (C62_sample.getD 7 []) = some l := hl
      cases hl
      exact ⟨['Q', '2'], dec _ _ (by decide +kernel) (by decide +kernel) (by decide +kernel) (by decide +kernel) (by decide +kernel)⟩)
    (by
      intro l hl h
      have : ∀ l ∈ C62_sample.drop 7, (wordsOf l)[0]? ≠ some ['P', '2'] := by decide +kernel
      exact this l hl h.1.2.2)
  refine ⟨k, c, ops, h1, h2, ?_⟩
  have : ((C62_sample.drop 5).take 2).filter IsOperator = (C62_sample.drop 5).take 2 := by decide +kernel
  rw [this] at h4
  rw [← h4.length_eq]
  rfl

/-- the sample's beginning is a table that makes sense, so `C62_malformed_partial` applies after it -/
example : AllOk lowerLetters C62_sample := by
  obtain ⟨lines, e, h⟩ := (C62_accepts (lower := lowerLetters) _).1 ⟨_, C62_witness⟩
  rwa [List.map_injective_iff.2 (Option.some_injective _) e]

/-- an operator that cannot be read: ` q` -/
example : IsOperator [' ', 'q'] ∧ affFromString (trim [' ', 'q']) = .ok none := by decide +kernel

/-- **C62** (refuted for the rest of malformed lines). A line `x,y,q` is taken for `x,y`; an alias line without its second
name panics, and so does an operator with a zero denominator or a change of coordinates that is not invertible. -/
theorem C62_malformed_refuted :
    (parseTable id [some ['A', ' ', 'x', ',', 'y'], some [' ', 'x', ',', 'y', ',', 'q']] =
      parseTable id [some ['A', ' ', 'x', ',', 'y'], some [' ', 'x', ',', 'y']] ∧
     (parseTable id [some ['A', ' ', 'x', ',', 'y'], some [' ', 'x', ',', 'y']] ≠ .ok none)) ∧
    parseTable id [some ['a', 'l', 'i', 'a', 's', ' ', 'x']] = .panic ∧
    parseTable id [some ['A', ' ', 'x'], some [' ', '1', '/', '0']] = .panic ∧
    parseTable id [some ['A', ' ', '0', ',', '0']] = .panic := by
  refine ⟨⟨by decide +kernel, by decide +kernel⟩, by decide +kernel, by decide +kernel, by decide +kernel⟩

/-- an alias line without its second name stops the program; the operator `x,y,q` does not, and makes sense after a
setting -/
example : LineStops id ['a', 'l', 'i', 'a', 's', ' ', 'x'] ∧ ¬ LineStops id [' ', 'x', ',', 'y', ',', 'q'] ∧
    LineOk id [['A', ' ', 'x', ',', 'y']] [' ', 'x', ',', 'y', ',', 'q'] := by
  have h1 : Starts ['a', 'l', 'i', 'a', 's', ' ', 'x'] ['a', 'l', 'i', 'a', 's'] := by
    refine ⟨by decide +kernel, by decide +kernel, by decide +kernel⟩
  have h2 : Starts ['A', ' ', 'x', ',', 'y'] ['A'] := by
    refine ⟨by decide +kernel, by decide +kernel, by decide +kernel⟩
  have h3 : IsOperator [' ', 'x', ',', 'y', ',', 'q'] := by decide +kernel
  refine ⟨Or.inr (Or.inl ⟨_, h1, by decide +kernel, by decide +kernel⟩),
    (step_stops (st := (⟨[], [], [], [], []⟩ : TableState))).1 ⟨none, by decide +kernel⟩,
    Or.inr (Or.inl ⟨h3, ?_, _, List.mem_singleton.2 rfl, ['A'], h2, by decide +kernel, by decide +kernel⟩)⟩
  have : ∃ m, (affFromString (trim [' ', 'x', ',', 'y', ',', 'q'])) = .ok (some m) := by
    cases h : affFromString (trim [' ', 'x', ',', 'y', ',', 'q']) with
    | ok o =>
      cases o with
      | some m => exact ⟨m, rfl⟩
      | none => exact absurd h (by decide +kernel)
    | panic => exact absurd h (by decide +kernel)
    | diverge => exact absurd h (by decide +kernel)
  exact this

/-! ### C63 -/

/-- **C63**. A text is read as a crystal system exactly when, in lower case, it is the name that `Display` writes for it. -/
theorem C63_system (s : List Char) (x : CrystalSystem) : systemFromString lower s = some x ↔ lower s = systemText x := by
  unfold systemFromString systemFromLower
  generalize lower s = t
  constructor
  · intro h
    split_ifs at h with h1 h2 h3 h4 h5 h6 h7 h8 h9 h10 <;> first | (cases h; assumption) | cases h
  · rintro rfl
    cases x <;> rfl

/-- **C63**. `from_string` inverts `Display` for every crystal system, if lower-casing leaves the names as they are. -/
theorem C63_system_round_trip (hl : ∀ x, lower (systemText x) = systemText x) (x : CrystalSystem) :
    systemFromString lower (systemText x) = some x := (C63_system _ _).2 (hl x)

/-- **C63**. No two crystal systems have the same name. -/
theorem C63_system_names (x y : CrystalSystem) (h : systemText x = systemText y) : x = y := by
  have h1 : systemFromString id (systemText x) = some x := C63_system_round_trip (fun _ => rfl) x
  have h2 : systemFromString id (systemText y) = some y := C63_system_round_trip (fun _ => rfl) y
  rw [h, h2] at h1
  exact (Option.some.inj h1).symm

/-- **C63**. A text is read as a centering exactly when it is the letter that `Display` writes for it. -/
theorem C63_centering (s : List Char) (c : Centering) : Centering.fromString s = some c ↔ s = c.text := by
  unfold Centering.fromString
  constructor
  · intro h
    split_ifs at h with h1 h2 h3 h4 h5 h6 h7 h8 h9 <;> first | (cases h; assumption) | cases h
  · rintro rfl
    cases c <;> rfl

/-- **C63**. `lookup_settings` returns the names and maps of exactly the lookups with the given system and centering, in
the order of the table. -/
theorem C63_lookup (T : Tables) (s : CrystalSystem) (c : Centering) :
    T.lookupSettings s c =
      (T.lookup.filter (fun l => decide (l.system = s) && decide (l.centering = c))).map (fun l => (l.name, l.fromStd)) := by
  unfold Tables.lookupSettings
  induction T.lookup with
  | nil => rfl
  | cons l ls ih =>
    rw [List.filterMap_cons, List.filter_cons, ih]
    by_cases h1 : l.system = s <;> by_cases h2 : l.centering = c
    · simp [h1, h2]
    · simp [h1, Ne.symm h2, h2]
    · simp [h1, Ne.symm h1]
    · simp [h1, Ne.symm h1]

/-- lower-casing the letters A to Z leaves the names as they are -/
example : ∀ x, lowerLetters (systemText x) = systemText x := by intro x; cases x <;> decide
example : systemFromString lowerLetters ['C', 'u', 'B', 'I', 'c'] = some .cubic := by decide
example : C62_result.lookupSettings .square .primitive2d ≠ [] ∧ C62_result.lookupSettings .square .primitive = [] := by
  decide +kernel

end Systre
