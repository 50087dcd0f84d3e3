import Verif.Lemmas.CgdBlocks
import Mathlib.Tactic.IntervalCases

/-!
# C60, C61: the blocks of a CGD file (src/io/parse_cgd_blocks.rs)

The specification (`Cut`, `annotate`, `blockOf`, ...) is `Verif/Spec/Cgd.lean`. `lower` is `str::to_lowercase`, `F` is
the meaning of floating point texts; both are arbitrary up to `lower` being idempotent.
-/

namespace Systre
open Cgd

variable {D : Type} {F : Floats D} {lower : List Char → List Char}

/-- **C60** (lines). `parse_lines` gives one entry per line, numbered from 0 in the order of the input, with the keyword
in lower case; it panics only if a line makes `parse_cgd_line` panic. -/
theorem C60_lines (hl : ∀ s, lower (lower s) = lower s) (input : List Line) (es : List (Entry D))
    (h : parseLines F lower input = .ok es) :
    es.map Entry.lineNumber = List.range input.length ∧ ∀ e ∈ es, IsRaw lower e := by
  obtain ⟨h1, h2⟩ := parseLinesFrom_raw hl h
  exact ⟨by rw [h2, List.range_eq_range'], h1⟩

/-- **C60**. Whenever the lines can be read, `parse_blocks` returns the blocks of the stretches between `END` lines (with
types, line numbers, keys and notes as in the specification), and a last block for the lines after the last `END` if
one of them has a keyword. -/
theorem C60_blocks (hl : ∀ s, lower (lower s) = lower s) (input : List Line) (es : List (Entry D))
    (h : parseLines F lower input = .ok es) :
    ∃ segs tail, Cut es segs tail ∧
      parseBlocks F lower input = .ok (blocksOf none segs ++ finalOf (carryAll none segs) tail) := by
  obtain ⟨segs, tail, hc⟩ := cut_exists es
  refine ⟨segs, tail, hc, ?_⟩
  unfold parseBlocks
  rw [h]
  exact blocks_cut hc (C60_lines hl input es h).2

/-- **C60** (order and coverage). The entries of all blocks, one after another, are the lines of the input in their order
without blank lines and comments; nothing else is left out but lines without a keyword after the last `END`. -/
theorem C60_order (hl : ∀ s, lower (lower s) = lower s) (input : List Line) (es : List (Entry D))
    (h : parseLines F lower input = .ok es) :
    ∃ bs a dropped, parseBlocks F lower input = .ok bs ∧ es = a ++ dropped ∧
      List.Forall₂ From (a.filter (fun e => decide (¬ IsBlank e))) (bs.flatMap Block.entries) ∧
      (∀ e ∈ dropped, keyOf e = none) ∧ (dropped ≠ [] → ∀ l, a.getLast? = some l → IsEnd l) := by
  obtain ⟨segs, tail, hc, hb⟩ := C60_blocks hl input es h
  by_cases ho : Opened tail
  · refine ⟨_, es, [], hb, by simp, ?_, by simp, by simp⟩
    rw [List.flatMap_append, hc.all, List.filter_append]
    refine List.rel_append (blocksOf_from none segs) ?_
    unfold finalOf
    rw [if_pos ho]
    simpa using markLast_from (by simpa using annotateFrom_from (carryAll none segs) [] tail)
  · refine ⟨_, segs.flatten, tail, hb, hc.all, ?_, ?_, ?_⟩
    · have : finalOf (carryAll none segs) tail = [] := by unfold finalOf; rw [if_neg ho]
      rw [this, List.append_nil]
      exact blocksOf_from none segs
    · intro e he
      by_contra hk
      exact ho ⟨e, he, hk⟩
    · intro _ l hlast
      rcases List.eq_nil_or_concat segs with rfl | ⟨ss, s, rfl⟩
      · simp at hlast
      · obtain ⟨body, e, rfl, h1, -⟩ := hc.ends s (by simp)
        rw [List.concat_eq_append, List.flatten_append, List.flatten_singleton, ← List.append_assoc, List.getLast?_concat] at hlast
        rw [← Option.some.inj hlast]
        exact h1

/-- **C60** (shape of the blocks). Every block has the shape of the specification; all of them are closed by an `END`
line but possibly the last one, and then its last entry carries the error. -/
theorem C60_shape (hl : ∀ s, lower (lower s) = lower s) (input : List Line) (es : List (Entry D))
    (h : parseLines F lower input = .ok es) :
    ∃ bs, parseBlocks F lower input = .ok bs ∧ (∀ b ∈ bs, Shape lower b) ∧ (∀ b ∈ bs.dropLast, Closed b) ∧
      ∀ b, bs.getLast? = some b → Closed b ∨
        ∃ l, b.entries.getLast? = some l ∧ l.entryType ≠ .end_ ∧ Note.error .missingEnd ∈ l.notes := by
  obtain ⟨segs, tail, hc, hb⟩ := C60_blocks hl input es h
  have hr := (C60_lines hl input es h).2
  obtain ⟨h1, h2⟩ := blocksOf_shape segs none (by simp)
    (fun s hs x hx => hr x (by rw [hc.all]; simp only [List.mem_append, List.mem_flatten]; exact Or.inl ⟨s, hs, hx⟩)) hc.ends
  have h3 := final_shape h2 (fun x hx => hr x (by rw [hc.all]; simp [hx])) hc.open_
  refine ⟨_, hb, ?_, ?_, ?_⟩
  · intro b hb
    rcases List.mem_append.1 hb with hb | hb
    · exact (h1 b hb).1
    · exact (h3 b hb).1
  · intro b hb
    unfold finalOf at hb
    split at hb
    · rw [List.dropLast_concat] at hb
      exact (h1 b hb).2
    · rw [List.append_nil] at hb
      exact (h1 b (List.dropLast_subset _ hb)).2
  · intro b hb
    rcases List.mem_append.1 (List.mem_of_getLast? hb) with hb | hb
    · exact Or.inl (h1 b hb).2
    · exact Or.inr (h3 b hb).2

/-- **C60** (inheritance, in an opened block). A line without keyword gets the key of the closest line before it that has
one, unless that line opens the block, in which case it gets none. Missing: before the block is opened it should get
none as well, but see `C60_leak_refuted`. -/
theorem C60_inherit_partial (carry : Option (List Char)) (x y : List (Entry D)) (c e : Entry D) (k : List Char)
    (hc : keyOf c = some k) (hy : ∀ z ∈ y, keyOf z = none) (he : e.entryType = .data) (hk : e.key = none) :
    (annotate carry (x ++ c :: y) e).key = if Opened x then some k else none := by
  have hke : keyOf e = none := by unfold keyOf; rw [if_pos he, hk]
  have hfm : (x ++ c :: y).filterMap keyOf = x.filterMap keyOf ++ [k] := by
    rw [List.filterMap_append, List.filterMap_cons, hc]
    have : y.filterMap keyOf = [] := by simpa using hy
    simp [this]
  unfold annotate
  simp only [hke, he, if_true]
  unfold inherited
  rw [hfm]
  by_cases ho : Opened x
  · rw [if_pos ho]
    cases hx : x.filterMap keyOf with
    | nil => exact absurd ho (filterMap_eq_nil.1 hx)
    | cons a as => simp
  · rw [if_neg ho, filterMap_eq_nil.2 ho]
    rfl

/-! ### C61 -/

/-- **C61** (warnings). An `END` line and an opening line carry the warning about ignored text exactly when at least two
fields follow. Missing: one field, see `C61_one_field_refuted`. -/
theorem C61_warnings_partial (hl : ∀ s, lower (lower s) = lower s) (input : List Line) (bs : List (Block D))
    (h : parseBlocks F lower input = .ok bs) (b : Block D) (hb : b ∈ bs) (o : Entry D) (ho : o ∈ b.entries) :
    (o.entryType = .end_ → (Note.warning .afterEnd ∈ o.notes ↔ 2 ≤ o.fields.length)) ∧
    (o.entryType = .begin_ → (Note.warning .afterType ∈ o.notes ↔ 2 ≤ o.fields.length)) := by
  cases hes : parseLines F lower input with
  | panic => unfold parseBlocks at h; rw [hes] at h; cases h
  | diverge => unfold parseBlocks at h; rw [hes] at h; cases h
  | ok es =>
    obtain ⟨segs, tail, hc, h1⟩ := C60_blocks hl input es hes
    rw [h] at h1
    have h1 := Outcome.ok.inj h1
    exact blocks_warned hc (C60_lines hl input es hes).2 (parseLinesFrom_notes hes) b (h1 ▸ hb) o ho

/-- **C61** (errors are kept). A line that is not blank, in particular one with an error note, is in one of the blocks with
its notes, if a keyword follows or if it is in an opened block. Missing: the lines after the last `END` when no keyword
follows, see `C61_dropped_refuted`. -/
theorem C61_kept_partial (hl : ∀ s, lower (lower s) = lower s) (input : List Line) (p q : List (Entry D)) (e : Entry D)
    (h : parseLines F lower input = .ok (p ++ e :: q)) (he : ¬ IsBlank e)
    (hk : (∃ x ∈ e :: q, keyOf x ≠ none) ∨
      ∃ p1 c p2, p = p1 ++ c :: p2 ∧ keyOf c ≠ none ∧ ¬ IsEnd c ∧ ∀ x ∈ p2, keyOf x = none) :
    ∃ bs b o, parseBlocks F lower input = .ok bs ∧ b ∈ bs ∧ o ∈ b.entries ∧ From e o := by
  obtain ⟨bs, a, dropped, hb, e1, hf, hd, hlast⟩ := C60_order hl input _ h
  have hmem : e ∈ a := by
    rcases List.append_eq_append_iff.1 e1.symm with ⟨w, h1, h2⟩ | ⟨w, h1, h2⟩
    · -- the cut is at or before the line
      exfalso
      have hdw : dropped = w ++ e :: q := h2
      rcases hk with ⟨x, hx, hkx⟩ | ⟨p1, c, p2, hp, hkc, hec, hp2⟩
      · exact hkx (hd x (by rw [hdw]; simp only [List.mem_append]; exact Or.inr hx))
      · rw [hp] at h1
        have hne : dropped ≠ [] := by rw [hdw]; simp
        have hcw : c ∉ w := fun hc => hkc (hd c (by rw [hdw]; simp [hc]))
        rcases List.append_eq_append_iff.1 h1 with ⟨w', g1, g2⟩ | ⟨w', g1, g2⟩
        · cases w' with
          | nil => simp at g2; exact hcw (by rw [← g2]; simp)
          | cons y w' =>
            rw [List.cons_append] at g2
            injection g2 with g3 g4
            rcases List.eq_nil_or_concat w' with rfl | ⟨w'', z, rfl⟩
            · have := hlast hne c (by rw [g1, ← g3]; simp)
              exact hec this
            · have hz : IsEnd z := hlast hne z (by rw [g1]; simp [List.getLast?_cons])
              have hzp : z ∈ p2 := by rw [g4]; simp
              unfold IsEnd at hz
              rw [hp2 z hzp] at hz
              cases hz
        · exact hcw (by rw [g2]; simp)
    · -- the line is before the cut
      cases w with
      | nil =>
        exfalso
        rw [List.nil_append] at h2
        have hdq : dropped = e :: q := h2.symm
        rcases hk with ⟨x, hx, hkx⟩ | ⟨p1, c, p2, hp, hkc, hec, hp2⟩
        · exact hkx (hd x (by rw [hdq]; exact hx))
        · rw [List.append_nil] at h1
          have hne : dropped ≠ [] := by rw [hdq]; simp
          rcases List.eq_nil_or_concat p2 with rfl | ⟨p3, z, rfl⟩
          · exact hec (hlast hne c (by rw [h1, hp]; simp))
          · have hz : IsEnd z := hlast hne z (by rw [h1, hp]; simp [List.getLast?_cons])
            unfold IsEnd at hz
            rw [hp2 z (by simp)] at hz
            cases hz
      | cons y w =>
        rw [List.cons_append] at h2
        injection h2 with h3 _
        rw [h1, h3]
        simp
  have hm : e ∈ a.filter (fun e => decide (¬ IsBlank e)) := List.mem_filter.2 ⟨hmem, by simpa using he⟩
  obtain ⟨o, ho, hfo⟩ := forall₂_mem hf hm
  obtain ⟨b, hb1, hb2⟩ := List.mem_flatMap.1 ho
  exact ⟨bs, b, o, hb, hb1, hb2, hfo⟩

/-- **C61** (errors that are lost). The condition of `C61_kept_partial` is exact: if no keyword follows from this line on,
and the last keyword before it, if any, is an `END`, then the line is in none of the blocks. -/
theorem C61_lost (hl : ∀ s, lower (lower s) = lower s) (input : List Line) (p q : List (Entry D)) (e : Entry D)
    (h : parseLines F lower input = .ok (p ++ e :: q))
    (hk : ¬ ((∃ x ∈ e :: q, keyOf x ≠ none) ∨
      ∃ p1 c p2, p = p1 ++ c :: p2 ∧ keyOf c ≠ none ∧ ¬ IsEnd c ∧ ∀ x ∈ p2, keyOf x = none)) :
    ∃ bs, parseBlocks F lower input = .ok bs ∧ ∀ b ∈ bs, ∀ o ∈ b.entries, o.lineNumber ≠ e.lineNumber := by
  obtain ⟨hk1, hk2⟩ := not_or.1 hk
  obtain ⟨segs, tail, hc, hb⟩ := C60_blocks hl input _ h
  have hnone : ∀ x ∈ e :: q, keyOf x = none := fun x hx => by
    by_contra h1; exact hk1 ⟨x, hx, h1⟩
  -- the cut is at or before the line
  obtain ⟨w, hp, ht⟩ : ∃ w, p = segs.flatten ++ w ∧ tail = w ++ e :: q := by
    rcases List.append_eq_append_iff.1 hc.all with ⟨w, h1, h2⟩ | ⟨w, h1, h2⟩
    · cases w with
      | nil => exact ⟨[], by simpa using h1.symm, by simpa using h2.symm⟩
      | cons y w =>
        exfalso
        rcases List.eq_nil_or_concat segs with rfl | ⟨ss, s, rfl⟩
        · simp at h1
        · obtain ⟨body, z, rfl, hz, -⟩ := hc.ends s (by simp)
          rw [List.concat_eq_append, List.flatten_append, List.flatten_singleton, ← List.append_assoc] at h1
          have hl1 : (y :: w).getLast (by simp) = z := by
            have h3 := congrArg List.getLast? h1
            rw [List.getLast?_concat, List.getLast?_append_of_ne_nil _ (by simp), List.getLast?_eq_getLast_of_ne_nil (by simp)] at h3
            exact (Option.some.inj h3).symm
          have hzm : z ∈ e :: q := by
            rw [h2]
            exact List.mem_append.2 (Or.inl (hl1 ▸ List.getLast_mem _))
          unfold IsEnd at hz
          rw [hnone z hzm] at hz
          cases hz
    · exact ⟨w, h1, h2⟩
  have hop : ¬ Opened tail := by
    rintro ⟨c, hcm, hck⟩
    -- the last keyword in the tail
    have hcw : c ∈ w := by
      rw [ht] at hcm
      rcases List.mem_append.1 hcm with h1 | h1
      · exact h1
      · exact absurd (hnone c h1) hck
    obtain ⟨w1, d, w2, rfl, hd1, hd2⟩ : ∃ w1 d w2, w = w1 ++ d :: w2 ∧ keyOf d ≠ none ∧ ∀ x ∈ w2, keyOf x = none := by
      clear hp ht hcm
      induction w generalizing c with
      | nil => simp at hcw
      | cons y w ih =>
        by_cases hw : ∃ x ∈ w, keyOf x ≠ none
        · obtain ⟨x, hx, hxk⟩ := hw
          obtain ⟨w1, d, w2, h1, h2, h3⟩ := ih x hxk hx
          exact ⟨y :: w1, d, w2, by rw [h1]; rfl, h2, h3⟩
        · push Not at hw
          rcases List.mem_cons.1 hcw with rfl | h1
          · exact ⟨[], c, w, rfl, hck, hw⟩
          · exact absurd (hw c h1) hck
    refine hk2 ⟨segs.flatten ++ w1, d, w2, by rw [hp, List.append_assoc], hd1, ?_, hd2⟩
    exact hc.open_ d (by rw [ht]; simp)
  refine ⟨_, hb, fun b hbm o ho hline => ?_⟩
  have hfin : finalOf (carryAll none segs) tail = [] := by unfold finalOf; rw [if_neg hop]
  rw [hfin, List.append_nil] at hbm
  obtain ⟨x, hx, hxo⟩ := forall₂_mem ((blocksOf_from none segs).flip) (List.mem_flatMap.2 ⟨b, hbm, ho⟩)
  have hx := (List.mem_filter.1 hx).1
  have hnum := (C60_lines hl input _ h).1
  have hnd : ((p ++ e :: q).map Entry.lineNumber).Nodup := by rw [hnum]; exact List.nodup_range
  rw [List.map_append, List.nodup_append] at hnd
  refine hnd.2.2 x.lineNumber (List.mem_map.2 ⟨x, by rw [hp]; simp [hx], rfl⟩) e.lineNumber (by simp) ?_
  rw [← hline]
  exact (congrArg Prod.fst hxo.1).symm

/-! ### Concrete files -/

/-- texts for numbers, integers when they consist of digits -/
def sampleFloats : Floats (List Char) :=
  ⟨id, fun w => if w.all Nom.isDig then some (w.foldl (fun n c => 10 * n + (c.toNat - 48)) 0) else none⟩

/-- lower case for ASCII -/
def sampleLower (s : List Char) : List Char := s.map Nom.lowerAscii

theorem lowerAscii_idem (c : Char) : Nom.lowerAscii (Nom.lowerAscii c) = Nom.lowerAscii c := by
  unfold Nom.lowerAscii
  by_cases h : 'A' ≤ c ∧ c ≤ 'Z'
  · have h1 : 65 ≤ c.toNat := h.1
    have h2 : c.toNat ≤ 90 := h.2
    have : ∀ n : Nat, 65 ≤ n → n ≤ 90 → ¬ ('A' ≤ Char.ofNat (n + 32) ∧ Char.ofNat (n + 32) ≤ 'Z') := by
      intro n a b
      interval_cases n <;> decide
    simp only [if_pos h, if_neg (this _ h1 h2)]
  · simp only [if_neg h]

theorem sampleLower_idem (s : List Char) : sampleLower (sampleLower s) = sampleLower s := by
  unfold sampleLower
  rw [List.map_map]
  exact List.map_congr_left (fun c _ => lowerAscii_idem c)

/-- `first / Data 1 / 2 / END / 3 / second / END` -/
def sampleFile : List Line := [.text ['f', 'i', 'r', 's', 't'], .text ['D', 'a', 't', 'a', ' ', '1'], .text ['2'],
  .text ['E', 'N', 'D'], .text ['3'], .text ['s', 'e', 'c', 'o', 'n', 'd'], .text ['E', 'n', 'd']]

example : (fun es => es.map Entry.entryType) <$> parseLines sampleFloats sampleLower sampleFile =
    .ok [.data, .data, .data, .data, .data, .data, .data] := by decide +kernel

example : (fun bs => bs.map (fun b => (b.linenoStart, b.linenoEnd, b.entries.map Entry.lineNumber))) <$>
    parseBlocks sampleFloats sampleLower sampleFile = .ok [(0, 3, [0, 1, 2, 3]), (5, 6, [4, 5, 6])] := by decide +kernel

/-- **C60**: the key of a data line before the block is opened is that of the last data of the previous block. The line
`3` has key `data`, although no line before it in its block has a keyword. -/
theorem C60_leak_refuted : (fun bs => bs.map (fun b => b.entries.map (fun e => (e.lineNumber, e.key)))) <$>
    parseBlocks sampleFloats sampleLower sampleFile = .ok
      [[(0, some ['f', 'i', 'r', 's', 't']), (1, some ['d', 'a', 't', 'a']), (2, some ['d', 'a', 't', 'a']),
        (3, some ['e', 'n', 'd'])],
       [(4, some ['d', 'a', 't', 'a']), (5, some ['s', 'e', 'c', 'o', 'n', 'd']), (6, some ['e', 'n', 'd'])]] := by
  decide +kernel

/-- **C61** is false for one field of text: `a x / END y` gives no note at all. -/
theorem C61_one_field_refuted : (fun bs => bs.map (fun b => b.entries.map (fun e => (e.fields.length, e.notes)))) <$>
    parseBlocks sampleFloats sampleLower [.text ['a', ' ', 'x'], .text ['E', 'N', 'D', ' ', 'y']] =
      .ok [[(1, []), (1, [])]] := by decide +kernel

/-- **C61** is false at the end of the file: the lines `1e` (which is reported as an error by `parse_lines`) and `5` after
the last `END` leave no trace in the result. -/
theorem C61_dropped_refuted :
    (fun es => es.map (fun e => (e.entryType, e.notes))) <$>
        parseLines sampleFloats sampleLower [.text ['E', 'N', 'D'], .text ['1', 'e'], .text ['5']] =
      .ok [(.data, []), (.error, [.error (.syntax_ .float ['1', 'e'])]), (.data, [])] ∧
    (fun bs => bs.map (fun b => b.entries.map Entry.lineNumber)) <$>
        parseBlocks sampleFloats sampleLower [.text ['E', 'N', 'D'], .text ['1', 'e'], .text ['5']] =
      .ok [[0]] := by
  constructor <;> decide +kernel

/-- `C61_lost` for the second of these lines -/
example : ∃ (p q : List (Entry (List Char))) (e : Entry (List Char)), p.length = 1 ∧ e.notes ≠ [] ∧
    ∃ bs, parseBlocks sampleFloats sampleLower [.text ['E', 'N', 'D'], .text ['1', 'e'], .text ['5']] = .ok bs ∧
      ∀ b ∈ bs, ∀ o ∈ b.entries, o.lineNumber ≠ e.lineNumber := by
  obtain ⟨es, h⟩ : ∃ es, parseLines sampleFloats sampleLower [.text ['E', 'N', 'D'], .text ['1', 'e'], .text ['5']] =
      .ok es := by
    have h1 := C61_dropped_refuted.1
    cases h2 : parseLines sampleFloats sampleLower [.text ['E', 'N', 'D'], .text ['1', 'e'], .text ['5']] with
    | ok es => exact ⟨es, rfl⟩
    | panic => rw [h2] at h1; cases h1
    | diverge => rw [h2] at h1; cases h1
  have h1 : (fun es => es.map (fun e => (keyOf e, e.notes))) <$>
      parseLines sampleFloats sampleLower [.text ['E', 'N', 'D'], .text ['1', 'e'], .text ['5']] =
      .ok [(some endText, []), (none, [.error (.syntax_ .float ['1', 'e'])]), (none, [])] := by decide +kernel
  rw [h] at h1
  have h1 := Outcome.ok.inj h1
  match es, h1 with
  | [x, e, y], h1 =>
    simp only [List.map_cons, List.map_nil, List.cons.injEq, Prod.mk.injEq, and_true] at h1
    obtain ⟨⟨k1, -⟩, ⟨k2, k3⟩, k4, -⟩ := h1
    refine ⟨[x], [y], e, rfl, by rw [k3]; simp, C61_lost sampleLower_idem _ [x] [y] e h ?_⟩
    rintro (⟨z, hz, hzk⟩ | ⟨p1, c, p2, hp, -, hce, -⟩)
    · simp only [List.mem_cons, List.not_mem_nil, or_false] at hz
      rcases hz with rfl | rfl
      · exact hzk k2
      · exact hzk k4
    · cases p1 with
      | nil =>
        injection hp with hp _
        exact hce (hp ▸ k1)
      | cons a p1 =>
        injection hp with _ hp
        exact absurd hp (by simp)

end Systre
