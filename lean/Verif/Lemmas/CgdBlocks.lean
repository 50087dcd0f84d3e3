import Verif.Spec.Cgd
import Mathlib.Data.List.Induction
import Mathlib.Data.List.Forall2
import Mathlib.Tactic.Common

/-! # The state machine of `parse_blocks` computes the blocks -/

namespace Systre.Cgd
variable {D : Type} {lower : List Char → List Char}

theorem annotateFrom_append (carry : Option (List Char)) (pre a b : List (Entry D)) :
    annotateFrom carry pre (a ++ b) = annotateFrom carry pre a ++ annotateFrom carry (pre ++ a) b := by
  induction a generalizing pre with
  | nil => simp [annotateFrom]
  | cons e a ih => simp [annotateFrom, ih]

theorem annotateFrom_concat (carry : Option (List Char)) (a : List (Entry D)) (e : Entry D) :
    annotateFrom carry [] (a ++ [e]) = annotateFrom carry [] a ++ (if IsBlank e then [] else [annotate carry a e]) := by
  rw [annotateFrom_append]
  simp [annotateFrom]

theorem opened_concat {a : List (Entry D)} {e : Entry D} : Opened (a ++ [e]) ↔ Opened a ∨ keyOf e ≠ none := by
  unfold Opened
  constructor
  · rintro ⟨x, hx, h⟩
    rcases List.mem_append.1 hx with hx | hx
    · exact Or.inl ⟨x, hx, h⟩
    · rw [List.mem_singleton] at hx; exact Or.inr (hx ▸ h)
  · rintro (⟨x, hx, h⟩ | h)
    · exact ⟨x, by simp [hx], h⟩
    · exact ⟨e, by simp, h⟩

theorem opener_eq_none {a : List (Entry D)} : opener a = none ↔ ¬ Opened a := by
  unfold opener Opened
  simp

theorem opener_concat_none {a : List (Entry D)} {e : Entry D} (h : keyOf e = none) : opener (a ++ [e]) = opener a := by
  unfold opener
  rw [List.find?_append]
  simp [h]

theorem opener_concat_opened {a : List (Entry D)} {e : Entry D} (h : Opened a) : opener (a ++ [e]) = opener a := by
  obtain ⟨x, hx⟩ := Option.ne_none_iff_exists'.1 (fun h' => opener_eq_none.1 h' h)
  unfold opener at hx ⊢
  rw [List.find?_append, hx]
  rfl

theorem opener_concat_new {a : List (Entry D)} {e : Entry D} (h : ¬ Opened a) (he : keyOf e ≠ none) :
    opener (a ++ [e]) = some e := by
  have h0 := opener_eq_none.2 h
  unfold opener at h0 ⊢
  rw [List.find?_append, h0]
  simp [he]

theorem filterMap_eq_nil {a : List (Entry D)} : a.filterMap keyOf = [] ↔ ¬ Opened a := by
  unfold Opened
  simp

theorem inherited_concat_none {carry : Option (List Char)} {a : List (Entry D)} {e : Entry D} (h : keyOf e = none) :
    inherited carry (a ++ [e]) = inherited carry a := by
  unfold inherited
  rw [List.filterMap_append]
  simp [h]

theorem inherited_concat_opened {carry : Option (List Char)} {a : List (Entry D)} {e : Entry D} {k : List Char}
    (h : keyOf e = some k) (ho : Opened a) : inherited carry (a ++ [e]) = some k := by
  unfold inherited
  rw [List.filterMap_append]
  cases hl : a.filterMap keyOf with
  | nil => exact absurd ho (filterMap_eq_nil.1 hl)
  | cons x ks => simp [h]

theorem inherited_concat_new {carry : Option (List Char)} {a : List (Entry D)} {e : Entry D} {k : List Char}
    (h : keyOf e = some k) (ho : ¬ Opened a) : inherited carry (a ++ [e]) = none := by
  unfold inherited
  rw [List.filterMap_append, filterMap_eq_nil.2 ho]
  simp [h]

theorem raw_keyed {e : Entry D} {k : List Char} (hr : IsRaw lower e) (h : e.key = some k) : e.entryType = .data := by
  by_contra hn
  rw [hr.keyed hn] at h
  cases h

/-- the state at the beginning of a stretch -/
def start (bs : List (Block D)) (carry : Option (List Char)) : BlockState D := ⟨bs, Block.new, carry, false⟩

theorem fold_open (bs : List (Block D)) (carry : Option (List Char)) (pre : List (Entry D)) (hr : ∀ e ∈ pre, IsRaw lower e)
    (he : ∀ e ∈ pre, ¬ IsEnd e) :
    pre.foldl (blockStep lower) (start bs carry) =
      ⟨bs, ⟨typeOf pre, startOf pre, 0, annotateFrom carry [] pre⟩, inherited carry pre, decide (Opened pre)⟩ := by
  induction pre using List.reverseRecOn with
  | nil => simp [start, Block.new, typeOf, startOf, opener, annotateFrom, inherited, Opened]
  | append_singleton pre e ih =>
    have hre := hr e (by simp)
    have hee := he e (by simp)
    rw [List.foldl_append, ih (fun x hx => hr x (by simp [hx])) (fun x hx => he x (by simp [hx]))]
    simp only [List.foldl_cons, List.foldl_nil]
    rw [annotateFrom_concat]
    rcases hre.kind with ht | ht | ht
    · -- a data line
      have hk : keyOf e = e.key := by unfold keyOf; rw [if_pos ht]
      have hnb : ¬ IsBlank e := by unfold IsBlank; rw [ht]; simp
      rw [if_neg hnb]
      cases hkey : e.key with
      | none =>
        have hk0 : keyOf e = none := by rw [hk, hkey]
        have hop : Opened (pre ++ [e]) ↔ Opened pre := by rw [opened_concat]; simp [hk0]
        unfold blockStep
        simp only [ht, hkey]
        rw [inherited_concat_none hk0]
        unfold typeOf startOf
        rw [opener_concat_none hk0]
        unfold annotate
        simp only [hk0, ht, if_true]
        by_cases ho : Opened pre
        · simp [ho, hop.2 ho, Block.push, ht]
        · have : ¬ Opened (pre ++ [e]) := fun h => ho (hop.1 h)
          simp [ho, this, Block.push, Entry.addError, ht]
      | some k =>
        have hk1 : keyOf e = some k := by rw [hk, hkey]
        have hlk : lower k = k := hre.lower_ k hkey
        have hend : k ≠ endText := by
          intro h
          exact hee (by unfold IsEnd; rw [hk1, h])
        have hop : Opened (pre ++ [e]) := opened_concat.2 (Or.inr (by rw [hk1]; simp))
        unfold blockStep
        simp only [ht, hkey, hlk]
        rw [if_neg hend]
        unfold annotate
        simp only [hk1, hend, if_false]
        by_cases ho : Opened pre
        · rw [inherited_concat_opened hk1 ho]
          unfold typeOf startOf
          rw [opener_concat_opened ho]
          simp only [ho, hop, decide_true, Bool.not_true, if_true]
          have : ({ e with key := some k } : Entry D) = e := by cases e; simp_all
          rw [ht] at this
          simp [Block.push, this]
        · rw [inherited_concat_new hk1 ho]
          unfold typeOf startOf
          rw [opener_concat_new ho (by rw [hk1]; simp), opener_eq_none.2 ho]
          simp only [ho, hop, decide_true, decide_false, Bool.not_false, if_true, if_false]
          by_cases hf : 1 < e.fields.length
          · simp [Block.push, hf, Entry.addWarning, hk1, hend, hkey]
          · simp [Block.push, hf, hk1, hend, hkey]
    · -- an empty line
      have hk0 : keyOf e = none := by unfold keyOf; rw [ht]; simp
      have hop : Opened (pre ++ [e]) ↔ Opened pre := by rw [opened_concat]; simp [hk0]
      unfold blockStep
      simp only [ht]
      rw [inherited_concat_none hk0]
      unfold typeOf startOf
      rw [opener_concat_none hk0]
      have hann : annotate carry pre e = e := by unfold annotate; simp [hk0, ht]
      by_cases hn : e.notes = []
      · have hb : IsBlank e := ⟨ht, hn⟩
        rw [if_pos hb, if_neg (by rw [hn]; simp)]
        simp only [hop, List.append_nil]
      · have hb : ¬ IsBlank e := fun h => hn h.2
        rw [if_neg hb, if_pos (List.length_pos_iff.2 hn)]
        simp only [hop, hann, Block.push]
    · -- an error
      have hk0 : keyOf e = none := by unfold keyOf; rw [ht]; simp
      have hop : Opened (pre ++ [e]) ↔ Opened pre := by rw [opened_concat]; simp [hk0]
      have hnb : ¬ IsBlank e := by unfold IsBlank; rw [ht]; simp
      have hann : annotate carry pre e = e := by unfold annotate; simp [hk0, ht]
      unfold blockStep
      simp only [ht]
      rw [inherited_concat_none hk0, if_neg hnb]
      unfold typeOf startOf
      rw [opener_concat_none hk0]
      simp only [hop, hann, Block.push]

theorem fold_seg (bs : List (Block D)) (carry : Option (List Char)) (body : List (Entry D)) (e : Entry D)
    (hr : ∀ x ∈ body ++ [e], IsRaw lower x) (he : ∀ x ∈ body, ¬ IsEnd x) (hend : IsEnd e) :
    (body ++ [e]).foldl (blockStep lower) (start bs carry) =
      start (bs ++ [blockOf carry (body ++ [e])]) (carryOf carry (body ++ [e])) := by
  rw [List.foldl_append, fold_open bs carry body (fun x hx => hr x (by simp [hx])) he]
  simp only [List.foldl_cons, List.foldl_nil]
  have hre := hr e (by simp)
  have hk1 : keyOf e = some endText := hend
  have ht : e.entryType = .data := by
    unfold keyOf at hk1
    by_contra h
    rw [if_neg h] at hk1
    cases hk1
  have hkey : e.key = some endText := by unfold keyOf at hk1; rwa [if_pos ht] at hk1
  have hlk : lower endText = endText := hre.lower_ _ hkey
  have hnb : ¬ IsBlank e := by unfold IsBlank; rw [ht]; simp
  unfold blockStep blockOf carryOf
  rw [annotateFrom_concat, if_neg hnb]
  simp only [ht, hkey, hlk, if_true, List.dropLast_concat, List.getLast?_append, List.getLast?_singleton, Option.some_or,
    Option.map_some, Option.getD_some]
  unfold annotate
  simp only [hk1, if_true, start]
  by_cases ho : Opened body
  · unfold typeOf startOf
    rw [opener_concat_opened ho]
    by_cases hf : 1 < e.fields.length
    · simp [ho, Block.push, hf, Entry.addWarning, hkey]
    · simp [ho, Block.push, hf, hkey]
  · unfold typeOf startOf
    rw [opener_concat_new ho (by rw [hk1]; simp)]
    by_cases hf : 1 < e.fields.length
    · simp [ho, Block.push, hf, Entry.addWarning, Entry.addError, hkey, hk1]
    · simp [ho, Block.push, hf, Entry.addError, hkey, hk1]

theorem fold_segs (segs : List (List (Entry D))) : ∀ (bs : List (Block D)) (carry : Option (List Char)),
    (∀ s ∈ segs, ∀ x ∈ s, IsRaw lower x) → (∀ s ∈ segs, ∃ body e, s = body ++ [e] ∧ IsEnd e ∧ ∀ x ∈ body, ¬ IsEnd x) →
    segs.flatten.foldl (blockStep lower) (start bs carry) = start (bs ++ blocksOf carry segs) (carryAll carry segs) := by
  induction segs with
  | nil => intro bs carry _ _; simp [blocksOf, carryAll]
  | cons s ss ih =>
    intro bs carry hr he
    obtain ⟨body, e, rfl, h1, h2⟩ := he s (by simp)
    rw [List.flatten_cons, List.foldl_append, fold_seg bs carry body e (hr _ (by simp)) h2 h1,
      ih _ _ (fun s hs => hr s (by simp [hs])) (fun s hs => he s (by simp [hs]))]
    simp [blocksOf, carryAll]

theorem annotate_line (carry : Option (List Char)) (pre : List (Entry D)) (e : Entry D) :
    (annotate carry pre e).lineNumber = e.lineNumber := by
  unfold annotate
  repeat' split
  all_goals rfl

theorem annotateFrom_last (carry : Option (List Char)) (a : List (Entry D)) :
    (annotateFrom carry [] a).getLast?.map Entry.lineNumber =
      (a.filter (fun e => decide (¬ IsBlank e))).getLast?.map Entry.lineNumber := by
  induction a using List.reverseRecOn with
  | nil => rfl
  | append_singleton a e ih =>
    rw [annotateFrom_concat, List.filter_append]
    by_cases h : IsBlank e
    · simp [h]; simpa using ih
    · simp [h, annotate_line]

theorem opened_ne {carry : Option (List Char)} {a : List (Entry D)} (h : Opened a) : annotateFrom carry [] a ≠ [] := by
  induction a using List.reverseRecOn with
  | nil => obtain ⟨x, hx, -⟩ := h; cases hx
  | append_singleton a e ih =>
    rw [annotateFrom_concat]
    rcases opened_concat.1 h with h | h
    · intro h0
      exact ih h (List.append_eq_nil_iff.1 h0).1
    · have : ¬ IsBlank e := by
        intro hb
        apply h
        unfold keyOf
        rw [hb.1]
        simp
      rw [if_neg this]
      simp

theorem finish_tail (bs : List (Block D)) (carry : Option (List Char)) (tail : List (Entry D))
    (hr : ∀ x ∈ tail, IsRaw lower x) (he : ∀ x ∈ tail, ¬ IsEnd x) :
    finishBlocks (tail.foldl (blockStep lower) (start bs carry)) = .ok (bs ++ finalOf carry tail) := by
  rw [fold_open bs carry tail hr he]
  unfold finishBlocks finalOf
  by_cases ho : Opened tail
  · simp only [ho, decide_true, if_true]
    have hne := opened_ne (carry := carry) ho
    have hl := annotateFrom_last carry tail
    cases hlast : (annotateFrom carry [] tail).getLast? with
    | none => exact absurd (List.getLast?_eq_none_iff.1 hlast) hne
    | some last =>
      rw [hlast] at hl
      unfold markLast
      simp only [hlast, Entry.addError]
      rw [← hl]
      rfl
  · simp [ho]

/-- every list of lines can be cut at its `END` lines -/
theorem cut_exists (es : List (Entry D)) : ∃ segs tail, Cut es segs tail := by
  induction es using List.reverseRecOn with
  | nil => exact ⟨[], [], rfl, by simp, by simp⟩
  | append_singleton es e ih =>
    obtain ⟨segs, tail, h⟩ := ih
    by_cases he : IsEnd e
    · refine ⟨segs ++ [tail ++ [e]], [], ?_, ?_, by simp⟩
      · rw [h.all]; simp
      · intro s hs
        rcases List.mem_append.1 hs with hs | hs
        · exact h.ends s hs
        · rw [List.mem_singleton] at hs
          exact ⟨tail, e, hs, he, h.open_⟩
    · refine ⟨segs, tail ++ [e], ?_, h.ends, ?_⟩
      · rw [h.all]; simp
      · intro x hx
        rcases List.mem_append.1 hx with hx | hx
        · exact h.open_ x hx
        · rw [List.mem_singleton] at hx; rw [hx]; exact he

theorem blocks_cut {es : List (Entry D)} {segs : List (List (Entry D))} {tail : List (Entry D)} (h : Cut es segs tail)
    (hr : ∀ e ∈ es, IsRaw lower e) :
    finishBlocks (es.foldl (blockStep lower) ⟨[], Block.new, none, false⟩) =
      .ok (blocksOf none segs ++ finalOf (carryAll none segs) tail) := by
  have hs : (⟨[], Block.new, none, false⟩ : BlockState D) = start [] none := rfl
  rw [hs, h.all, List.foldl_append, fold_segs segs [] none ?_ h.ends, finish_tail _ _ _ ?_ h.open_]
  · rfl
  · intro x hx; exact hr x (by rw [h.all]; simp [hx])
  · intro s hs x hx; exact hr x (by rw [h.all]; simp only [List.mem_append, List.mem_flatten]; exact Or.inl ⟨s, hs, hx⟩)

/-! ### The lines -/

theorem parseLine_raw {F : Floats D} (hl : ∀ s, lower (lower s) = lower s) {n : Nat} {l : Line} {e : Entry D}
    (h : parseLine F lower n l = .ok e) : IsRaw lower e ∧ e.lineNumber = n := by
  unfold parseLine at h
  cases l with
  | ioError m =>
    have h := Outcome.ok.inj h
    subst h
    exact ⟨⟨by simp, by simp, by simp⟩, rfl⟩
  | text s =>
    obtain ⟨r, h1, h⟩ := Outcome.bind_eq_ok.1 h
    cases r with
    | error k t =>
      have h := Outcome.ok.inj h
      subst h
      exact ⟨⟨by simp, by simp, by simp⟩, rfl⟩
    | parsed rest fields =>
      simp only at h
      split at h
      · have h := Outcome.ok.inj h
        subst h
        exact ⟨⟨by simp, by simp, by simp⟩, rfl⟩
      · have h := Outcome.ok.inj h
        subst h
        refine ⟨⟨by simp, by simp, ?_⟩, rfl⟩
        intro k hk
        have hk := Option.some.inj hk
        subst hk
        exact hl _
      · have h := Outcome.ok.inj h
        subst h
        exact ⟨⟨by simp, by simp, by simp⟩, rfl⟩

theorem parseLinesFrom_raw {F : Floats D} (hl : ∀ s, lower (lower s) = lower s) : ∀ {ls : List Line} {n : Nat}
    {es : List (Entry D)}, parseLinesFrom F lower n ls = .ok es →
    (∀ e ∈ es, IsRaw lower e) ∧ es.map Entry.lineNumber = List.range' n ls.length
  | [], n, es, h => by
    have h := Outcome.ok.inj h
    subst h
    simp
  | l :: ls, n, es, h => by
    unfold parseLinesFrom at h
    obtain ⟨e, h1, h⟩ := Outcome.bind_eq_ok.1 h
    obtain ⟨es', h2, h⟩ := Outcome.bind_eq_ok.1 h
    have h := Outcome.ok.inj h
    subst h
    obtain ⟨r1, r2⟩ := parseLine_raw hl h1
    obtain ⟨r3, r4⟩ := parseLinesFrom_raw hl h2
    refine ⟨?_, ?_⟩
    · intro x hx
      rcases List.mem_cons.1 hx with rfl | hx
      · exact r1
      · exact r3 x hx
    · simp [r2, r4, List.range'_succ]

/-! ### Consequences -/

theorem annotate_from (carry : Option (List Char)) (pre : List (Entry D)) (e : Entry D) : From e (annotate carry pre e) := by
  unfold annotate
  split
  · split
    · exact ⟨rfl, by rw [List.append_assoc]; exact List.prefix_append _ _⟩
    · split
      · exact ⟨rfl, List.prefix_rfl⟩
      · exact ⟨rfl, List.prefix_append _ _⟩
  · split
    · exact ⟨rfl, List.prefix_append _ _⟩
    · exact ⟨rfl, List.prefix_rfl⟩

theorem annotateFrom_from (carry : Option (List Char)) (pre a : List (Entry D)) :
    List.Forall₂ From (a.filter (fun e => decide (¬ IsBlank e))) (annotateFrom carry pre a) := by
  induction a generalizing pre with
  | nil => exact .nil
  | cons e a ih =>
    unfold annotateFrom
    by_cases h : IsBlank e
    · simpa [h] using ih _
    · simpa [h] using ⟨annotate_from carry pre e, by simpa using ih (pre ++ [e])⟩

theorem markLast_from {a b : List (Entry D)} (h : List.Forall₂ From a b) : List.Forall₂ From a (markLast b) := by
  induction b using List.reverseRecOn generalizing a with
  | nil => simpa [markLast] using h
  | append_singleton b o ih =>
    obtain ⟨a', x, rfl, h1, h2⟩ : ∃ a' x, a = a' ++ [x] ∧ List.Forall₂ From a' b ∧ From x o := by
      have h' := List.rel_reverse h
      rw [List.reverse_append] at h'
      cases hr : a.reverse with
      | nil => rw [hr] at h'; cases h'
      | cons x r =>
        rw [hr] at h'
        simp only [List.reverse_cons, List.reverse_nil, List.nil_append, List.cons_append] at h'
        obtain ⟨h1, h2⟩ := List.forall₂_cons.1 h'
        refine ⟨r.reverse, x, ?_, ?_, h1⟩
        · rw [← List.reverse_reverse a, hr]; simp
        · have := List.rel_reverse h2
          rwa [List.reverse_reverse] at this
    have e : markLast (b ++ [o]) = b ++ [{ o with notes := o.notes ++ [.error .missingEnd] }] := by
      simp [markLast]
    rw [e]
    exact List.rel_append h1 (.cons ⟨h2.1, h2.2.trans (List.prefix_append _ _)⟩ .nil)

theorem blocksOf_from (carry : Option (List Char)) (segs : List (List (Entry D))) :
    List.Forall₂ From (segs.flatten.filter (fun e => decide (¬ IsBlank e))) ((blocksOf carry segs).flatMap Block.entries) := by
  induction segs generalizing carry with
  | nil => exact .nil
  | cons s ss ih =>
    rw [List.flatten_cons, List.filter_append]
    unfold blocksOf
    rw [List.flatMap_cons]
    exact List.rel_append (annotateFrom_from carry [] s) (ih _)

theorem annotate_type (carry : Option (List Char)) (pre : List (Entry D)) (e : Entry D) :
    (annotate carry pre e).entryType =
      if keyOf e = some endText then .end_ else if keyOf e ≠ none ∧ ¬ Opened pre then .begin_ else e.entryType := by
  unfold annotate
  cases h : keyOf e with
  | none =>
    by_cases hd : e.entryType = .data
    · simp [hd]
    · simp [hd]
  | some k =>
    by_cases hk : k = endText
    · simp [hk]
    · by_cases ho : Opened pre
      · simp [hk, ho]
      · simp [hk, ho]

theorem annotateFrom_mem {carry : Option (List Char)} {pre a : List (Entry D)} {x : Entry D} (h : x ∈ annotateFrom carry pre a) :
    ∃ a1 e a2, a = a1 ++ e :: a2 ∧ x = annotate carry (pre ++ a1) e := by
  induction a generalizing pre with
  | nil => cases h
  | cons e a ih =>
    unfold annotateFrom at h
    rcases List.mem_append.1 h with h | h
    · by_cases hb : IsBlank e
      · rw [if_pos hb] at h; cases h
      · rw [if_neg hb, List.mem_singleton] at h
        exact ⟨[], e, a, rfl, by rw [h]; simp⟩
    · obtain ⟨a1, e', a2, e1, e2⟩ := ih h
      exact ⟨e :: a1, e', a2, by rw [e1]; rfl, by rw [e2]; simp⟩

theorem opened_append {a b : List (Entry D)} : Opened (a ++ b) ↔ Opened a ∨ Opened b := by
  unfold Opened
  constructor
  · rintro ⟨x, hx, h⟩
    rcases List.mem_append.1 hx with hx | hx
    · exact Or.inl ⟨x, hx, h⟩
    · exact Or.inr ⟨x, hx, h⟩
  · rintro (⟨x, hx, h⟩ | ⟨x, hx, h⟩)
    · exact ⟨x, by simp [hx], h⟩
    · exact ⟨x, by simp [hx], h⟩

theorem raw_type {e : Entry D} (h : IsRaw lower e) : e.entryType ≠ .begin_ ∧ e.entryType ≠ .end_ := by
  rcases h.kind with h | h | h <;> rw [h] <;> simp

/-- lines without a keyword, or in an open block, keep their type -/
theorem annotateFrom_plain {carry : Option (List Char)} {pre a : List (Entry D)} (hr : ∀ e ∈ a, IsRaw lower e)
    (he : ∀ e ∈ a, ¬ IsEnd e) (ho : ¬ Opened a ∨ Opened pre) :
    ∀ x ∈ annotateFrom carry pre a, x.entryType ≠ .begin_ ∧ x.entryType ≠ .end_ := by
  intro x hx
  obtain ⟨a1, e, a2, rfl, rfl⟩ := annotateFrom_mem hx
  have hne : ¬ keyOf e = some endText := he e (by simp)
  rw [annotate_type, if_neg hne, if_neg]
  · exact raw_type (hr e (by simp))
  · rintro ⟨h1, h2⟩
    rcases ho with ho | ho
    · exact ho ⟨e, by simp, h1⟩
    · exact h2 (opened_append.2 (Or.inl ho))

theorem opened_split {a : List (Entry D)} (h : Opened a) : ∃ p c q, a = p ++ c :: q ∧ ¬ Opened p ∧ keyOf c ≠ none ∧ opener a = some c := by
  induction a with
  | nil => obtain ⟨x, hx, -⟩ := h; cases hx
  | cons e a ih =>
    by_cases hk : keyOf e = none
    · have h' : Opened a := by
        obtain ⟨x, hx, h1⟩ := h
        rcases List.mem_cons.1 hx with rfl | hx
        · exact absurd hk h1
        · exact ⟨x, hx, h1⟩
      obtain ⟨p, c, q, rfl, h1, h2, h3⟩ := ih h'
      refine ⟨e :: p, c, q, rfl, ?_, h2, ?_⟩
      · rintro ⟨x, hx, h4⟩
        rcases List.mem_cons.1 hx with rfl | hx
        · exact h4 hk
        · exact h1 ⟨x, hx, h4⟩
      · rw [← h3]
        unfold opener
        rw [List.find?_cons_of_neg]
        simp [hk]
    · refine ⟨[], e, a, rfl, ?_, hk, ?_⟩
      · rintro ⟨x, hx, -⟩; cases hx
      · unfold opener
        rw [List.find?_cons_of_pos]
        simp [hk]

/-- the entries of an open stretch -/
theorem open_shape (carry : Option (List Char)) {a : List (Entry D)} (hr : ∀ e ∈ a, IsRaw lower e) (he : ∀ e ∈ a, ¬ IsEnd e)
    (ho : Opened a) :
    ∃ pre o post, annotateFrom carry [] a = pre ++ o :: post ∧ o.entryType = .begin_ ∧ o.key = some (typeOf a) ∧
      o.lineNumber = startOf a ∧ ∀ x ∈ pre ++ post, x.entryType ≠ .begin_ ∧ x.entryType ≠ .end_ := by
  obtain ⟨p, c, q, e, h1, h2, h3⟩ := opened_split ho
  have hcb : ¬ IsBlank c := by
    intro hb
    apply h2
    unfold keyOf
    rw [hb.1]; simp
  have hce : ¬ IsEnd c := he c (by rw [e]; simp)
  obtain ⟨k, hk⟩ := Option.ne_none_iff_exists'.1 h2
  have hkne : k ≠ endText := by intro h; exact hce (by unfold IsEnd; rw [hk, h])
  refine ⟨annotateFrom carry [] p, annotate carry p c, annotateFrom carry (p ++ [c]) q, ?_, ?_, ?_, ?_, ?_⟩
  · rw [e, annotateFrom_append]
    congr 1
    rw [annotateFrom, if_neg hcb]
    simp
  · have hne : ¬ keyOf c = some endText := hce
    rw [annotate_type, if_neg hne, if_pos ⟨h2, h1⟩]
  · have hck : c.key = some k := by
      unfold keyOf at hk
      by_cases hd : c.entryType = .data
      · rwa [if_pos hd] at hk
      · rw [if_neg hd] at hk; cases hk
    unfold annotate typeOf
    rw [h3, Option.bind_some]
    simp [hk, hkne, h1, hck]
  · unfold startOf
    rw [annotate_line, h3]
    rfl
  · intro x hx
    rcases List.mem_append.1 hx with hx | hx
    · exact annotateFrom_plain (fun y hy => hr y (by rw [e]; simp [hy])) (fun y hy => he y (by rw [e]; simp [hy])) (Or.inl h1) x hx
    · refine annotateFrom_plain (fun y hy => hr y (by rw [e]; simp [hy])) (fun y hy => he y (by rw [e]; simp [hy])) (Or.inr ?_) x hx
      exact ⟨c, by simp, h2⟩

theorem inherited_lower {carry : Option (List Char)} {pre : List (Entry D)} (hc : ∀ k, carry = some k → lower k = k)
    (hr : ∀ e ∈ pre, IsRaw lower e) : ∀ k, inherited carry pre = some k → lower k = k := by
  intro k hk
  unfold inherited at hk
  split at hk
  · exact hc k hk
  · rename_i k0 ks h
    have hm : k ∈ pre.filterMap keyOf := by rw [h]; exact List.mem_cons_of_mem _ (List.mem_of_getLast? hk)
    obtain ⟨e, he, h1⟩ := List.mem_filterMap.1 hm
    refine (hr e he).lower_ k ?_
    unfold keyOf at h1
    by_cases hd : e.entryType = .data
    · rwa [if_pos hd] at h1
    · rw [if_neg hd] at h1; cases h1

theorem annotate_lower {carry : Option (List Char)} {pre : List (Entry D)} {e : Entry D} (hc : ∀ k, carry = some k → lower k = k)
    (hr : ∀ e ∈ pre, IsRaw lower e) (he : IsRaw lower e) : ∀ k, (annotate carry pre e).key = some k → lower k = k := by
  intro k hk
  unfold annotate at hk
  split at hk
  · split at hk
    · exact he.lower_ k hk
    · split at hk
      · exact he.lower_ k hk
      · exact he.lower_ k hk
  · split at hk
    · exact inherited_lower hc hr k hk
    · exact he.lower_ k hk

theorem annotateFrom_lower {carry : Option (List Char)} {a : List (Entry D)} (hc : ∀ k, carry = some k → lower k = k)
    (hr : ∀ e ∈ a, IsRaw lower e) : ∀ x ∈ annotateFrom carry [] a, ∀ k, x.key = some k → lower k = k := by
  intro x hx
  obtain ⟨a1, e, a2, rfl, rfl⟩ := annotateFrom_mem hx
  exact annotate_lower hc (fun y hy => hr y (by simp at hy; simp [hy])) (hr e (by simp))

theorem blockOf_shape {carry : Option (List Char)} (hc : ∀ k, carry = some k → lower k = k) {body : List (Entry D)} {e : Entry D}
    (hr : ∀ x ∈ body ++ [e], IsRaw lower x) (he : ∀ x ∈ body, ¬ IsEnd x) (hend : IsEnd e) :
    Shape lower (blockOf carry (body ++ [e])) ∧ Closed (blockOf carry (body ++ [e])) := by
  have hk1 : keyOf e = some endText := hend
  have ht : e.entryType = .data := by
    unfold keyOf at hk1
    by_contra h
    rw [if_neg h] at hk1
    cases hk1
  have hnb : ¬ IsBlank e := by unfold IsBlank; rw [ht]; simp
  have hent : (blockOf carry (body ++ [e])).entries = annotateFrom carry [] body ++ [annotate carry body e] := by
    show annotateFrom carry [] (body ++ [e]) = _
    rw [annotateFrom_concat, if_neg hnb]
  have hety : (annotate carry body e).entryType = .end_ := by rw [annotate_type, if_pos hk1]
  have hlineEnd : (blockOf carry (body ++ [e])).linenoEnd = e.lineNumber := by simp [blockOf]
  have hbr : ∀ x ∈ body, IsRaw lower x := fun x hx => hr x (by simp [hx])
  refine ⟨⟨?_, ?_, ?_, ?_⟩, ?_⟩
  · exact annotateFrom_lower hc hr
  · rw [hent, List.dropLast_concat]
    by_cases ho : Opened body
    · obtain ⟨pre, o, post, h1, h2, -, -, h5⟩ := open_shape carry hbr he ho
      rw [h1]
      intro x hx
      rcases List.mem_append.1 hx with hx | hx
      · exact (h5 x (by simp [hx])).2
      · rcases List.mem_cons.1 hx with rfl | hx
        · rw [h2]; simp
        · exact (h5 x (by simp [hx])).2
    · intro x hx
      exact (annotateFrom_plain hbr he (Or.inl ho) x hx).2
  · exact ⟨annotate carry body e, by rw [hent]; simp, by rw [annotate_line, hlineEnd]⟩
  · by_cases ho : Opened body
    · left
      obtain ⟨pre, o, post, h1, h2, h3, h4, h5⟩ := open_shape carry hbr he ho
      refine ⟨pre, o, post ++ [annotate carry body e], by rw [hent, h1]; simp, h2, ?_, ?_, ?_⟩
      · rw [h3]
        show _ = some (typeOf (body ++ [e]))
        unfold typeOf
        rw [opener_concat_opened ho]
      · rw [h4]
        show _ = startOf (body ++ [e])
        unfold startOf
        rw [opener_concat_opened ho]
      · intro x hx
        rw [← List.append_assoc] at hx
        rcases List.mem_append.1 hx with hx | hx
        · exact (h5 x hx).1
        · rw [List.mem_singleton] at hx
          rw [hx, hety]; simp
    · right
      have hop := opener_concat_new (e := e) ho (by rw [hk1]; simp)
      refine ⟨?_, ?_, ?_, ?_⟩
      · show typeOf (body ++ [e]) = voidText
        unfold typeOf
        rw [hop, Option.bind_some, hk1]
        simp
      · rw [hlineEnd]
        show startOf (body ++ [e]) = _
        unfold startOf
        rw [hop]
        rfl
      · intro x hx
        rw [hent] at hx
        rcases List.mem_append.1 hx with hx | hx
        · exact (annotateFrom_plain hbr he (Or.inl ho) x hx).1
        · rw [List.mem_singleton] at hx
          rw [hx, hety]; simp
      · refine ⟨annotate carry body e, by rw [hent]; simp, ?_⟩
        unfold annotate
        simp [hk1, ho]
  · exact ⟨annotate carry body e, by rw [hent]; simp, hety⟩

theorem final_shape {carry : Option (List Char)} (hc : ∀ k, carry = some k → lower k = k) {tail : List (Entry D)}
    (hr : ∀ x ∈ tail, IsRaw lower x) (he : ∀ x ∈ tail, ¬ IsEnd x) : ∀ b ∈ finalOf carry tail,
    Shape lower b ∧ ∃ l, b.entries.getLast? = some l ∧ l.entryType ≠ .end_ ∧ Note.error .missingEnd ∈ l.notes := by
  intro b hb
  unfold finalOf at hb
  by_cases ho : Opened tail
  swap
  · rw [if_neg ho] at hb; cases hb
  rw [if_pos ho, List.mem_singleton] at hb
  obtain ⟨pre, o, post, h1, h2, h3, h4, h5⟩ := open_shape carry hr he ho
  have hlow := annotateFrom_lower hc hr
  have hlast := annotateFrom_last carry tail
  rcases List.eq_nil_or_concat post with rfl | ⟨post', l, rfl⟩
  · have hm : markLast (annotateFrom carry [] tail) = pre ++ [{ o with notes := o.notes ++ [.error .missingEnd] }] := by
      rw [h1]; simp [markLast]
    rw [hm] at hb
    rw [h1] at hlow hlast
    subst hb
    refine ⟨⟨?_, ?_, ?_, Or.inl ⟨pre, _, [], rfl, h2, h3, h4, ?_⟩⟩, ?_⟩
    · intro x hx
      rcases List.mem_append.1 hx with hx | hx
      · exact hlow x (by simp [hx])
      · rw [List.mem_singleton] at hx
        rw [hx]; exact hlow o (by simp)
    · intro x hx
      rw [List.dropLast_concat] at hx
      exact (h5 x (by simp [hx])).2
    · refine ⟨_, by simp; rfl, ?_⟩
      simp only
      rw [← hlast]
      simp
    · intro x hx; exact (h5 x (by simpa using hx)).1
    · exact ⟨_, by simp; rfl, by simp [h2], by simp⟩
  · have hm : markLast (annotateFrom carry [] tail) = pre ++ o :: (post' ++ [{ l with notes := l.notes ++ [.error .missingEnd] }]) := by
      have e : pre ++ o :: post'.concat l = (pre ++ o :: post') ++ [l] := by simp
      rw [h1, e]
      unfold markLast
      rw [List.getLast?_concat, List.dropLast_concat]
      simp
    rw [hm] at hb
    rw [h1] at hlow hlast
    have hlt := h5 l (by simp)
    subst hb
    have hgl : ∀ z : Entry D, (pre ++ o :: (post' ++ [z])).getLast? = some z := by
      intro z
      have : pre ++ o :: (post' ++ [z]) = (pre ++ o :: post') ++ [z] := by simp
      rw [this, List.getLast?_concat]
    refine ⟨⟨?_, ?_, ?_, Or.inl ⟨pre, o, _, rfl, h2, h3, h4, ?_⟩⟩, ?_⟩
    · intro x hx
      have hx : x ∈ pre ∨ x = o ∨ x ∈ post' ∨ x = { l with notes := l.notes ++ [.error .missingEnd] } := by simpa using hx
      rcases hx with hx | hx | hx | hx
      · exact hlow x (by simp [hx])
      · exact hlow x (by simp [hx])
      · exact hlow x (by simp [hx])
      · rw [hx]; exact hlow l (by simp)
    · intro x hx
      have e : ∀ z : Entry D, (pre ++ o :: (post' ++ [z])).dropLast = pre ++ o :: post' := by
        intro z
        have : pre ++ o :: (post' ++ [z]) = (pre ++ o :: post') ++ [z] := by simp
        rw [this, List.dropLast_concat]
      rw [e] at hx
      have hx : x ∈ pre ∨ x = o ∨ x ∈ post' := by simpa using hx
      rcases hx with hx | hx | hx
      · exact (h5 x (by simp [hx])).2
      · rw [hx, h2]; simp
      · exact (h5 x (by simp [hx])).2
    · refine ⟨_, hgl _, ?_⟩
      simp only
      rw [← hlast]
      have : pre ++ o :: post'.concat l = pre ++ o :: (post' ++ [l]) := by simp
      rw [this, hgl]
      rfl
    · intro x hx
      have hx : x ∈ pre ∨ x ∈ post' ∨ x = { l with notes := l.notes ++ [.error .missingEnd] } := by simpa using hx
      rcases hx with hx | hx | hx
      · exact (h5 x (by simp [hx])).1
      · exact (h5 x (by simp [hx])).1
      · rw [hx]; exact hlt.1
    · exact ⟨_, hgl _, hlt.2, by simp⟩

theorem blocksOf_shape (segs : List (List (Entry D))) : ∀ (carry : Option (List Char)), (∀ k, carry = some k → lower k = k) →
    (∀ s ∈ segs, ∀ x ∈ s, IsRaw lower x) → (∀ s ∈ segs, ∃ body e, s = body ++ [e] ∧ IsEnd e ∧ ∀ x ∈ body, ¬ IsEnd x) →
    (∀ b ∈ blocksOf carry segs, Shape lower b ∧ Closed b) ∧ ∀ k, carryAll carry segs = some k → lower k = k := by
  induction segs with
  | nil => intro carry hc _ _; exact ⟨by simp [blocksOf], hc⟩
  | cons s ss ih =>
    intro carry hc hr he
    obtain ⟨body, e, rfl, h1, h2⟩ := he s (by simp)
    have hc' : ∀ k, carryOf carry (body ++ [e]) = some k → lower k = k := by
      unfold carryOf
      rw [List.dropLast_concat]
      exact inherited_lower hc (fun x hx => hr _ List.mem_cons_self x (by simp [hx]))
    obtain ⟨i1, i2⟩ := ih _ hc' (fun s hs => hr s (by simp [hs])) (fun s hs => he s (by simp [hs]))
    refine ⟨?_, i2⟩
    intro b hb
    unfold blocksOf at hb
    rcases List.mem_cons.1 hb with rfl | hb
    · exact blockOf_shape hc (hr _ List.mem_cons_self) h2 h1
    · exact i1 b hb

theorem parseLine_notes {F : Floats D} {n : Nat} {l : Line} {e : Entry D} (h : parseLine F lower n l = .ok e) :
    ∀ x ∈ e.notes, ∃ m, x = .error m := by
  unfold parseLine at h
  cases l with
  | ioError m =>
    have h := Outcome.ok.inj h
    subst h
    simp
  | text s =>
    obtain ⟨r, h1, h⟩ := Outcome.bind_eq_ok.1 h
    cases r with
    | error k t =>
      have h := Outcome.ok.inj h
      subst h
      simp
    | parsed rest fields =>
      have hn : ∀ x ∈ (if rest.length > 0 then [Note.error (.unparsed rest)] else []), ∃ m, x = Note.error m := by
        split <;> simp
      simp only at h
      split at h
      all_goals
        have h := Outcome.ok.inj h
        subst h
        exact hn

theorem parseLinesFrom_notes {F : Floats D} : ∀ {ls : List Line} {n : Nat} {es : List (Entry D)},
    parseLinesFrom F lower n ls = .ok es → ∀ e ∈ es, ∀ x ∈ e.notes, ∃ m, x = .error m
  | [], n, es, h => by
    have h := Outcome.ok.inj h
    subst h
    simp
  | l :: ls, n, es, h => by
    unfold parseLinesFrom at h
    obtain ⟨e, h1, h⟩ := Outcome.bind_eq_ok.1 h
    obtain ⟨es', h2, h⟩ := Outcome.bind_eq_ok.1 h
    have h := Outcome.ok.inj h
    subst h
    intro x hx
    rcases List.mem_cons.1 hx with rfl | hx
    · exact parseLine_notes h1
    · exact parseLinesFrom_notes h2 x hx

/-- the warnings of an entry -/
def Warned (e : Entry D) : Prop :=
  (e.entryType = .end_ → (Note.warning .afterEnd ∈ e.notes ↔ 2 ≤ e.fields.length)) ∧
  (e.entryType = .begin_ → (Note.warning .afterType ∈ e.notes ↔ 2 ≤ e.fields.length))

theorem annotate_warned {carry : Option (List Char)} {pre : List (Entry D)} {e : Entry D} (hr : IsRaw lower e)
    (hn : ∀ x ∈ e.notes, ∃ m, x = .error m) : Warned (annotate carry pre e) := by
  have h1 : ∀ m, Note.warning m ∉ e.notes := by
    intro m hm
    obtain ⟨m', h⟩ := hn _ hm
    cases h
  have ht := raw_type hr
  unfold annotate
  split
  · split
    · refine ⟨fun _ => ?_, fun h => by cases h⟩
      simp only [List.mem_append, h1, false_or]
      by_cases ho : Opened pre <;> by_cases hf : 1 < e.fields.length <;> simp [ho, hf] <;> omega
    · split
      · exact ⟨fun h => absurd h ht.2, fun h => absurd h ht.1⟩
      · refine ⟨fun h => (by cases h), fun _ => ?_⟩
        simp only [List.mem_append, h1, false_or]
        by_cases hf : 1 < e.fields.length <;> simp [hf] <;> omega
  · split
    · rename_i hd
      exact ⟨fun h => absurd h ht.2, fun h => absurd h ht.1⟩
    · exact ⟨fun h => absurd h ht.2, fun h => absurd h ht.1⟩

theorem annotateFrom_warned {carry : Option (List Char)} {pre a : List (Entry D)} (hr : ∀ e ∈ a, IsRaw lower e)
    (hn : ∀ e ∈ a, ∀ x ∈ e.notes, ∃ m, x = .error m) : ∀ x ∈ annotateFrom carry pre a, Warned x := by
  intro x hx
  obtain ⟨a1, e, a2, rfl, rfl⟩ := annotateFrom_mem hx
  exact annotate_warned (hr e (by simp)) (hn e (by simp))

theorem markLast_warned {a : List (Entry D)} (h : ∀ x ∈ a, Warned x) : ∀ x ∈ markLast a, Warned x := by
  intro x hx
  unfold markLast at hx
  split at hx
  · rename_i e he
    rcases List.mem_append.1 hx with hx | hx
    · exact h x (List.dropLast_subset _ hx)
    · rw [List.mem_singleton] at hx
      have := h e (List.mem_of_getLast? he)
      rw [hx]
      unfold Warned at this ⊢
      simpa using this
  · cases hx

theorem blocksOf_warned (segs : List (List (Entry D))) : ∀ (carry : Option (List Char)),
    (∀ s ∈ segs, ∀ x ∈ s, IsRaw lower x) → (∀ s ∈ segs, ∀ e ∈ s, ∀ x ∈ e.notes, ∃ m, x = .error m) →
    ∀ b ∈ blocksOf carry segs, ∀ x ∈ b.entries, Warned x := by
  induction segs with
  | nil => intro carry _ _ b hb; cases hb
  | cons s ss ih =>
    intro carry hr hn b hb
    unfold blocksOf at hb
    rcases List.mem_cons.1 hb with rfl | hb
    · exact annotateFrom_warned (hr s (by simp)) (hn s (by simp))
    · exact ih _ (fun s hs => hr s (by simp [hs])) (fun s hs => hn s (by simp [hs])) b hb

theorem blocks_warned {es : List (Entry D)} {segs : List (List (Entry D))} {tail : List (Entry D)} (hc : Cut es segs tail)
    (hr : ∀ e ∈ es, IsRaw lower e) (hn : ∀ e ∈ es, ∀ x ∈ e.notes, ∃ m, x = .error m) {carry carry' : Option (List Char)} :
    ∀ b ∈ blocksOf carry segs ++ finalOf carry' tail, ∀ x ∈ b.entries, Warned x := by
  have hm : ∀ s ∈ segs, ∀ x ∈ s, x ∈ es := by
    intro s hs x hx
    rw [hc.all]
    simp only [List.mem_append, List.mem_flatten]
    exact Or.inl ⟨s, hs, hx⟩
  have ht : ∀ x ∈ tail, x ∈ es := by
    intro x hx
    rw [hc.all]
    simp [hx]
  intro b hb
  rcases List.mem_append.1 hb with hb | hb
  · exact blocksOf_warned segs carry (fun s hs x hx => hr x (hm s hs x hx)) (fun s hs x hx => hn x (hm s hs x hx)) b hb
  · unfold finalOf at hb
    split at hb
    · rw [List.mem_singleton] at hb
      subst hb
      exact markLast_warned (annotateFrom_warned (fun x hx => hr x (ht x hx)) (fun x hx => hn x (ht x hx)))
    · cases hb

theorem forall₂_mem {α β : Type} {R : α → β → Prop} {a : List α} {b : List β} (h : List.Forall₂ R a b) {x : α} (hx : x ∈ a) :
    ∃ y ∈ b, R x y := by
  induction h with
  | nil => cases hx
  | cons h1 _ ih =>
    rcases List.mem_cons.1 hx with rfl | hx
    · exact ⟨_, by simp, h1⟩
    · obtain ⟨y, hy, hr⟩ := ih hx
      exact ⟨y, by simp [hy], hr⟩

end Systre.Cgd
