import Verif.Model.CgdBlocks

/-!
# What the blocks of a CGD file are

`es` is the list of the lines after they have been parsed one by one (`parse_lines`). A line has a keyword, or is a
data line without one, or is empty, or could not be read. Everything is said by looking at what comes before a line in
its block; there is no state.
-/

namespace Systre.Cgd
variable {D : Type}

/-- the keyword of a line -/
def keyOf (e : Entry D) : Option (List Char) := if e.entryType = .data then e.key else none

/-- the line is an `END` line -/
def IsEnd (e : Entry D) : Prop := keyOf e = some endText

/-- an empty line (or comment) that has been read without a complaint -/
def IsBlank (e : Entry D) : Prop := e.entryType = .empty ∧ e.notes = []

instance (e : Entry D) : Decidable (IsBlank e) := inferInstanceAs (Decidable (_ ∧ _))

/-- `segs` are the stretches of lines up to and including an `END` line, `tail` is what follows the last `END`. -/
structure Cut (es : List (Entry D)) (segs : List (List (Entry D))) (tail : List (Entry D)) : Prop where
  all : es = segs.flatten ++ tail
  ends : ∀ s ∈ segs, ∃ body e, s = body ++ [e] ∧ IsEnd e ∧ ∀ x ∈ body, ¬ IsEnd x
  open_ : ∀ x ∈ tail, ¬ IsEnd x

/-- some line of the list has a keyword: the block has been opened -/
def Opened (pre : List (Entry D)) : Prop := ∃ e ∈ pre, keyOf e ≠ none

instance (pre : List (Entry D)) : Decidable (Opened pre) := inferInstanceAs (Decidable (∃ _ ∈ _, _))

/-- The key that a line without keyword inherits from the lines before it in its stretch: the last keyword after the
one that opens the block. Before the block is opened the code uses `carry`, a key of an earlier block. -/
def inherited (carry : Option (List Char)) (pre : List (Entry D)) : Option (List Char) :=
  match pre.filterMap keyOf with
  | [] => carry
  | _ :: ks => ks.getLast?

/-- What becomes of a line, given the lines before it in its stretch. -/
def annotate (carry : Option (List Char)) (pre : List (Entry D)) (e : Entry D) : Entry D :=
  match keyOf e with
  | some k =>
    if k = endText then
      { e with
        entryType := .end_
        notes := e.notes ++ (if Opened pre then [] else [.error .noContent]) ++
          (if 1 < e.fields.length then [.warning .afterEnd] else []) }
    else if Opened pre then e
    else { e with
      entryType := .begin_
      notes := e.notes ++ (if 1 < e.fields.length then [.warning .afterType] else []) }
  | none =>
    if e.entryType = .data then
      { e with key := inherited carry pre, notes := e.notes ++ (if Opened pre then [] else [.error .beforeStart]) }
    else e

/-- what becomes of the lines `es`, when `pre` are the lines before them in their stretch -/
def annotateFrom (carry : Option (List Char)) (pre : List (Entry D)) : List (Entry D) → List (Entry D)
  | [] => []
  | e :: es => (if IsBlank e then [] else [annotate carry pre e]) ++ annotateFrom carry (pre ++ [e]) es

/-- the first line with a keyword -/
def opener (s : List (Entry D)) : Option (Entry D) := s.find? (fun e => decide (keyOf e ≠ none))

/-- the type of the block: the keyword of the first line that has one -/
def typeOf (s : List (Entry D)) : List Char :=
  match (opener s).bind keyOf with
  | some k => if k = endText then voidText else k
  | none => []

/-- the number of the first line with a keyword -/
def startOf (s : List (Entry D)) : Nat := ((opener s).map Entry.lineNumber).getD 0

/-- the block of a stretch that ends with `END` -/
def blockOf (carry : Option (List Char)) (s : List (Entry D)) : Block D :=
  { blockType := typeOf s
    linenoStart := startOf s
    linenoEnd := (s.getLast?.map Entry.lineNumber).getD 0
    entries := annotateFrom carry [] s }

/-- the last key of a stretch, which the code carries over to the next stretch -/
def carryOf (carry : Option (List Char)) (s : List (Entry D)) : Option (List Char) := inherited carry s.dropLast

/-- the blocks of the stretches -/
def blocksOf (carry : Option (List Char)) : List (List (Entry D)) → List (Block D)
  | [] => []
  | s :: ss => blockOf carry s :: blocksOf (carryOf carry s) ss

/-- the key that is carried over after all stretches -/
def carryAll (carry : Option (List Char)) : List (List (Entry D)) → Option (List Char)
  | [] => carry
  | s :: ss => carryAll (carryOf carry s) ss

/-- the error is added to the last line -/
def markLast (es : List (Entry D)) : List (Entry D) :=
  match es.getLast? with
  | some e => es.dropLast ++ [{ e with notes := e.notes ++ [.error .missingEnd] }]
  | none => []

/-- the block of the lines after the last `END`, if it has been opened -/
def finalOf (carry : Option (List Char)) (tail : List (Entry D)) : List (Block D) :=
  if Opened tail then
    [{ blockType := typeOf tail
       linenoStart := startOf tail
       linenoEnd := (((tail.filter (fun e => decide (¬ IsBlank e))).getLast?).map Entry.lineNumber).getD 0
       entries := markLast (annotateFrom carry [] tail) }]
  else []

/-- what `parse_lines` makes of a line -/
structure IsRaw (lower : List Char → List Char) (e : Entry D) : Prop where
  kind : e.entryType = .data ∨ e.entryType = .empty ∨ e.entryType = .error
  keyed : e.entryType ≠ .data → e.key = none
  lower_ : ∀ k, e.key = some k → lower k = k

/-- what comes from the input and is never changed: number, text and fields of a line -/
def source (e : Entry D) : Nat × Option (List Char) × List (Field D) := (e.lineNumber, e.content, e.fields)

/-- `o` is what has become of the line `e`: same source, and its notes have been kept -/
def From (e o : Entry D) : Prop := source o = source e ∧ e.notes <+: o.notes

/-- A block as the user sees it: keys are in lower case, `END` can only be the last entry, the end line is the line of the
last entry, and there is exactly one opening entry, whose keyword is the type and whose line is the start line; or, if
there is none, the block is marked as void and as an error. -/
def Shape (lower : List Char → List Char) (b : Block D) : Prop :=
  (∀ x ∈ b.entries, ∀ k, x.key = some k → lower k = k) ∧
  (∀ x ∈ b.entries.dropLast, x.entryType ≠ .end_) ∧
  (∃ l, b.entries.getLast? = some l ∧ l.lineNumber = b.linenoEnd) ∧
  ((∃ pre o post, b.entries = pre ++ o :: post ∧ o.entryType = .begin_ ∧ o.key = some b.blockType ∧
      o.lineNumber = b.linenoStart ∧ ∀ x ∈ pre ++ post, x.entryType ≠ .begin_) ∨
    (b.blockType = voidText ∧ b.linenoStart = b.linenoEnd ∧ (∀ x ∈ b.entries, x.entryType ≠ .begin_) ∧
      ∃ l, b.entries.getLast? = some l ∧ Note.error .noContent ∈ l.notes))

/-- the last entry is the `END` line -/
def Closed (b : Block D) : Prop := ∃ l, b.entries.getLast? = some l ∧ l.entryType = .end_

end Systre.Cgd
