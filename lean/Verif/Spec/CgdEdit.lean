import Verif.Spec.Cgd

/-! # Blocks with other line numbers -/

namespace Systre.Cgd
variable {D : Type}

/-- the same line with another number -/
def Entry.renumber (f : Nat → Nat) (e : Entry D) : Entry D := { e with lineNumber := f e.lineNumber }

/-- the same block with other line numbers -/
def Block.renumber (f : Nat → Nat) (b : Block D) : Block D :=
  { blockType := b.blockType
    linenoStart := f b.linenoStart
    linenoEnd := f b.linenoEnd
    entries := b.entries.map (Entry.renumber f) }

/-- the same up to the number, which is changed by `f`, the text of the line (`text = true`), and the key of a line that
has been reported to come before the start of the block (`keys = true`) -/
structure SameEntry (f : Nat → Nat) (text keys : Bool) (e e' : Entry D) : Prop where
  type_ : e'.entryType = e.entryType
  fields : e'.fields = e.fields
  notes : e'.notes = e.notes
  number : e'.lineNumber = f e.lineNumber
  content : text = false → e'.content = e.content
  key : e'.key = e.key ∨ keys = true ∧ Note.error .beforeStart ∈ e.notes

/-- the same type, the same numbers up to `f`, and the same lines one by one -/
structure SameBlock (f : Nat → Nat) (text keys : Bool) (b b' : Block D) : Prop where
  type_ : b'.blockType = b.blockType
  start : b'.linenoStart = f b.linenoStart
  end_ : b'.linenoEnd = f b.linenoEnd
  entries : List.Forall₂ (SameEntry f text keys) b.entries b'.entries

/-- two lines with the same fields, up to upper and lower case of the keyword -/
inductive SameMeaning (F : Floats D) (lower : List Char → List Char) : Line → Line → Prop
  | same (l : Line) : SameMeaning F lower l l
  | fields {s s' : List Char} : parseCgdLine F s = parseCgdLine F s' →
      SameMeaning F lower (.text s) (.text s')
  | case {s s' r k k' : List Char} {fs : List (Field D)} : parseCgdLine F s = .ok (.parsed r (.key k :: fs)) →
      parseCgdLine F s' = .ok (.parsed r (.key k' :: fs)) → lower k = lower k' → SameMeaning F lower (.text s) (.text s')

/-- where line `k` is found after a line has been inserted at position `n` -/
def insertedAt (n k : Nat) : Nat := if k < n then k else k + 1

end Systre.Cgd
