import Verif.Model.CgdLine

/-!
# Model of `src/io/parse_cgd_blocks.rs`

The input is the list of the items that `BufRead::lines` yields. `to_lowercase` is a parameter. The notes are kept as
the data the messages are made of.
-/

namespace Systre.Cgd

variable {D : Type}

/-- `enum EntryType` (parse_cgd_blocks.rs:6-9). -/
inductive EntryType
  | begin_ | end_ | data | empty | error
deriving DecidableEq, Repr

/-- The messages (parse_cgd_blocks.rs:103, 107, 120, 130, 142, 162, 168, 174). -/
inductive Message
  | io (e : List Char)
  | syntax_ (kind : Nom.Kind) (at_ : List Char)
  | unparsed (rest : List Char)
  | noContent
  | afterEnd
  | afterType
  | beforeStart
  | missingEnd
deriving DecidableEq, Repr

/-- `enum Note` (parse_cgd_blocks.rs:12-16). -/
inductive Note
  | error (m : Message)
  | warning (m : Message)
deriving DecidableEq, Repr

/-- `struct Entry` (parse_cgd_blocks.rs:19-27). -/
structure Entry (D : Type) where
  entryType : EntryType
  key : Option (List Char)
  fields : List (Field D)
  notes : List Note
  lineNumber : Nat
  content : Option (List Char)
deriving DecidableEq, Repr

/-- `Entry::add_error` (parse_cgd_blocks.rs:43-45). -/
def Entry.addError (e : Entry D) (m : Message) : Entry D := { e with notes := e.notes ++ [.error m] }

/-- `Entry::add_warning` (parse_cgd_blocks.rs:47-49). -/
def Entry.addWarning (e : Entry D) (m : Message) : Entry D := { e with notes := e.notes ++ [.warning m] }

/-- `struct Block` (parse_cgd_blocks.rs:53-59). -/
structure Block (D : Type) where
  blockType : List Char
  linenoStart : Nat
  linenoEnd : Nat
  entries : List (Entry D)
deriving DecidableEq, Repr

/-- `Block::new` (parse_cgd_blocks.rs:63-70). -/
def Block.new : Block D := ⟨[], 0, 0, []⟩

/-- `current_block.entries.push(entry)` -/
def Block.push (b : Block D) (e : Entry D) : Block D := { b with entries := b.entries ++ [e] }

/-- An item of `BufRead::lines`. -/
inductive Line
  | text (s : List Char)
  | ioError (e : List Char)
deriving DecidableEq, Repr

/-- One pass of the loop of `parse_lines` (parse_cgd_blocks.rs:155-190). -/
def parseLine (F : Floats D) (lower : List Char → List Char) (lineno : Nat) : Line → Outcome (Entry D)
  | .ioError e => .ok ⟨.error, none, [], [.error (.io e)], lineno, none⟩
  | .text s => do
    let r ← parseCgdLine F s
    match r with
    | .error k t => .ok ⟨.error, none, [], [.error (.syntax_ k t)], lineno, some s⟩
    | .parsed rest fields =>
      let notes := if rest.length > 0 then [Note.error (.unparsed rest)] else []
      match fields with
      | [] => .ok ⟨.empty, none, [], notes, lineno, some s⟩
      | .key k :: fs => .ok ⟨.data, some (lower k), fs, notes, lineno, some s⟩
      | fs => .ok ⟨.data, none, fs, notes, lineno, some s⟩

/-- The loop of `parse_lines` (parse_cgd_blocks.rs:151-194). -/
def parseLinesFrom (F : Floats D) (lower : List Char → List Char) : Nat → List Line → Outcome (List (Entry D))
  | _, [] => .ok []
  | lineno, l :: ls => do
    let e ← parseLine F lower lineno l
    let es ← parseLinesFrom F lower (lineno + 1) ls
    .ok (e :: es)

/-- `parse_lines` (parse_cgd_blocks.rs:150-194). -/
def parseLines (F : Floats D) (lower : List Char → List Char) (input : List Line) : Outcome (List (Entry D)) :=
  parseLinesFrom F lower 0 input

/-- The variables of `parse_blocks` (parse_cgd_blocks.rs:75-78). -/
structure BlockState (D : Type) where
  blocks : List (Block D)
  current : Block D
  key : Option (List Char)
  inBlock : Bool

/-- the text `end` (parse_cgd_blocks.rs:98) -/
def endText : List Char := ['e', 'n', 'd']

/-- the text `--void--` (parse_cgd_blocks.rs:102) -/
def voidText : List Char := ['-', '-', 'v', 'o', 'i', 'd', '-', '-']

/-- One pass of the loop of `parse_blocks` (parse_cgd_blocks.rs:80-136). -/
def blockStep (lower : List Char → List Char) (st : BlockState D) (entry : Entry D) : BlockState D :=
  match entry.entryType with
  | .empty => if entry.notes.length > 0 then { st with current := st.current.push entry } else st
  | .error => { st with current := st.current.push entry }
  | .begin_ => st
  | .end_ => st
  | .data =>
    match entry.key with
    | some s =>
      let newKey := lower s
      let entry := { entry with key := some newKey }
      if newKey = endText then
        let entry := { entry with entryType := .end_ }
        let current := if !st.inBlock then
          { st.current with linenoStart := entry.lineNumber, blockType := voidText } else st.current
        let entry := if !st.inBlock then entry.addError .noContent else entry
        let current := { current with linenoEnd := entry.lineNumber }
        let entry := if entry.fields.length > 1 then entry.addWarning .afterEnd else entry
        { blocks := st.blocks ++ [current.push entry], current := Block.new, key := st.key, inBlock := false }
      else if !st.inBlock then
        let entry := { entry with entryType := .begin_ }
        let current := { st.current with linenoStart := entry.lineNumber, blockType := newKey }
        let entry := if entry.fields.length > 1 then entry.addWarning .afterType else entry
        { blocks := st.blocks, current := current.push entry, key := none, inBlock := true }
      else
        { st with key := some newKey, current := st.current.push entry }
    | none =>
      let entry := { entry with key := st.key }
      let entry := if !st.inBlock then entry.addError .beforeStart else entry
      { st with current := st.current.push entry }

/-- What follows the loop of `parse_blocks` (parse_cgd_blocks.rs:138-146). -/
def finishBlocks (st : BlockState D) : Outcome (List (Block D)) :=
  if st.inBlock then
    match st.current.entries.getLast? with
    | none => .panic
    | some last =>
      .ok (st.blocks ++ [{ st.current with
        linenoEnd := last.lineNumber
        entries := st.current.entries.dropLast ++ [last.addError .missingEnd] }])
  else .ok st.blocks

/-- `parse_blocks` (parse_cgd_blocks.rs:74-147). -/
def parseBlocks (F : Floats D) (lower : List Char → List Char) (input : List Line) : Outcome (List (Block D)) := do
  let es ← parseLines F lower input
  finishBlocks (es.foldl (blockStep lower) ⟨[], Block.new, none, false⟩)

end Systre.Cgd
