import Verif.Model.ParseOperator
import Verif.Model.Finder

/-!
# Model of `src/spacegroups/parse_table.rs` and of the names in `src/spacegroups/types.rs`

The input is the list of the items that `BufRead::lines` yields (`none` for an I/O error). `to_lowercase` is a
parameter. A `HashMap` is an association list in which keys do not repeat; its order is never observed.
-/

namespace Systre.Table
open ParseOperator
open Finder (CrystalSystem)

/-- `enum Centering` (types.rs:72-85). -/
inductive Centering
  | primitive2d | centered2d | primitive | faceCentered | bodyCentered | rhombohedral | aFaceCentered | bFaceCentered
  | cFaceCentered
deriving DecidableEq, Repr

/-- `Display for CrystalSystem` (types.rs:98-114). -/
def systemText : CrystalSystem → List Char
  | .oblique => ['o', 'b', 'l', 'i', 'q', 'u', 'e']
  | .rectangular => ['r', 'e', 'c', 't', 'a', 'n', 'g', 'u', 'l', 'a', 'r']
  | .square => ['s', 'q', 'u', 'a', 'r', 'e']
  | .cubic => ['c', 'u', 'b', 'i', 'c']
  | .orthorhombic => ['o', 'r', 't', 'h', 'o', 'r', 'h', 'o', 'm', 'b', 'i', 'c']
  | .hexagonal => ['h', 'e', 'x', 'a', 'g', 'o', 'n', 'a', 'l']
  | .tetragonal => ['t', 'e', 't', 'r', 'a', 'g', 'o', 'n', 'a', 'l']
  | .trigonal => ['t', 'r', 'i', 'g', 'o', 'n', 'a', 'l']
  | .monoclinic => ['m', 'o', 'n', 'o', 'c', 'l', 'i', 'n', 'i', 'c']
  | .triclinic => ['t', 'r', 'i', 'c', 'l', 'i', 'n', 'i', 'c']

/-- `Display for Centering` (types.rs:117-132). -/
def Centering.text : Centering → List Char
  | .primitive2d => ['p']
  | .centered2d => ['c']
  | .primitive => ['P']
  | .faceCentered => ['F']
  | .bodyCentered => ['I']
  | .rhombohedral => ['R']
  | .aFaceCentered => ['A']
  | .bFaceCentered => ['B']
  | .cFaceCentered => ['C']

/-- `CrystalSystem::from_string` (parse_table.rs:149-163), the match on the text in lower case. -/
def systemFromLower (s : List Char) : Option CrystalSystem :=
  if s = ['s', 'q', 'u', 'a', 'r', 'e'] then some .square
  else if s = ['r', 'e', 'c', 't', 'a', 'n', 'g', 'u', 'l', 'a', 'r'] then some .rectangular
  else if s = ['o', 'b', 'l', 'i', 'q', 'u', 'e'] then some .oblique
  else if s = ['c', 'u', 'b', 'i', 'c'] then some .cubic
  else if s = ['o', 'r', 't', 'h', 'o', 'r', 'h', 'o', 'm', 'b', 'i', 'c'] then some .orthorhombic
  else if s = ['h', 'e', 'x', 'a', 'g', 'o', 'n', 'a', 'l'] then some .hexagonal
  else if s = ['t', 'e', 't', 'r', 'a', 'g', 'o', 'n', 'a', 'l'] then some .tetragonal
  else if s = ['t', 'r', 'i', 'g', 'o', 'n', 'a', 'l'] then some .trigonal
  else if s = ['m', 'o', 'n', 'o', 'c', 'l', 'i', 'n', 'i', 'c'] then some .monoclinic
  else if s = ['t', 'r', 'i', 'c', 'l', 'i', 'n', 'i', 'c'] then some .triclinic
  else none

/-- `CrystalSystem::from_string` (parse_table.rs:149-163). -/
def systemFromString (lower : List Char → List Char) (s : List Char) : Option CrystalSystem :=
  systemFromLower (lower s)

/-- `Centering::from_string` (parse_table.rs:168-181). -/
def Centering.fromString (s : List Char) : Option Centering :=
  if s = ['p'] then some .primitive2d
  else if s = ['c'] then some .centered2d
  else if s = ['P'] then some .primitive
  else if s = ['F'] then some .faceCentered
  else if s = ['I'] then some .bodyCentered
  else if s = ['R'] then some .rhombohedral
  else if s = ['A'] then some .aFaceCentered
  else if s = ['B'] then some .bFaceCentered
  else if s = ['C'] then some .cFaceCentered
  else none

/-- `struct TableEntry` (parse_table.rs:26-31). -/
structure TableEntry where
  name : List Char
  canonicalName : List Char
  transform : CoordMap Rat
  operators : List (AffineMap Rat)
deriving DecidableEq, Repr

/-- `struct Lookup` (parse_table.rs:105-110). -/
structure Lookup where
  name : List Char
  system : CrystalSystem
  centering : Centering
  fromStd : CoordMap Rat
deriving DecidableEq, Repr

/-- `HashMap::insert` -/
def mapInsert {V : Type} (m : List (List Char × V)) (k : List Char) (v : V) : List (List Char × V) :=
  m.filter (fun p => decide (p.1 ≠ k)) ++ [(k, v)]

/-- `HashMap::get` -/
def mapGet {V : Type} (m : List (List Char × V)) (k : List Char) : Option V := (m.find? (fun p => decide (p.1 = k))).map Prod.snd

/-- `struct Tables` (parse_table.rs:126-130). -/
structure Tables where
  settings : List (List Char × TableEntry)
  alias_ : List (List Char × List Char)
  lookup : List Lookup
deriving DecidableEq, Repr

/-- `Tables::lookup_settings` (parse_table.rs:134-144). -/
def Tables.lookupSettings (t : Tables) (s : CrystalSystem) (c : Centering) : List (List Char × CoordMap Rat) :=
  t.lookup.filterMap (fun l => if s = l.system ∧ c = l.centering then some (l.name, l.fromStd) else none)

/-- `char::is_whitespace`: the Unicode property White_Space. -/
def isWhite (c : Char) : Bool :=
  let n := c.toNat
  (9 ≤ n && n ≤ 13) || n == 32 || n == 0x85 || n == 0xA0 || n == 0x1680 || (0x2000 ≤ n && n ≤ 0x200A) || n == 0x2028 ||
    n == 0x2029 || n == 0x202F || n == 0x205F || n == 0x3000

/-- `str::trim` -/
def trim (s : List Char) : List Char := ((s.dropWhile isWhite).reverse.dropWhile isWhite).reverse

/-- The loop of `str::split_whitespace`; `word` is the current word. -/
def splitLoop : List Char → List Char → List (List Char)
  | word, [] => if word = [] then [] else [word]
  | word, c :: s =>
    if isWhite c then (if word = [] then splitLoop [] s else word :: splitLoop [] s) else splitLoop (word ++ [c]) s

/-- `str::split_whitespace` -/
def splitWhitespace (s : List Char) : List (List Char) := splitLoop [] s

/-- `[..].join(" ")` -/
def joinSpace (ws : List (List Char)) : List Char := List.intercalate [' '] ws

/-- `CoordinateMap::is_identity` (geometry.rs:752-756). -/
def coordIsIdentity (c : CoordMap Rat) : Outcome Bool := c.forward.isIdentity

/-- `fields[k..]`, which panics when there are fewer than `k` fields. -/
def sliceFrom (fs : List (List Char)) (k : Nat) : Outcome (List (List Char)) :=
  if k ≤ fs.length then .ok (fs.drop k) else .panic

/-- `make_lookup_entry` (parse_table.rs:262-270). -/
def makeLookupEntry (lower : List Char → List Char) (fields : List (List Char)) : Outcome (Option Lookup) := do
  let name ← vecGet fields 1
  let rest ← sliceFrom fields 4
  let fromStd ← coordFromString (joinSpace rest)
  match fromStd with
  | none => .ok none
  | some fromStd => do
    let f2 ← vecGet fields 2
    match systemFromString lower f2 with
    | none => .ok none
    | some system => do
      let f3 ← vecGet fields 3
      match Centering.fromString f3 with
      | none => .ok none
      | some centering => .ok (some ⟨name, system, centering, fromStd⟩)

/-- The variables of `parse_space_group_table` (parse_table.rs:216-220). -/
structure TableState where
  settings : List (List Char × TableEntry)
  alias_ : List (List Char × List Char)
  lookup : List Lookup
  canonicalName : List Char
  currentName : List Char
deriving DecidableEq, Repr

/-- `alias` (parse_table.rs:234) -/
def aliasText : List Char := ['a', 'l', 'i', 'a', 's']

/-- `lookup` (parse_table.rs:236) -/
def lookupText : List Char := ['l', 'o', 'o', 'k', 'u', 'p']

/-- One pass of the loop of `parse_space_group_table` (parse_table.rs:223-255); `none` is an early `return None`. -/
def tableStep (lower : List Char → List Char) (st : TableState) (line : List Char) : Outcome (Option TableState) :=
  let content := trim line
  if content = [] ∨ content.head? = some '#' then .ok (some st)
  else if line.head? = some ' ' then do
    let op ← affFromString content
    match op with
    | none => .ok none
    | some op =>
      match mapGet st.settings st.currentName with
      | none => .ok none
      | some e => .ok (some { st with
          settings := mapInsert st.settings st.currentName { e with operators := e.operators ++ [op] } })
  else
    let fields := splitWhitespace content
    do
      let f0 ← vecGet fields 0
      if lower f0 = aliasText then do
        let f1 ← vecGet fields 1
        let f2 ← vecGet fields 2
        .ok (some { st with alias_ := mapInsert st.alias_ f1 f2 })
      else if lower f0 = lookupText then do
        let l ← makeLookupEntry lower fields
        match l with
        | none => .ok none
        | some l => .ok (some { st with lookup := st.lookup ++ [l] })
      else do
        let rest ← sliceFrom fields 1
        let t ← coordFromString (joinSpace rest)
        match t with
        | none => .ok none
        | some t => do
          let b ← coordIsIdentity t
          let canonical := if b then f0 else st.canonicalName
          .ok (some { st with
            canonicalName := canonical
            currentName := f0
            settings := mapInsert st.settings f0 ⟨f0, canonical, t, []⟩ })

/-- The loop (parse_table.rs:222-256). -/
def tableLoop (lower : List Char → List Char) : TableState → List (Option (List Char)) → Outcome (Option Tables)
  | st, [] => .ok (some ⟨st.settings, st.alias_, st.lookup⟩)
  | _, none :: _ => .ok none
  | st, some line :: rest => do
    let r ← tableStep lower st line
    match r with
    | none => .ok none
    | some st => tableLoop lower st rest

/-- `parse_space_group_table` (parse_table.rs:215-259). -/
def parseTable (lower : List Char → List Char) (input : List (Option (List Char))) : Outcome (Option Tables) :=
  tableLoop lower ⟨[], [], [], [], []⟩ input

end Systre.Table
