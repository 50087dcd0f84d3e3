import Verif.Model.CgdBlocks
import Verif.Model.FloatLinear
import Verif.Tests.SpaceGroups

/-!
# The repository's own unit tests, run on the model: reading `.cgd` files

Every `#[test]` of `src/io`. The model leaves the meaning of floating point texts open (`Floats D`); the tests use the double
precision numbers of `Model/FloatLinear.lean`: the number nearest to the decimal number that the text denotes.
-/

namespace Systre.Tests

open Systre.Nom Systre.Cgd

/-- The digits of a decimal number, as a number. -/
def digitsValue (ds : List Char) : Nat := ds.foldl (fun n c => 10 * n + (c.toNat - '0'.toNat)) 0

/-- A sign and the rest of a text. -/
def splitSign : List Char → Bool × List Char
  | '-' :: s => (true, s)
  | '+' :: s => (false, s)
  | s => (false, s)

/-- The number that a text `[sign] digits [. digits] [e [sign] digits]` denotes. -/
def decimalValue (s : List Char) : Rat :=
  let (neg, s) := splitSign s
  let mant := s.takeWhile (fun c => c != 'e' && c != 'E')
  let ex := (s.dropWhile (fun c => c != 'e' && c != 'E')).drop 1
  let whole := mant.takeWhile (· != '.')
  let frac := (mant.dropWhile (· != '.')).drop 1
  let m : Rat := (digitsValue (whole ++ frac) : Rat) / (10 ^ frac.length : Nat)
  let (eneg, ex) := splitSign ex
  let p : Rat := ((10 ^ digitsValue ex : Nat) : Rat)
  let x := if eneg then m / p else m * p
  if neg then -x else x

/-- `str::parse::<f64>`, and the conversion to `i32` and back. -/
def doubles : Floats F64 where
  parse s := ⟨round53 (decimalValue s)⟩
  asInt x := if x.val.den = 1 ∧ -2147483648 ≤ x.val.num ∧ x.val.num ≤ 2147483647 then some x.val.num else none

/-- The double precision number next to a rational number. -/
def dbl (q : Rat) : F64 := ⟨round53 q⟩

-- `test_parse_cgd_integer`
example : Parses Cgd.integer "-123  " "  " (-123) := by decide +kernel
example : Parses Cgd.integer "123456789  " "  " 123456789 := by decide +kernel
example : Fails Cgd.integer "x123  " := by decide +kernel
example : Fails Cgd.integer "1234567890  " := by decide +kernel

-- `test_parse_cgd_fraction`
example : Parses fraction "12/3  " "  " (12 / 3) := by decide +kernel
example : Parses fraction "-12/23  " "  " (-12 / 23) := by decide +kernel
example : Fails fraction "/3  " := by decide +kernel

-- `test_parse_cgd_quoted_string`
example : Parses quotedString "\" \"  " "  " " ".toList := by decide +kernel
example : Parses quotedString "\"abc \"  " "  " "abc ".toList := by decide +kernel
example : Fails quotedString "\"abc" := by decide +kernel

-- `test_parse_cgd_field`
example : Parses (field doubles) "-123  " "  " (.int (-123)) := by decide +kernel
example : Parses (field doubles) "-123.4  " "  " (.double (dbl (-123.4))) := by decide +kernel
example : Parses (field doubles) "12/34  " "  " (.fraction (12 / 34)) := by decide +kernel
example : Parses (field doubles) "\"a s d\"  " "  " (.name "a s d".toList) := by decide +kernel
example : Parses (field doubles) "xyz  " "  " (.name "xyz".toList) := by decide +kernel

-- `test_parse_cgd_line`
example : parseCgdLine doubles "  ATOM \"Si1\" 4 .5 -0.3 2.1 # This is a comment ".toList =
    .ok (.parsed [] [.key "ATOM".toList, .name "Si1".toList, .int 4, .double (dbl 0.5), .double (dbl (-0.3)),
      .double (dbl 2.1)]) := by decide +kernel
example : parseCgdLine doubles "asdf \"".toList = .ok (.parsed "\"".toList [.key "asdf".toList]) := by decide +kernel
example : parseCgdLine doubles "asdf qwer  ".toList = .ok (.parsed [] [.key "asdf".toList, .name "qwer".toList]) := by
  decide +kernel
example : parseCgdLine doubles "  # This is a comment line.".toList = .ok (.parsed [] []) := by decide +kernel
example : parseCgdLine doubles "  ".toList = .ok (.parsed [] []) := by decide +kernel

/-- The lines of the file of `test_parse_cgd_block` (parse_cgd_blocks.rs:200-217). -/
def cgdFile : List Line :=
  (["", "FIRST", "    Data 1 two 27/25", "         3 four +27.25E-3", "    Name \"Gavrog\"",
    "    Data \"some more\" \"s\"a", "END", "", "SECOND", "    456", "END", "", "123", "", "THIRD"]).map
    (fun s => .text s.toList)

/-- What the test looks at in an entry. -/
structure EntryView where
  kind : EntryType
  key : Option (List Char)
  notes : List Note
deriving DecidableEq

/-- What the test looks at in a block. -/
structure BlockView where
  blockType : List Char
  first : Nat
  last : Nat
  entries : List EntryView
deriving DecidableEq

/-- The parts of a block that the test looks at. -/
def blockView (b : Block F64) : BlockView :=
  ⟨b.blockType, b.linenoStart, b.linenoEnd, b.entries.map (fun e => ⟨e.entryType, e.key, e.notes⟩)⟩

-- `test_parse_cgd_block`
example : (do pure ((← parseBlocks doubles (fun s => s.map Char.toLower) cgdFile).map blockView)) = .ok
    [⟨"first".toList, 1, 6,
      [⟨.begin_, some "first".toList, []⟩, ⟨.data, some "data".toList, []⟩, ⟨.data, some "data".toList, []⟩,
       ⟨.data, some "name".toList, []⟩, ⟨.data, some "data".toList, [.error (.unparsed ['a'])]⟩,
       ⟨.end_, some "end".toList, []⟩]⟩,
     ⟨"second".toList, 8, 10,
      [⟨.begin_, some "second".toList, []⟩, ⟨.data, none, []⟩, ⟨.end_, some "end".toList, []⟩]⟩,
     ⟨"third".toList, 14, 14,
      [⟨.data, none, [.error .beforeStart]⟩, ⟨.begin_, some "third".toList, [.error .missingEnd]⟩]⟩] := by decide +kernel

end Systre.Tests
