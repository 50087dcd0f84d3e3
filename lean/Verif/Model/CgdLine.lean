import Verif.Model.ParseOperator

/-!
# Model of `src/io/parse_cgd_line.rs`

Floating point numbers are kept abstract: the model is parametric in what `str::parse::<f64>` makes of a text and in
what `double_to_field` makes of the number. Texts are lists of characters. `Ratio<i32>` is `Rat`; its parts have at
most nine digits, so nothing overflows.
-/

namespace Systre.Cgd
open Nom

/-- The meaning of floating point texts: `parse` is `str::parse::<f64>`, `asInt f` is `Some(f as i32)` when
`f == (f as i32) as f64` and `None` otherwise (parse_cgd_line.rs:109-115). -/
structure Floats (D : Type) where
  parse : List Char → D
  asInt : D → Option Int

/-- `enum Field` (parse_cgd_line.rs:15-22). -/
inductive Field (D : Type)
  | fraction (q : Rat)
  | int (n : Int)
  | double (x : D)
  | key (s : List Char)
  | name (s : List Char)
deriving DecidableEq, Repr

variable {D : Type}

/-- `unsigned_integer`, with `map_integer` (parse_cgd_line.rs:104-106, 118-124). -/
def unsignedInteger : Parser Nat := mapOpt digit1 (fun ds => .ok (ParseOperator.mapInteger ds))

/-- `integer` (parse_cgd_line.rs:86-91). -/
def integer : Parser Int :=
  orElse (mapOpt unsignedInteger (fun n => .ok (some (n : Int))))
    (mapOpt (preceded (char '-') unsignedInteger) (fun n => .ok (some (-(n : Int)))))

/-- `fraction` (parse_cgd_line.rs:78-83); `Ratio::new` panics for a zero denominator. -/
def fraction : Parser Rat :=
  mapOpt (separatedPair integer (char '/') unsignedInteger) (fun p => do
    let q ← ParseOperator.ratioNew p.1 p.2
    .ok (some q))

/-- `quoted_string` (parse_cgd_line.rs:94-96). -/
def quotedString : Parser (List Char) := delimited (char '"') (takeUntil1 '"') (char '"')

/-- `is_space(c as u8)` (nom: space or tab) with the truncation of the cast. -/
def isSpaceU8 (c : Char) : Bool := c.toNat % 256 == 32 || c.toNat % 256 == 9

/-- The characters at which a name stops (parse_cgd_line.rs:100). -/
def stopsName (c : Char) : Bool := c == '"' || c == '#' || isSpaceU8 c

/-- `name` (parse_cgd_line.rs:99-101). -/
def name : Parser (List Char) := takeTill1 stopsName

/-- `is_alphabetic` of the first byte: an ASCII letter. -/
def isLetter (c : Char) : Bool := ('A' ≤ c && c ≤ 'Z') || ('a' ≤ c && c ≤ 'z')

/-- `key` (parse_cgd_line.rs:57-65). -/
def key : Parser (List Char) := mapOpt name (fun s => .ok
  (match s with
  | c :: _ => if isLetter c then some s else none
  | [] => none))

/-- `double_to_field` (parse_cgd_line.rs:109-115). -/
def doubleToField (F : Floats D) (w : List Char) : Field D :=
  match F.asInt (F.parse w) with
  | some n => .int n
  | none => .double (F.parse w)

/-- `field` (parse_cgd_line.rs:68-75). -/
def field (F : Floats D) : Parser (Field D) :=
  orElse (mapOpt fraction (fun q => .ok (some (Field.fraction q))))
    (orElse (mapOpt floatText (fun w => .ok (some (doubleToField F w))))
      (orElse (mapOpt quotedString (fun s => .ok (some (Field.name s))))
        (mapOpt name (fun s => .ok (some (Field.name s))))))

/-- `comment` (parse_cgd_line.rs:52-54). -/
def comment : Parser Unit := mapOpt (pair (tag ['#']) restAll) (fun _ => .ok (some ()))

/-- `line_content` (parse_cgd_line.rs:38-49). -/
def lineContent (F : Floats D) : Parser (List (Field D)) :=
  orElse (mapOpt (separatedPair key space1 (separatedList0 space1 (field F)))
      (fun p => .ok (some (Field.key p.1 :: p.2))))
    (orElse (mapOpt key (fun k => .ok (some [Field.key k])))
      (separatedList0 space1 (field F)))

/-- `line` (parse_cgd_line.rs:33-35). -/
def line (F : Floats D) : Parser (List (Field D)) :=
  delimited space0 (lineContent F) (pair space0 (opt comment))

/-- The result of `parse_cgd_line`: `Ok((rest, fields))`, or `Err` with what the message is made of. -/
inductive LineResult (D : Type)
  | parsed (rest : List Char) (fields : List (Field D))
  | error (kind : Kind) (at_ : List Char)
deriving DecidableEq, Repr

/-- `parse_cgd_line` (parse_cgd_line.rs:25-30). -/
def parseCgdLine (F : Floats D) (s : List Char) : Outcome (LineResult D) := do
  let r ← line F s
  match r with
  | .done rest fields => .ok (.parsed rest fields)
  | .err k t => .ok (.error k t)
  | .fail k t => .ok (.error k t)

end Systre.Cgd
