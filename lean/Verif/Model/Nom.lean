import Verif.Model.Base

/-!
# The parser combinators of nom 7.1.3 that the code uses

nom is a dependency, not part of /repo; the definitions below follow its documented behaviour. A `&str` is
the list of its characters. Only the position and the kind of an error are kept, which is what
`nom::error::Error<&str>` keeps. `Err::Incomplete` does not occur with the `complete` parsers.
-/

namespace Systre.Nom

/-- `nom::error::ErrorKind`, as far as it can occur here. -/
inductive Kind
  | char | oneOf | digit | space | mapOpt | many0 | separatedList | tag | takeTill1 | takeUntil | float
deriving DecidableEq, Repr

/-- `nom::IResult`: `err` is `Err(Err::Error(..))`, `fail` is `Err(Err::Failure(..))`. -/
inductive Res (α : Type) where
  | done (rest : List Char) (val : α)
  | err (kind : Kind) (at_ : List Char)
  | fail (kind : Kind) (at_ : List Char)
deriving DecidableEq, Repr

/-- A parser; a closure inside may panic. -/
abbrev Parser (α : Type) := List Char → Outcome (Res α)

/-- the characters that `space0` and `space1` skip -/
def isBlank (c : Char) : Bool := c == ' ' || c == '\t'

/-- `c.is_ascii_digit()` -/
def isDig (c : Char) : Bool := '0' ≤ c && c ≤ '9'

/-- `nom::character::complete::space0` -/
def space0 : Parser Unit := fun s => .ok (.done (s.dropWhile isBlank) ())

/-- `nom::character::complete::space1` -/
def space1 : Parser Unit := fun s =>
  match s with
  | c :: t => if isBlank c then .ok (.done (t.dropWhile isBlank) ()) else .ok (.err .space s)
  | [] => .ok (.err .space s)

/-- `nom::character::complete::char` -/
def char (c : Char) : Parser Char := fun s =>
  match s with
  | d :: t => if d = c then .ok (.done t c) else .ok (.err .char s)
  | [] => .ok (.err .char s)

/-- `nom::character::complete::one_of` -/
def oneOf (cs : List Char) : Parser Char := fun s =>
  match s with
  | d :: t => if d ∈ cs then .ok (.done t d) else .ok (.err .oneOf s)
  | [] => .ok (.err .oneOf s)

/-- `nom::character::complete::digit1` -/
def digit1 : Parser (List Char) := fun s =>
  match s with
  | c :: _ => if isDig c then .ok (.done (s.dropWhile isDig) (s.takeWhile isDig)) else .ok (.err .digit s)
  | [] => .ok (.err .digit s)

/-- Sequencing, as in `pair`, `tuple`, `preceded`, `delimited`, `separated_pair`. -/
def andThen {α β : Type} (p : Parser α) (f : α → Parser β) : Parser β := fun s => do
  let r ← p s
  match r with
  | .done t a => f a t
  | .err k t => .ok (.err k t)
  | .fail k t => .ok (.fail k t)

/-- a parser that reads nothing -/
def ret {α : Type} (a : α) : Parser α := fun s => .ok (.done s a)

/-- `nom::sequence::separated_pair` -/
def separatedPair {α β γ : Type} (p : Parser α) (sep : Parser β) (q : Parser γ) : Parser (α × γ) :=
  andThen p (fun a => andThen sep (fun _ => andThen q (fun c => ret (a, c))))

/-- `nom::sequence::pair` -/
def pair {α β : Type} (p : Parser α) (q : Parser β) : Parser (α × β) :=
  andThen p (fun a => andThen q (fun b => ret (a, b)))

/-- `nom::sequence::preceded` -/
def preceded {α β : Type} (p : Parser α) (q : Parser β) : Parser β := andThen p (fun _ => q)

/-- `nom::sequence::delimited` -/
def delimited {α β γ : Type} (p : Parser α) (q : Parser β) (r : Parser γ) : Parser β :=
  andThen p (fun _ => andThen q (fun b => andThen r (fun _ => ret b)))

/-- `nom::combinator::map_opt`: the error is at the start of the input. -/
def mapOpt {α β : Type} (p : Parser α) (f : α → Outcome (Option β)) : Parser β := fun s => do
  let r ← p s
  match r with
  | .done t a => do
    let o ← f a
    match o with
    | some b => .ok (.done t b)
    | none => .ok (.err .mapOpt s)
  | .err k t => .ok (.err k t)
  | .fail k t => .ok (.fail k t)

/-- `nom::branch::alt`: the next alternative after an `Error`, the last one's result otherwise. -/
def orElse {α : Type} (p q : Parser α) : Parser α := fun s => do
  let r ← p s
  match r with
  | .err _ _ => q s
  | r => .ok r

/-- `nom::combinator::opt` -/
def opt {α : Type} (p : Parser α) : Parser (Option α) := fun s => do
  let r ← p s
  match r with
  | .done t a => .ok (.done t (some a))
  | .err _ _ => .ok (.done s none)
  | .fail k t => .ok (.fail k t)

/-- `nom::combinator::cut` -/
def cut {α : Type} (p : Parser α) : Parser α := fun s => do
  let r ← p s
  match r with
  | .err k t => .ok (.fail k t)
  | r => .ok r

/-- The loop of `many0`, with fuel. -/
def many0Loop {α : Type} (p : Parser α) : Nat → List α → Parser (List α)
  | 0, _, _ => .diverge
  | fuel + 1, acc, s => do
    let r ← p s
    match r with
    | .err _ _ => .ok (.done s acc)
    | .fail k t => .ok (.fail k t)
    | .done t a => if t.length = s.length then .ok (.err .many0 s) else many0Loop p fuel (acc ++ [a]) t

/-- `nom::multi::many0` -/
def many0 {α : Type} (p : Parser α) : Parser (List α) := fun s => many0Loop p (s.length + 1) [] s

/-- The loop of `separated_list0` and `separated_list1`, with fuel. -/
def sepLoop {α β : Type} (sep : Parser β) (p : Parser α) : Nat → List α → Parser (List α)
  | 0, _, _ => .diverge
  | fuel + 1, acc, s => do
    let r ← sep s
    match r with
    | .err _ _ => .ok (.done s acc)
    | .fail k t => .ok (.fail k t)
    | .done t _ =>
      if t.length = s.length then .ok (.err .separatedList t) else do
        let r ← p t
        match r with
        | .err _ _ => .ok (.done s acc)
        | .fail k t => .ok (.fail k t)
        | .done t a => sepLoop sep p fuel (acc ++ [a]) t

/-- `nom::multi::separated_list1` -/
def separatedList1 {α β : Type} (sep : Parser β) (p : Parser α) : Parser (List α) := fun s => do
  let r ← p s
  match r with
  | .done t a => sepLoop sep p (t.length + 1) [a] t
  | .err k t => .ok (.err k t)
  | .fail k t => .ok (.fail k t)

/-- `nom::multi::separated_list0` -/
def separatedList0 {α β : Type} (sep : Parser β) (p : Parser α) : Parser (List α) := fun s => do
  let r ← p s
  match r with
  | .done t a => sepLoop sep p (t.length + 1) [a] t
  | .err _ _ => .ok (.done s [])
  | .fail k t => .ok (.fail k t)

/-- `nom::bytes::complete::tag` -/
def tag (w : List Char) : Parser (List Char) := fun s =>
  if w.isPrefixOf s then .ok (.done (s.drop w.length) w) else .ok (.err .tag s)

/-- `nom::bytes::complete::take_till1` -/
def takeTill1 (stop : Char → Bool) : Parser (List Char) := fun s =>
  match s with
  | c :: _ => if stop c then .ok (.err .takeTill1 s)
    else .ok (.done (s.dropWhile (fun c => !stop c)) (s.takeWhile (fun c => !stop c)))
  | [] => .ok (.err .takeTill1 s)

/-- `nom::bytes::complete::take_until1` for a text of one character -/
def takeUntil1 (c : Char) : Parser (List Char) := fun s =>
  if c ∈ s ∧ s.head? ≠ some c then .ok (.done (s.dropWhile (fun d => d != c)) (s.takeWhile (fun d => d != c)))
  else .ok (.err .takeUntil s)

/-- `nom::combinator::rest` -/
def restAll : Parser (List Char) := fun s => .ok (.done [] s)

/-- `nom::combinator::recognize`: the text that was read -/
def recognize {α : Type} (p : Parser α) : Parser (List Char) := fun s => do
  let r ← p s
  match r with
  | .done t _ => .ok (.done t (s.take (s.length - t.length)))
  | .err k t => .ok (.err k t)
  | .fail k t => .ok (.fail k t)

/-- `c.to_ascii_lowercase()`-style comparison in `tag_no_case`, for tags of ASCII letters: only the letter itself and
its capital have it as their lower case (`ı`, `ſ`, `K` do not occur among the letters of `nan` and `inf`: the only
character outside ASCII whose lower case is an ASCII letter is the Kelvin sign). -/
def lowerAscii (c : Char) : Char := if 'A' ≤ c ∧ c ≤ 'Z' then Char.ofNat (c.toNat + 32) else c

/-- `nom::bytes::complete::tag_no_case` for a tag in lower case ASCII -/
def tagNoCase (w : List Char) : Parser (List Char) := fun s =>
  if w.isPrefixOf (s.map lowerAscii) then .ok (.done (s.drop w.length) (s.take w.length)) else .ok (.err .tag s)

/-- `nom::number::complete::recognize_float` -/
def recognizeFloat : Parser (List Char) :=
  recognize
    (andThen (opt (orElse (char '+') (char '-'))) (fun _ =>
      andThen
        (orElse
          (andThen digit1 (fun _ => andThen (opt (pair (char '.') (opt digit1))) (fun _ => ret ())))
          (andThen (char '.') (fun _ => andThen digit1 (fun _ => ret ()))))
        (fun _ =>
          andThen (opt (andThen (orElse (char 'e') (char 'E')) (fun _ =>
            andThen (opt (orElse (char '+') (char '-'))) (fun _ => cut digit1))))
            (fun _ => ret ()))))

/-- Errors get the kind `Float` and the position of the input (inside `recognize_float_or_exceptions`). -/
def floatErr {α : Type} (p : Parser α) : Parser α := fun s => do
  let r ← p s
  match r with
  | .done t a => .ok (.done t a)
  | .err _ _ => .ok (.err .float s)
  | .fail _ _ => .ok (.fail .float s)

/-- `nom::number::complete::recognize_float_or_exceptions`; `double` applies `str::parse::<f64>` to the text, which
accepts all of these texts. -/
def floatText : Parser (List Char) :=
  orElse (floatErr recognizeFloat)
    (orElse (floatErr (tagNoCase ['n', 'a', 'n']))
      (orElse (floatErr (tagNoCase ['i', 'n', 'f'])) (floatErr (tagNoCase ['i', 'n', 'f', 'i', 'n', 'i', 't', 'y']))))

end Systre.Nom
