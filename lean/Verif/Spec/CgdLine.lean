import Verif.Model.CgdLine
import Verif.Spec.Operators

/-!
# What a line of a CGD file means

A grammar for lines such as `ATOM 1 -1/2 0.25 "a name"  # comment`. Texts are lists of characters.
-/

namespace Systre.CgdText
open OpText
open Cgd (Floats)

/-- one or more decimal digits -/
def Digits (s : List Char) : Prop := s ≠ [] ∧ ∀ c ∈ s, '0' ≤ c ∧ c ≤ '9'

/-- `12`, `12.`, `12.5` or `.5` -/
inductive Mantissa : List Char → Prop
  | int {a} : Digits a → Mantissa a
  | point {a} : Digits a → Mantissa (a ++ ['.'])
  | decimal {a b} : Digits a → Digits b → Mantissa (a ++ '.' :: b)
  | fraction {b} : Digits b → Mantissa ('.' :: b)

/-- nothing, `+` or `-` -/
def Sign (s : List Char) : Prop := s = [] ∨ s = ['+'] ∨ s = ['-']

/-- nothing, or `e` or `E` with a signed integer -/
inductive Exponent : List Char → Prop
  | none : Exponent []
  | some {c g a} : c = 'e' ∨ c = 'E' → Sign g → Digits a → Exponent (c :: g ++ a)

/-- a floating point number, or three letters standing for one -/
inductive Number : List Char → Prop
  | float {g m x} : Sign g → Mantissa m → Exponent x → Number (g ++ m ++ x)
  | nan {a b c} : a = 'n' ∨ a = 'N' → b = 'a' ∨ b = 'A' → c = 'n' ∨ c = 'N' → Number [a, b, c]
  | inf {a b c} : a = 'i' ∨ a = 'I' → b = 'n' ∨ b = 'N' → c = 'f' ∨ c = 'F' → Number [a, b, c]

/-- the characters that cannot occur in a name without quotes -/
def Special (c : Char) : Prop := c = ' ' ∨ c = '\t' ∨ c = '#' ∨ c = '"'

/-- a name without quotes -/
def Name (w : List Char) : Prop := w ≠ [] ∧ ∀ c ∈ w, ¬ Special c

/-- a name that begins with an ASCII letter -/
def Keyword (w : List Char) : Prop := Name w ∧ ∃ c r, w = c :: r ∧ (('A' ≤ c ∧ c ≤ 'Z') ∨ ('a' ≤ c ∧ c ≤ 'z'))

/-- what a word means -/
inductive IsField {D : Type} (F : Floats D) : List Char → Cgd.Field D → Prop
  | fraction {a b n d} : Numeral a n → Numeral b d → d ≠ 0 → IsField F (a ++ '/' :: b) (.fraction ((n : ℚ) / d))
  | negative {a b n d} : Numeral a n → Numeral b d → d ≠ 0 → IsField F ('-' :: a ++ '/' :: b) (.fraction (-(n : ℚ) / d))
  | int {w n} : Number w → F.asInt (F.parse w) = some n → IsField F w (.int n)
  | double {w} : Number w → F.asInt (F.parse w) = none → IsField F w (.double (F.parse w))
  | quoted {w} : w ≠ [] → '"' ∉ w → IsField F ('"' :: w ++ ['"']) (.name w)
  | name {w} : Name w → IsField F w (.name w)

/-- words separated by blanks; `R w f` says that the word `w` means `f` -/
inductive Fields {D : Type} (R : List Char → Cgd.Field D → Prop) : List Char → List (Cgd.Field D) → Prop
  | one {w f} : R w f → Fields R w [f]
  | cons {w f b t fs} : R w f → Blank b → b ≠ [] → Fields R t fs → Fields R (w ++ b ++ t) (f :: fs)

/-- what a line is made of, apart from blanks at both ends and the comment: nothing, fields, a keyword, or a keyword and
fields -/
inductive Content {D : Type} (K : List Char → Prop) (R : List Char → Cgd.Field D → Prop) : List Char → List (Cgd.Field D) → Prop
  | empty : Content K R [] []
  | fields {t fs} : Fields R t fs → (∀ c r, t = c :: r → ¬ (('A' ≤ c ∧ c ≤ 'Z') ∨ ('a' ≤ c ∧ c ≤ 'z'))) → Content K R t fs
  | key {k} : K k → Content K R k [.key k]
  | keyed {k b t fs} : K k → Blank b → b ≠ [] → Fields R t fs → Content K R (k ++ b ++ t) (.key k :: fs)

/-- the character is not taken for a blank after truncation to a byte -/
def Narrow (c : Char) : Prop := c.toNat % 256 ≠ 32 ∧ c.toNat % 256 ≠ 9

/-- no beginning of the word is a number -/
def Clear (w : List Char) : Prop := ∀ p, p <+: w → ¬ Number p

/-- `w` means `f`, and if it is a name without quotes then it does not begin with a number -/
def Word {D : Type} (F : Floats D) (w : List Char) (f : Cgd.Field D) : Prop :=
  IsField F w f ∧ (f = .name w → Clear w ∧ ∀ c ∈ w, Narrow c)

/-- a keyword of narrow characters -/
def Key (w : List Char) : Prop := Keyword w ∧ ∀ c ∈ w, Narrow c

/-- a number with `e` or `E` after it, but no exponent -/
def BadExponent (s : List Char) : Prop :=
  ∃ g m c h t, s = g ++ m ++ c :: h ++ t ∧ Sign g ∧ Mantissa m ∧ (c = 'e' ∨ c = 'E') ∧ Sign h ∧
    (∀ d r, t = d :: r → ¬ ('0' ≤ d ∧ d ≤ '9')) ∧ (h = [] → ∀ d r, t = d :: r → d ≠ '+' ∧ d ≠ '-')

/-- a fraction with the denominator zero, at the beginning of the text -/
def ZeroFraction (s : List Char) : Prop :=
  ∃ g a b t n, s = g ++ a ++ '/' :: b ++ t ∧ (g = [] ∨ g = ['-']) ∧ Numeral a n ∧ Numeral b 0 ∧
    ∀ d r, t = d :: r → ¬ ('0' ≤ d ∧ d ≤ '9')

/-- after blanks and what is in `l`, the text `t` comes where a field is expected -/
def At {D : Type} (F : Floats D) (s : List Char) (l : List (Cgd.Field D)) (t : List Char) : Prop :=
  ∃ u c b, s = u ++ c ++ b ++ t ∧ Blank u ∧ Blank b ∧ (c = [] ∨ b ≠ []) ∧ Content Key (Word F) c l

/-- no slash is directly followed by a numeral that is zero -/
def NoZeroAfterSlash (s : List Char) : Prop :=
  ∀ pre t post, s = pre ++ '/' :: t ++ post → Numeral t 0 → (∀ c r, post = c :: r → ¬ ('0' ≤ c ∧ c ≤ '9')) → False

end Systre.CgdText
