import Verif.Model.ParseTable
import Verif.Spec.Geometry

/-!
# What the lines of a space group table mean

A line is nothing (blank or a comment), an operator (indented by a space), an alias, a lookup, or a setting. The
meaning of a table is described line by line, by looking at the lines before and after; there is no state.
-/

namespace Systre.Table
open ParseOperator
variable (lower : List Char → List Char)

/-- blank or a comment -/
def IsNothing (l : List Char) : Prop := trim l = [] ∨ (trim l).head? = some '#'

/-- indented by a space -/
def IsOperator (l : List Char) : Prop := ¬ IsNothing l ∧ l.head? = some ' '

instance : DecidablePred IsNothing := fun l => by unfold IsNothing; infer_instance
instance : DecidablePred IsOperator := fun l => by unfold IsOperator; infer_instance

/-- the words of the line -/
def wordsOf (l : List Char) : List (List Char) := splitWhitespace (trim l)

/-- not indented, and the first word is `w` -/
def Starts (l w : List Char) : Prop := ¬ IsNothing l ∧ l.head? ≠ some ' ' ∧ (wordsOf l)[0]? = some w

/-- `alias a b` -/
def IsAlias (l a b : List Char) : Prop :=
  ∃ w, Starts l w ∧ lower w = "alias".toList ∧ (wordsOf l)[1]? = some a ∧ (wordsOf l)[2]? = some b

/-- any line beginning with the word `lookup` -/
def IsLookup (l : List Char) : Prop := ∃ w, Starts l w ∧ lower w ≠ "alias".toList ∧ lower w = "lookup".toList

/-- a line that begins with the name of a setting -/
def IsSetting (l name : List Char) : Prop := Starts l name ∧ lower name ≠ "alias".toList ∧ lower name ≠ "lookup".toList

/-- the change of coordinates in a setting line -/
def transformOf (l : List Char) : Outcome (Option (CoordMap Rat)) := coordFromString (List.intercalate [' '] ((wordsOf l).drop 1))

/-- the setting line has the identity for its change of coordinates -/
def IsStandard (l name : List Char) : Prop :=
  IsSetting lower l name ∧ ∃ c n, transformOf l = .ok (some c) ∧ IsAff (n := n) c.forward 1 0

/-- `k` is the name of the last standard setting in the lines (empty if there is none) -/
def IsCanonical (ls : List (List Char)) (k : List Char) : Prop :=
  (∃ p l q, ls = p ++ l :: q ∧ IsStandard lower l k ∧ ∀ x ∈ q, ∀ n, ¬ IsStandard lower x n) ∨
  (k = [] ∧ ∀ x ∈ ls, ∀ n, ¬ IsStandard lower x n)

/-- what a lookup line says: `lookup name system centering transform` -/
def Says (l : List Char) (e : Lookup) : Prop :=
  ∃ sys cen, (wordsOf l)[1]? = some e.name ∧ (wordsOf l)[2]? = some sys ∧ systemFromString lower sys = some e.system ∧
    (wordsOf l)[3]? = some cen ∧ Centering.fromString cen = some e.centering ∧
    coordFromString (List.intercalate [' '] ((wordsOf l).drop 4)) = .ok (some e.fromStd)

/-- the line `l` makes sense after the lines `before`: an operator needs a setting it belongs to -/
def LineOk (before : List (List Char)) (l : List Char) : Prop :=
  IsNothing l ∨
  (IsOperator l ∧ (∃ m, affFromString (trim l) = .ok (some m)) ∧ ∃ s ∈ before, ∃ n, IsSetting lower s n) ∨
  (∃ a b, IsAlias lower l a b) ∨
  (IsLookup lower l ∧ ∃ e, Says lower l e) ∨
  (∃ n c, IsSetting lower l n ∧ transformOf l = .ok (some c))

/-- the line stops the program: an operator or a change of coordinates from which no result is returned, an alias line
with fewer than three words, or a lookup line with fewer than four -/
def LineStops (l : List Char) : Prop :=
  (IsOperator l ∧ ∀ r, affFromString (trim l) ≠ .ok r) ∨
  (∃ w, Starts l w ∧ lower w = "alias".toList ∧ (wordsOf l).length < 3) ∨
  (IsLookup lower l ∧ ((wordsOf l).length < 4 ∨
    ∀ r, coordFromString (List.intercalate [' '] ((wordsOf l).drop 4)) ≠ .ok r)) ∨
  (∃ n, IsSetting lower l n ∧ ∀ r, transformOf l ≠ .ok r)

/-- every line makes sense after the lines before it -/
def AllOk (lines : List (List Char)) : Prop := ∀ p l q, lines = p ++ l :: q → LineOk lower p l

/-- the words of a text: the longest stretches without white space -/
inductive Words : List Char → List (List Char) → Prop
  | nil {u} : (∀ c ∈ u, isWhite c = true) → Words u []
  | cons {u w rest ws} : (∀ c ∈ u, isWhite c = true) → w ≠ [] → (∀ c ∈ w, isWhite c = false) →
      (∀ c, rest.head? = some c → isWhite c = true) → Words rest ws → Words (u ++ w ++ rest) (w :: ws)

/-- `t` is `s` without the white space at both ends -/
def Trimmed (s t : List Char) : Prop :=
  (∃ u v, s = u ++ t ++ v ∧ (∀ c ∈ u, isWhite c = true) ∧ (∀ c ∈ v, isWhite c = true)) ∧
  (∀ c, t.head? = some c → isWhite c = false) ∧ (∀ c, t.getLast? = some c → isWhite c = false)

end Systre.Table
