import Verif.Model.Rational
import Mathlib.Data.Nat.Digits.Defs
import Mathlib.Data.Rat.Lemmas
/-!
# Numerals

What a decimal / integer / fraction literal looks like and which number it denotes.  Independent of the parser.
-/

namespace Scisim

/-- A decimal digit. -/
abbrev Digit := Fin 10

/-- The character of a digit. -/
def Digit.char (d : Digit) : Char := Char.ofNat ('0'.toNat + d.val)

/-- The natural number denoted by a digit string, most significant digit first. -/
def digitsNat (ds : List Digit) : ℕ := Nat.ofDigits 10 (ds.reverse.map Fin.val)

/-- An optional sign. -/
inductive Sign where
  | none | plus | minus
deriving DecidableEq

/-- How a sign is written. -/
def Sign.chars : Sign → List Char
  | .none => []
  | .plus => ['+']
  | .minus => ['-']

/-- The factor a sign contributes. -/
def Sign.factor : Sign → ℤ
  | .none => 1
  | .plus => 1
  | .minus => -1

/-- Literals. -/
inductive Literal where
  /-- `±ddd` -/
  | int (s : Sign) (ip : List Digit)
  /-- `±ddd.ddd`, either digit string may be empty -/
  | dec (s : Sign) (ip fp : List Digit)
  /-- `±ddd/±ddd` -/
  | frac (s : Sign) (ip : List Digit) (s' : Sign) (jp : List Digit)

/-- Text of a digit string. -/
def digitText (ds : List Digit) : List Char := ds.map Digit.char

/-- The text of a literal. -/
def Literal.text : Literal → List Char
  | .int s ip => s.chars ++ digitText ip
  | .dec s ip fp => s.chars ++ digitText ip ++ '.' :: digitText fp
  | .frac s ip s' jp => s.chars ++ digitText ip ++ '/' :: (s'.chars ++ digitText jp)

/-- The number a literal denotes. -/
def Literal.value : Literal → ℚ
  | .int s ip => s.factor * (digitsNat ip : ℚ)
  | .dec s ip fp => s.factor * ((digitsNat ip : ℚ) + (digitsNat fp : ℚ) / 10 ^ fp.length)
  | .frac s ip s' jp => (s.factor * (digitsNat ip : ℚ)) / (s'.factor * (digitsNat jp : ℚ))

/-- Grammatical literals: at least one digit in each numeral; a fraction does not divide by zero. -/
def Literal.Wellformed : Literal → Prop
  | .int _ ip => ip ≠ []
  | .dec _ ip fp => ip ≠ [] ∨ fp ≠ []
  | .frac _ ip _ jp => ip ≠ [] ∧ jp ≠ [] ∧ digitsNat jp ≠ 0

/-- The literal's numerals (scaled to the number of decimals written) fit the machine integers. -/
def Literal.Small : Literal → Prop
  | .int _ ip => digitsNat ip + 1 < 9223372036854775808
  | .dec _ ip fp => (digitsNat ip + 1) * 10 ^ fp.length < 9223372036854775808
  | .frac _ ip _ jp => digitsNat ip < 9223372036854775808 ∧ digitsNat jp < 9223372036854775808

/-- The literals the parser gets wrong: a minus sign in front of a zero (or missing) integer part and a non-zero
fractional part, e.g. `-0.5`. -/
def Literal.NegativeProper : Literal → Prop
  | .dec .minus ip fp => digitsNat ip = 0 ∧ digitsNat fp ≠ 0
  | _ => False

/-- The text `s` (white space anywhere is insignificant) spells the literal `l`. -/
def Spells (s : List Char) (l : Literal) : Prop := s.filter (fun c => !isSpace c) = l.text

end Scisim
