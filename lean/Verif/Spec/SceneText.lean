import Verif.Spec.Literals
import Verif.Spec.Rational
import Verif.Model.SceneText
import Mathlib.Algebra.Order.Field.Power
/-!
# Numbers, flags and lists in scene files

What a decimal numeral is, what it denotes, and when a text consists of one or begins with one. The parser is not mentioned.
-/

namespace Scisim

/-- A decimal numeral: sign, digits, optionally a point and digits, optionally an exponent (whether its letter is upper case, sign, digits) -/
structure Numeral where
  sign : Sign
  ip : List Digit
  fp : Option (List Digit)
  exp : Option (Bool × Sign × List Digit)

namespace Numeral

/-- How it is written -/
def text (n : Numeral) : List Char :=
  n.sign.chars ++ digitText n.ip ++
    (match n.fp with | none => [] | some fp => '.' :: digitText fp) ++
    (match n.exp with | none => [] | some (upper, s, ds) => (if upper then 'E' else 'e') :: (s.chars ++ digitText ds))

/-- The digits after the point -/
def fraction (n : Numeral) : List Digit := n.fp.getD []

/-- The exponent -/
def exponent (n : Numeral) : ℤ :=
  match n.exp with
  | none => 0
  | some (_, s, ds) => s.factor * digitsNat ds

/-- What it denotes -/
def value (n : Numeral) : ℚ :=
  n.sign.factor * ((digitsNat n.ip : ℚ) + (digitsNat n.fraction : ℚ) / 10 ^ n.fraction.length) * (10 : ℚ) ^ n.exponent

/-- There is a digit before or after the point, and in the exponent -/
def Grammatical (n : Numeral) : Prop := (n.ip ≠ [] ∨ n.fraction ≠ []) ∧ ∀ u s ds, n.exp = some (u, s, ds) → ds ≠ []

/-- A character that would continue the numeral -/
def Continues (n : Numeral) (c : Char) : Prop :=
  (∃ d : Digit, c = d.char) ∨ (n.exp = none ∧ (c = 'e' ∨ c = 'E')) ∨ (n.exp = none ∧ n.fp = none ∧ c = '.')

end Numeral

/-- White space only -/
def Blank (s : List Char) : Prop := ∀ c ∈ s, isSpace c = true

/-- The text begins, after white space, with the numeral, which is not continued by what follows it -/
def BeginsWith (s : List Char) (n : Numeral) (rest : List Char) : Prop :=
  ∃ ws, Blank ws ∧ s = ws ++ n.text ++ rest ∧ n.Grammatical ∧ ∀ c, rest.head? = some c → ¬ n.Continues c

/-- Numbers that are rounded to a finite `double` -/
def DoubleRange (q : ℚ) : Prop := |q| < 2 ^ 1024 - 2 ^ 970

/-- The text begins with a number -/
def BeginsWithNumber (s : List Char) (q : ℚ) (rest : List Char) : Prop := ∃ n, BeginsWith s n rest ∧ q = n.value ∧ DoubleRange q

/-- The text is a number, with white space around -/
def IsNumber (s : List Char) (q : ℚ) : Prop := ∃ rest, BeginsWithNumber s q rest ∧ Blank rest

/-- The text is a list of numbers separated by white space -/
inductive AreNumbers : List Char → List ℚ → Prop where
  | nil {s : List Char} (h : Blank s) : AreNumbers s []
  | cons {s rest : List Char} {q : ℚ} {l : List ℚ} (h : BeginsWithNumber s q rest) (hs : ∀ c, rest.head? = some c → isSpace c = true)
      (t : AreNumbers rest l) : AreNumbers s (q :: l)

/-- The text begins with these numbers, in which each may follow the other directly (`1-2`), and what is left does not begin with a number -/
inductive BeginWithNumbers : List Char → List ℚ → Prop where
  | nil {s : List Char} (h : ¬ ∃ q rest, BeginsWithNumber s q rest) : BeginWithNumbers s []
  | cons {s rest : List Char} {q : ℚ} {l : List ℚ} (h : BeginsWithNumber s q rest) (t : BeginWithNumbers rest l) : BeginWithNumbers s (q :: l)

/-- The text begins, after white space, with a sign and digits, not continued by what follows -/
def BeginsWithInteger (s : List Char) (sg : Sign) (ds : List Digit) (rest : List Char) : Prop :=
  ∃ ws, Blank ws ∧ s = ws ++ (sg.chars ++ digitText ds) ++ rest ∧ ds ≠ [] ∧ ∀ c, rest.head? = some c → ¬ ∃ d : Digit, c = d.char

/-- The text is an integer of the type `int`, with white space around -/
def IsInt (s : List Char) (z : ℤ) : Prop :=
  ∃ sg ds rest, BeginsWithInteger s sg ds rest ∧ Blank rest ∧ z = sg.factor * digitsNat ds ∧ -2 ^ 31 ≤ z ∧ z < 2 ^ 31

/-- The text begins with an integer of the type `int` -/
def BeginsWithInt (s : List Char) (z : ℤ) : Prop :=
  ∃ sg ds rest, BeginsWithInteger s sg ds rest ∧ z = sg.factor * digitsNat ds ∧ -2 ^ 31 ≤ z ∧ z < 2 ^ 31

/-- The text is a natural number of the type `unsigned`, without a minus sign -/
def IsUnsigned (s : List Char) (n : ℕ) : Prop :=
  ∃ sg ds rest, BeginsWithInteger s sg ds rest ∧ Blank rest ∧ sg ≠ .minus ∧ n = digitsNat ds ∧ n < 2 ^ 32

/-- The text begins with a number of the type `unsigned`. A minus sign is admitted, and means the negative modulo 2^32. -/
def BeginsWithUnsigned (s : List Char) (n : ℕ) : Prop :=
  ∃ sg ds rest, BeginsWithInteger s sg ds rest ∧ digitsNat ds < 2 ^ 32 ∧ (n : ℤ) = (sg.factor * digitsNat ds) % 2 ^ 32

/-- The text is a natural number of the type `size_t`, without a minus sign -/
def IsSize (s : List Char) (n : ℕ) : Prop :=
  ∃ sg ds rest, BeginsWithInteger s sg ds rest ∧ Blank rest ∧ sg ≠ .minus ∧ n = digitsNat ds ∧ n < 2 ^ 64

/-- The text begins with a number of the type `size_t`. A minus sign is admitted, and means the negative modulo 2^64. -/
def BeginsWithSize (s : List Char) (n : ℕ) : Prop :=
  ∃ sg ds rest, BeginsWithInteger s sg ds rest ∧ digitsNat ds < 2 ^ 64 ∧ (n : ℤ) = (sg.factor * digitsNat ds) % 2 ^ 64

/-- The text is a flag: an integer that is 0 or 1 -/
def IsFlag (s : List Char) (b : Bool) : Prop :=
  ∃ sg ds rest, BeginsWithInteger s sg ds rest ∧ Blank rest ∧ sg.factor * digitsNat ds = if b then 1 else 0

/-- The text begins with a flag -/
def BeginsWithFlag (s : List Char) (b : Bool) : Prop :=
  ∃ sg ds rest, BeginsWithInteger s sg ds rest ∧ sg.factor * digitsNat ds = if b then 1 else 0

/-- The words of a text -/
inductive AreWords : List Char → List (List Char) → Prop where
  | nil {s : List Char} (h : Blank s) : AreWords s []
  | cons {ws w rest : List Char} {l : List (List Char)} (h : Blank ws) (hw : w ≠ [] ∧ ∀ c ∈ w, isSpace c = false)
      (hr : ∀ c, rest.head? = some c → isSpace c = true) (t : AreWords rest l) : AreWords (ws ++ w ++ rest) (w :: l)

/-- The text is a positive timestep: a decimal numeral without exponent, or a fraction. Those with more digits than machine integers have are left out. -/
def IsTimestep (s : List Char) (dt : Rat64) : Prop :=
  ∃ l : Literal, l.Wellformed ∧ l.Small ∧ ¬ l.NegativeProper ∧ Spells s l ∧ Represents dt l.value ∧ 0 < l.value

/-- The number that is used for a text in which no number is found, where this goes unnoticed: 0, or the largest double for a number that is too large -/
def SilentNumber (s : List Char) (q : ℚ) : Prop :=
  (q = 0 ∧ ¬ Blank s ∧ ¬ ∃ n rest, BeginsWith s n rest) ∨
    ∃ n rest, BeginsWith s n rest ∧ ((2 ^ 1024 - 2 ^ 970 ≤ n.value ∧ q = dblMax) ∨ (n.value ≤ -(2 ^ 1024 - 2 ^ 970) ∧ q = -dblMax))

/-- The flag that is used for a text in which no flag is found, where this goes unnoticed: `false` if there is no integer, `true` if there is one -/
def SilentFlag (s : List Char) (b : Bool) : Prop :=
  (b = false ∧ ¬ Blank s ∧ ¬ ∃ sg ds rest, BeginsWithInteger s sg ds rest) ∨
    (b = true ∧ ∃ sg ds rest, BeginsWithInteger s sg ds rest ∧ sg.factor * digitsNat ds ≠ 0 ∧ sg.factor * digitsNat ds ≠ 1)

/-- A text between the spaces of a list: a number, or an infinity -/
def IsEntry (s : List Char) : ListScalar → Prop
  | .finite q => ∃ n : Numeral, n.Grammatical ∧ s = n.text ∧ q = n.value ∧ DoubleRange q
  | .inf negative => s = if negative then ['-', 'i', 'n', 'f'] else ['i', 'n', 'f']

/-- Likewise, where anything may follow a number -/
def BeginsWithEntry (s : List Char) : ListScalar → Prop
  | .finite q => ∃ rest, BeginsWithNumber s q rest
  | .inf negative => s = if negative then ['-', 'i', 'n', 'f'] else ['i', 'n', 'f']

/-- The text is a list of entries, with one space between any two -/
def SpacedList (entry : List Char → ListScalar → Prop) (s : List Char) (l : List ListScalar) : Prop :=
  s ≠ [] ∧ ∃ texts, s = [' '].intercalate texts ∧ (∀ t ∈ texts, ' ' ∉ t) ∧ List.Forall₂ entry texts l

/-- How the texts of a scene file are understood -/
structure SceneReading where
  number : List Char → ℚ → Prop
  /-- numbers of elements in which the code ignores errors -/
  bareNumber : List Char → ℚ → Prop
  flag : List Char → Bool → Prop
  /-- flags of elements in which the code ignores errors -/
  bareFlag : List Char → Bool → Prop
  int : List Char → ℤ → Prop
  unsigned : List Char → ℕ → Prop
  size : List Char → ℕ → Prop
  numbers : List Char → List ℚ → Prop
  /-- lists with a given number of entries -/
  list : List Char → List ListScalar → Prop
  timestep : List Char → Rat64 → Prop

/-- The format: numbers are numbers, with nothing else around but white space -/
def exactReading : SceneReading where
  number := IsNumber
  bareNumber := IsNumber
  flag := IsFlag
  bareFlag := IsFlag
  int := IsInt
  unsigned := IsUnsigned
  size := IsSize
  numbers := AreNumbers
  list := SpacedList IsEntry
  timestep := IsTimestep

/-- What the code accepts: whatever follows a number is ignored; texts that are no number at all are read as zero in some elements -/
def lenientReading : SceneReading where
  number s q := ∃ rest, BeginsWithNumber s q rest
  bareNumber s q := (∃ rest, BeginsWithNumber s q rest) ∨ SilentNumber s q
  flag := BeginsWithFlag
  bareFlag s b := BeginsWithFlag s b ∨ SilentFlag s b
  int := BeginsWithInt
  unsigned := BeginsWithUnsigned
  size := BeginsWithSize
  numbers := BeginWithNumbers
  list := SpacedList BeginsWithEntry
  timestep s dt := extractRational s = .ok dt ∧ 0 < dt.num

end Scisim
