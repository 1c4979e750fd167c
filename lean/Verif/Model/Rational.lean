import Verif.Model.Strings
/-!
# scisim/Math/Rational.h

`Rational<std::intmax_t>`.  Machine integers are mathematical integers with an explicit range check after every
operation: leaving the range of `std::intmax_t` (signed overflow), dividing by zero and `INTMAX_MIN / -1` are the
outcome `ub`.
-/

namespace Scisim

/-- `x` is representable in `std::intmax_t` (64 bits, two's complement). -/
def inI64 (x : Int) : Bool := decide (-9223372036854775808 ≤ x) && decide (x ≤ 9223372036854775807)

/-- Result of a signed operation: undefined behaviour when it does not fit. -/
def chk (x : Int) : Outcome Int := if inI64 x then .ok x else .ub

/-- C++ `/` on `std::intmax_t` (truncating): undefined for divisor 0 and on overflow. -/
def divC (a b : Int) : Outcome Int := if b = 0 then .ub else chk (a.tdiv b)

/-- C++ `%` on `std::intmax_t`: undefined for divisor 0 and when the quotient overflows. -/
def modC (a b : Int) : Outcome Int := if b = 0 then .ub else if inI64 (a.tdiv b) then .ok (a.tmod b) else .ub

/-- The two fields of `Rational<T>`, scisim/Math/Rational.h:94-95. -/
structure Rat64 where
  /-- `m_numerator` -/
  num : Int
  /-- `m_denominator` -/
  den : Int
deriving DecidableEq, Repr

/-- `GCD`, scisim/Math/Rational.h:123-135: Euclid's algorithm with C++ `%` (may return a negative number). -/
def gcdC (numerator denominator : Int) : Outcome Int :=
  if _h : denominator = 0 then .ok numerator
  else if inI64 (numerator.tdiv denominator) then gcdC denominator (numerator.tmod denominator)
  else .ub
termination_by denominator.natAbs
decreasing_by
  rw [Int.natAbs_tmod]
  exact Nat.mod_lt _ (by omega)

/-- `Rational<T>::simplify`, scisim/Math/Rational.h:137-158. -/
def simplify (r : Rat64) : Outcome Rat64 :=
  if r.num = 0 then .ok ⟨0, 1⟩
  else do
    let g ← gcdC r.num r.den
    let n ← divC r.num g
    let d ← divC r.den g
    if d < 0 then
      let n' ← chk (-n)
      let d' ← chk (-d)
      .ok ⟨n', d'⟩
    else .ok ⟨n, d⟩

/-- `Rational<T>::Rational` and `Rational<T>::set`, scisim/Math/Rational.h:25-30 and 160-168. -/
def mkRat64 (numerator denominator : Int) : Outcome Rat64 := simplify ⟨numerator, denominator⟩

/-- `operator+=`, scisim/Math/Rational.h:36-39. -/
def Rat64.add (l r : Rat64) : Outcome Rat64 := do
  let a ← chk (r.den * l.num)
  let b ← chk (l.den * r.num)
  let n ← chk (a + b)
  let d ← chk (l.den * r.den)
  mkRat64 n d

/-- `operator-=`, scisim/Math/Rational.h:41-44. -/
def Rat64.sub (l r : Rat64) : Outcome Rat64 := do
  let a ← chk (r.den * l.num)
  let b ← chk (l.den * r.num)
  let n ← chk (a - b)
  let d ← chk (l.den * r.den)
  mkRat64 n d

/-- `operator*=`, scisim/Math/Rational.h:46-49. -/
def Rat64.mul (l r : Rat64) : Outcome Rat64 := do
  let n ← chk (l.num * r.num)
  let d ← chk (l.den * r.den)
  mkRat64 n d

/-- `operator/=`, scisim/Math/Rational.h:51-54. -/
def Rat64.div (l r : Rat64) : Outcome Rat64 := do
  let n ← chk (r.den * l.num)
  let d ← chk (r.num * l.den)
  mkRat64 n d

/-- `operator*( Rational, T )` and `operator*( T, Rational )`, scisim/Math/Rational.h:170-180. -/
def Rat64.mulInt (l : Rat64) (k : Int) : Outcome Rat64 := do
  let n ← chk (l.num * k)
  mkRat64 n l.den

/-- `operator/( Rational, T )`, scisim/Math/Rational.h:182-186. -/
def Rat64.divInt (l : Rat64) (k : Int) : Outcome Rat64 := do
  let d ← chk (l.den * k)
  mkRat64 l.num d

/-- `operator/( T, Rational )`, scisim/Math/Rational.h:188-192. -/
def Rat64.intDiv (k : Int) (r : Rat64) : Outcome Rat64 := do
  let n ← chk (r.den * k)
  mkRat64 n r.num

/-- `operator==`, scisim/Math/Rational.h:99-103. -/
def Rat64.eq (l r : Rat64) : Bool := l.num == r.num && l.den == r.den

/-- `operator==( Rational, T )`, scisim/Math/Rational.h:105-115. -/
def Rat64.eqInt (l : Rat64) (k : Int) : Outcome Bool := do
  let r ← mkRat64 k 1
  .ok (l.eq r)

/-- `positive`, scisim/Math/Rational.h:66-70. -/
def Rat64.positive (r : Rat64) : Bool := decide (r.num > 0)

/-- `nonNegative`, scisim/Math/Rational.h:72-76. -/
def Rat64.nonNegative (r : Rat64) : Bool := decide (r.num ≥ 0)

/-- `isInteger`, scisim/Math/Rational.h:78-81. -/
def Rat64.isInteger (r : Rat64) : Bool := decide (r.den = 1)

/-- Decimal digit value (only used on characters for which `isDigitC` holds). -/
def digitVal (c : Char) : Nat := c.toNat - '0'.toNat

/-- A decimal digit character. -/
def isDigitC (c : Char) : Bool := decide ('0'.toNat ≤ c.toNat) && decide (c.toNat ≤ '9'.toNat)

/-- Value of a run of decimal digits, most significant first. -/
def digitsVal (s : List Char) : Nat := s.foldl (fun acc c => 10 * acc + digitVal c) 0

/-- The optional sign accepted by `stringstream >> integer`; used by `extractInt`. -/
def readSign : List Char → Bool × List Char
  | [] => (false, [])
  | c :: t => if c = '-' then (true, t) else if c = '+' then (false, t) else (false, c :: t)

/-- `StringUtilities::extractFromString` for `std::intmax_t`, scisim/StringUtilities.h:63-69:
`std::stringstream >> x` in the "C" locale with decimal base.  Leading white space is skipped, an optional sign and
the longest run of digits are consumed, the rest of the string is ignored; no digits or a value out of range sets the
fail bit. -/
def extractInt (s : List Char) : Outcome Int :=
  let s := s.dropWhile isSpace
  let (neg, s) := readSign s
  let ds := s.takeWhile isDigitC
  if ds.isEmpty then .fail
  else
    let v : Int := if neg then -(digitsVal ds : Int) else digitsVal ds
    if inI64 v then .ok v else .fail

/-- The loop computing the power of ten, scisim/Math/Rational.h:236-237. -/
def powTenC : Nat → Outcome Int
  | 0 => .ok 1
  | n + 1 => do
    let d ← powTenC n
    chk (d * 10)

/-- Lines 231-232 of scisim/Math/Rational.h: an empty mantissa is zero. -/
def extractMantissa (right : List Char) : Outcome Int := if right = [] then .ok 0 else extractInt right

/-- `extractFromString( std::string, Rational<T>& )`, scisim/Math/Rational.h:203-258. -/
def extractRational (s : List Char) : Outcome Rat64 :=
  let slash := s.count '/'
  let period := s.count '.'
  if slash > 2 then .fail
  else if period > 2 then .fail
  else if slash = 1 ∧ period ≠ 0 then .fail
  else if period = 1 ∧ slash ≠ 0 then .fail
  else if slash ≠ 1 then
    let (left, right) := splitAtLast (removeWhiteSpace s) '.'
    let right := trimCharacterRight right '0'
    let left := if left = [] then ['0'] else left
    let left := if left = ['+'] then ['+', '0'] else left
    let left := if left = ['-'] then ['-', '0'] else left
    do
      let leftInt ← extractInt left
      let rightInt ← extractMantissa right
      let den ← powTenC right.length
      let a ← chk (leftInt * den)
      let b ← chk ((if leftInt < 0 then -1 else 1) * rightInt)
      let num ← chk (a + b)
      mkRat64 num den
  else
    let (left, right) := splitAtLast (removeWhiteSpace s) '/'
    do
      let leftInt ← extractInt left
      let rightInt ← extractInt right
      mkRat64 leftInt rightInt

end Scisim
