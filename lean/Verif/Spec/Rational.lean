import Verif.Model.Rational
import Mathlib.Data.Rat.Lemmas
/-!
# What a stored rational means, and what a literal denotes

Independent of the code: Mathlib's `ℚ` keeps numerator and denominator in lowest terms with a positive denominator.
-/

namespace Scisim

/-- The stored pair is the canonical (lowest terms, positive denominator) representation of the number `q`. -/
def Represents (r : Rat64) (q : ℚ) : Prop := r.num = q.num ∧ r.den = (q.den : ℤ)

/-- A number strictly inside the range of `std::intmax_t` (the most negative value excluded). -/
def Fits (x : ℤ) : Prop := x.natAbs < 9223372036854775808

/-- Arithmetic expressions over rationals as a user can write them with the overloaded operators. -/
inductive RExpr where
  /-- `Rational( n, d )` -/
  | lit (n d : ℤ)
  /-- `+=` -/
  | add (a b : RExpr)
  /-- `-=` -/
  | sub (a b : RExpr)
  /-- `*=` -/
  | mul (a b : RExpr)
  /-- `/=` -/
  | div (a b : RExpr)
  /-- `r * k` and `k * r` -/
  | mulInt (a : RExpr) (k : ℤ)
  /-- `r / k` -/
  | divInt (a : RExpr) (k : ℤ)
  /-- `k / r` -/
  | intDiv (k : ℤ) (a : RExpr)

/-- Evaluation with the operators of the code. -/
def RExpr.eval : RExpr → Outcome Rat64
  | .lit n d => mkRat64 n d
  | .add a b => do let x ← a.eval; let y ← b.eval; x.add y
  | .sub a b => do let x ← a.eval; let y ← b.eval; x.sub y
  | .mul a b => do let x ← a.eval; let y ← b.eval; x.mul y
  | .div a b => do let x ← a.eval; let y ← b.eval; x.div y
  | .mulInt a k => do let x ← a.eval; x.mulInt k
  | .divInt a k => do let x ← a.eval; x.divInt k
  | .intDiv k a => do let x ← a.eval; Rat64.intDiv k x

/-- The exact value. -/
def RExpr.value : RExpr → ℚ
  | .lit n d => (n : ℚ) / d
  | .add a b => a.value + b.value
  | .sub a b => a.value - b.value
  | .mul a b => a.value * b.value
  | .div a b => a.value / b.value
  | .mulInt a k => a.value * k
  | .divInt a k => a.value / k
  | .intDiv k a => k / a.value

/-- No division by zero anywhere in the expression (exact values). -/
def RExpr.Defined : RExpr → Prop
  | .lit _ d => d ≠ 0
  | .add a b | .sub a b | .mul a b => a.Defined ∧ b.Defined
  | .div a b => a.Defined ∧ b.Defined ∧ b.value ≠ 0
  | .mulInt a _ => a.Defined
  | .divInt a k => a.Defined ∧ k ≠ 0
  | .intDiv _ a => a.Defined ∧ a.value ≠ 0

end Scisim
