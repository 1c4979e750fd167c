import Mathlib.Analysis.Real.Sqrt
/-!
# Doubles without rounding

Arithmetic of C++ `double` with exact finite values and the IEEE special values. It is used where a property depends on what the code
does after a division by zero. Not modelled: rounding, overflow of finite values, and the sign of zero (a zero divisor counts as `+0`).
-/

namespace Scisim

/-- A `scalar` (`double`, scisim/Math/MathDefines.h:15): a finite value, an infinity, or not-a-number -/
inductive XR where
  | fin (x : ℝ)
  | pinf
  | ninf
  | nan

namespace XR

noncomputable instance : Zero XR := ⟨fin 0⟩
noncomputable instance : One XR := ⟨fin 1⟩

/-- IEEE addition: infinities of opposite sign cancel to nan -/
noncomputable def add : XR → XR → XR
  | fin a, fin b => fin (a + b)
  | fin _, pinf => pinf
  | fin _, ninf => ninf
  | pinf, fin _ => pinf
  | pinf, pinf => pinf
  | ninf, fin _ => ninf
  | ninf, ninf => ninf
  | _, _ => nan
noncomputable instance : Add XR := ⟨add⟩

/-- IEEE negation -/
noncomputable def neg : XR → XR
  | fin a => fin (-a)
  | pinf => ninf
  | ninf => pinf
  | nan => nan

noncomputable instance : Sub XR := ⟨fun a b => add a (neg b)⟩

open Classical in
/-- `+∞ * a` -/
noncomputable def infMul : XR → XR
  | fin a => if a = 0 then nan else if 0 < a then pinf else ninf
  | a => a

/-- IEEE multiplication: `∞ * 0` is nan -/
noncomputable def mul : XR → XR → XR
  | fin a, fin b => fin (a * b)
  | nan, _ => nan
  | _, nan => nan
  | pinf, b => infMul b
  | ninf, b => neg (infMul b)
  | a, pinf => infMul a
  | a, ninf => neg (infMul a)
noncomputable instance : Mul XR := ⟨mul⟩

open Classical in
/-- IEEE division: `a / 0` is an infinity for `a ≠ 0` and nan for `a = 0` -/
noncomputable def div : XR → XR → XR
  | nan, _ => nan
  | _, nan => nan
  | fin a, fin b => if b = 0 then infMul (fin a) else fin (a / b)
  | fin _, _ => fin 0
  | pinf, fin b => if b < 0 then ninf else pinf
  | ninf, fin b => if b < 0 then pinf else ninf
  | _, _ => nan
noncomputable instance : Div XR := ⟨div⟩

/-- IEEE `<`, false if either side is nan -/
def lt : XR → XR → Prop
  | fin a, fin b => a < b
  | fin _, pinf => True
  | ninf, fin _ => True
  | ninf, pinf => True
  | _, _ => False
instance : LT XR := ⟨lt⟩

/-- IEEE `<=`, false if either side is nan -/
def le : XR → XR → Prop
  | fin a, fin b => a ≤ b
  | fin _, pinf => True
  | ninf, fin _ => True
  | ninf, pinf => True
  | ninf, ninf => True
  | pinf, pinf => True
  | _, _ => False
instance : LE XR := ⟨le⟩

open Classical in
/-- `std::sqrt` -/
noncomputable def sqrt : XR → XR
  | fin a => if a < 0 then nan else fin (Real.sqrt a)
  | pinf => pinf
  | _ => nan

/-- `std::fabs` -/
noncomputable def abs : XR → XR
  | fin a => fin |a|
  | pinf => pinf
  | ninf => pinf
  | nan => nan

end XR

/-- The operations of a scalar type the solvers use besides arithmetic and comparison -/
class FloatOps (S : Type) where
  /-- a literal, e.g. `0.5` -/
  lit : ℚ → S
  /-- `std::sqrt` -/
  sqrt : S → S
  /-- `std::fabs` -/
  abs : S → S
  /-- comparison with `SCALAR_INFINITY`: `x < SCALAR_INFINITY` -/
  belowInfinity : S → Prop

noncomputable instance instFloatOpsReal : FloatOps ℝ := ⟨fun q => (q : ℝ), Real.sqrt, fun a => |a|, fun _ => True⟩
noncomputable instance instFloatOpsXR : FloatOps XR := ⟨fun q => .fin (q : ℝ), XR.sqrt, XR.abs, fun x => x < XR.pinf⟩

end Scisim
