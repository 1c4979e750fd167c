import Verif.Model.Vec2
import Mathlib.Analysis.Real.Sqrt
/-!
# Continuous collision detection of two balls

`scisim/CollisionDetection/CollisionDetectionUtilities.cpp`. Scalars are real numbers. The result `(true, t)` is `some t`, `(false, _)`
is `none`.
-/

namespace Scisim

/-- `Vector3s` of coefficients `c(0) + c(1) t + c(2) t²` -/
structure Quadratic where
  c0 : ℝ
  c1 : ℝ
  c2 : ℝ

/-- scisim/CollisionDetection/CollisionDetectionUtilities.cpp:3-22 `computeCCDQuadraticCoeffs` -/
noncomputable def computeCCDQuadraticCoeffs (q0a q1a : V2 ℝ) (ra : ℝ) (q0b q1b : V2 ℝ) (rb : ℝ) : Quadratic :=
  let q0delta := q0a - q0b
  let q1q0delta := q1a - q1b - q0delta
  { c0 := q0delta.dot q0delta - (ra + rb) ^ 2
    c1 := 2 * q0delta.dot q1q0delta
    c2 := q1q0delta.dot q1q0delta }

/-- scisim/CollisionDetection/CollisionDetectionUtilities.cpp:24-40 `firstRootOfQuadratic` -/
noncomputable def firstRootOfQuadratic (a b c dscrSqrt : ℝ) : ℝ :=
  if b ≥ 0 then (-b - dscrSqrt) / (2 * a) else (2 * c) / (-b + dscrSqrt)

/-- scisim/CollisionDetection/CollisionDetectionUtilities.cpp:42-58 `secondRootOfQuadratic` -/
noncomputable def secondRootOfQuadratic (a b c dscrSqrt : ℝ) : ℝ :=
  if b > 0 then (2 * c) / (-b - dscrSqrt) else (-b + dscrSqrt) / (2 * a)

/-- scisim/CollisionDetection/CollisionDetectionUtilities.cpp:60-121 `ballBallCCDCollisionHappens( c )` -/
noncomputable def quadraticCCD (c : Quadratic) : Option ℝ :=
  if c.c2 ≠ 0 then
    let c1c1 := c.c1 * c.c1
    let fc2c0 := 4 * c.c2 * c.c0
    if c1c1 < fc2c0 then none
    else
      let dscrSqrt := Real.sqrt (c1c1 - fc2c0)
      let root1 := secondRootOfQuadratic c.c2 c.c1 c.c0 dscrSqrt
      if root1 < 0 then none
      else
        let root0 := firstRootOfQuadratic c.c2 c.c1 c.c0 dscrSqrt
        if root0 > 1 then none else some (max 0 root0)
  else if c.c0 ≤ 0 then some 0 else none

/-- scisim/CollisionDetection/CollisionDetectionUtilities.cpp:123-126 `ballBallCCDCollisionHappens` -/
noncomputable def ballBallCCD (q0a q1a : V2 ℝ) (ra : ℝ) (q0b q1b : V2 ℝ) (rb : ℝ) : Option ℝ :=
  quadraticCCD (computeCCDQuadraticCoeffs q0a q1a ra q0b q1b rb)

end Scisim
