import Mathlib.Analysis.SpecialFunctions.Trigonometric.Basic
import Mathlib.Order.WithBot
import Verif.Model.Vec2
import Verif.Model.Outcome
/-!
# Plane geometry: circles and boxes

rigidbody2d/CircleGeometry.cpp, rigidbody2d/BoxGeometry.cpp, rigidbody2d/CircleBoxTools.cpp, rigidbody2d/BoxBoxTools.cpp and
rigidbody2d/RigidBody2DState.cpp. Scalars are real numbers: rounding is not modelled.
-/

namespace Scisim

/-- `Matrix22sc`, scisim/Math/MathDefines.h, with the operations that BoxBoxTools.cpp and CircleBoxTools.cpp use -/
structure M22 where
  m00 : ℝ
  m01 : ℝ
  m10 : ℝ
  m11 : ℝ

namespace M22

/-- Matrix times vector -/
def mulVec (A : M22) (v : V2 ℝ) : V2 ℝ := ⟨A.m00 * v.x + A.m01 * v.y, A.m10 * v.x + A.m11 * v.y⟩

/-- Transpose -/
def transpose (A : M22) : M22 := ⟨A.m00, A.m10, A.m01, A.m11⟩

/-- Matrix product -/
def mul (A B : M22) : M22 :=
  ⟨A.m00 * B.m00 + A.m01 * B.m10, A.m00 * B.m01 + A.m01 * B.m11, A.m10 * B.m00 + A.m11 * B.m10, A.m10 * B.m01 + A.m11 * B.m11⟩

/-- Eigen `cwiseAbs` -/
def cwiseAbs (A : M22) : M22 := ⟨|A.m00|, |A.m01|, |A.m10|, |A.m11|⟩

/-- Eigen `col`; the index is 0 or 1 -/
def col (A : M22) (i : Fin 2) : V2 ℝ := if i = 0 then ⟨A.m00, A.m10⟩ else ⟨A.m01, A.m11⟩

end M22

/-- Eigen `v( i )` for a `Vector2s` -/
def V2.coeff (v : V2 ℝ) (i : Fin 2) : ℝ := if i = 0 then v.x else v.y

/-- `Eigen::Rotation2D<scalar>{ theta }.matrix()` -/
noncomputable def rotation2D (theta : ℝ) : M22 := ⟨Real.cos theta, -Real.sin theta, Real.sin theta, Real.cos theta⟩

/-- `CircleGeometry::computeAABB`, rigidbody2d/CircleGeometry.cpp:39-44: the lower and the upper corner -/
def circleAABB (r : ℝ) (x : V2 ℝ) : V2 ℝ × V2 ℝ := (⟨x.x - r, x.y - r⟩, ⟨x.x + r, x.y + r⟩)

/-- `CircleGeometry::computeCollisionAABB`, rigidbody2d/CircleGeometry.cpp:32-37 -/
noncomputable def circleCollisionAABB (r : ℝ) (x0 x1 : V2 ℝ) : V2 ℝ × V2 ℝ :=
  (⟨min x0.x x1.x - r, min x0.y x1.y - r⟩, ⟨max x0.x x1.x + r, max x0.y x1.y + r⟩)

/-- `CircleGeometry::computeMassAndInertia`, rigidbody2d/CircleGeometry.cpp:46-50: the mass and the moment of inertia -/
noncomputable def circleMassAndInertia (r density : ℝ) : ℝ × ℝ :=
  let m := density * Real.pi * r * r
  (m, (1 / 2) * m * r * r)

/-- `BoxGeometry::computeAABB`, rigidbody2d/BoxGeometry.cpp:37-42 -/
noncomputable def boxAABB (r : V2 ℝ) (x : V2 ℝ) (theta : ℝ) : V2 ℝ × V2 ℝ :=
  let extents := (rotation2D theta).cwiseAbs.mulVec r
  (x - extents, x + extents)

/-- `BoxGeometry::computeCollisionAABB`, rigidbody2d/BoxGeometry.cpp:32-35 -/
noncomputable def boxCollisionAABB (r : V2 ℝ) (_x0 : V2 ℝ) (_theta0 : ℝ) (x1 : V2 ℝ) (theta1 : ℝ) : V2 ℝ × V2 ℝ := boxAABB r x1 theta1

/-- `BoxGeometry::computeMassAndInertia`, rigidbody2d/BoxGeometry.cpp:44-48 -/
noncomputable def boxMassAndInertia (r : V2 ℝ) (density : ℝ) : ℝ × ℝ :=
  let m := density * 4 * r.x * r.y
  (m, m * r.normSq / 3)

/-- A geometry of `RigidBody2DState`, rigidbody2d/RigidBody2DGeometry.h: a circle with a radius or a box with half widths -/
inductive Geometry2D where
  | circle (r : ℝ)
  | box (r : V2 ℝ)

/-- `RigidBody2DGeometry::computeAABB` -/
noncomputable def Geometry2D.aabb : Geometry2D → V2 ℝ → ℝ → V2 ℝ × V2 ℝ
  | .circle r, x, _ => circleAABB r x
  | .box r, x, theta => boxAABB r x theta

/-- `RigidBody2DGeometry::computeCollisionAABB` -/
noncomputable def Geometry2D.collisionAABB : Geometry2D → V2 ℝ → ℝ → V2 ℝ → ℝ → V2 ℝ × V2 ℝ
  | .circle r, x0, _, x1, _ => circleCollisionAABB r x0 x1
  | .box r, x0, theta0, x1, theta1 => boxCollisionAABB r x0 theta0 x1 theta1

/-- A body of a scene: its geometry, its centre and its angle -/
structure PosedBody2D where
  geometry : Geometry2D
  x : V2 ℝ
  theta : ℝ

/-- `RigidBody2DState::computeBoundingBox`, rigidbody2d/RigidBody2DState.cpp:461-483. `none` is the box before the first body is seen,
whose lower corner is at plus infinity and whose upper corner is at minus infinity. -/
noncomputable def sceneBoundingBox (bodies : List PosedBody2D) : Option (V2 ℝ × V2 ℝ) :=
  bodies.foldl (fun bounds b =>
    let bb := b.geometry.aabb b.x b.theta
    match bounds with
    | none => some bb
    | some (lo, hi) => some (⟨min lo.x bb.1.x, min lo.y bb.1.y⟩, ⟨max hi.x bb.2.x, max hi.y bb.2.y⟩)) none

/-- The regions of `CircleBoxTools::isActive`, rigidbody2d/CircleBoxTools.cpp:18-92, for a circle whose centre `xc` lies in the first quadrant of the
frame of the box: `none` is `return false`, otherwise `n` and `pen_depth`. -/
noncomputable def circleBoxRegion (xc : V2 ℝ) (r0 : ℝ) (r1 : V2 ℝ) : Option (V2 ℝ × ℝ) :=
  let corner : Option (V2 ℝ × ℝ) :=
    let n := xc - r1
    let penDepth := n.normSq
    if penDepth > r0 * r0 then none
    else some (⟨n.x / √penDepth, n.y / √penDepth⟩, √penDepth - r0)
  if r1.x * xc.y < r1.y * xc.x then
    if xc.y ≤ r1.y then
      let penDepth := xc.x - r0 - r1.x
      if penDepth > 0 then none else some (⟨1, 0⟩, penDepth)
    else corner
  else
    if xc.x ≤ r1.x then
      let penDepth := xc.y - r0 - r1.y
      if penDepth > 0 then none else some (⟨0, 1⟩, penDepth)
    else corner

/-- `CircleBoxTools::isActive`, rigidbody2d/CircleBoxTools.cpp:8-114: circle with centre `x0` and radius `r0`, box with centre `x1`, angle
`theta1` and half widths `r1`. `none` is `false`; otherwise the normal and the point that are reported. -/
noncomputable def circleBoxIsActive (x0 : V2 ℝ) (r0 : ℝ) (x1 : V2 ℝ) (theta1 : ℝ) (r1 : V2 ℝ) : Option (V2 ℝ × V2 ℝ) :=
  let R := rotation2D theta1
  let xc0 := R.transpose.mulVec (x0 - x1)
  let invertX := decide (xc0.x < 0)
  let invertY := decide (xc0.y < 0)
  let xc : V2 ℝ := ⟨if invertX then xc0.x * -1 else xc0.x, if invertY then xc0.y * -1 else xc0.y⟩
  (circleBoxRegion xc r0 r1).map fun (n, penDepth) =>
    let p := xc - (r0 + (1 / 2) * penDepth) • n
    let n' : V2 ℝ := ⟨if invertX then n.x * -1 else n.x, if invertY then n.y * -1 else n.y⟩
    let p' : V2 ℝ := ⟨if invertX then p.x * -1 else p.x, if invertY then p.y * -1 else p.y⟩
    (R.mulVec n', R.mulVec p' + x1)

/-- `CollidingFeature`, rigidbody2d/BoxBoxTools.cpp:11-18: `none` is `FAILURE`, 0 and 1 are the axes of the first box, 2 and 3 those of the second -/
abbrev CollidingFeature := Option (Fin 4)

/-- The variables that `axisAlignedSeperatingTest` updates: `smallest_pen_depth` (`⊥` is minus infinity), `invert_normal`, `feature` -/
structure SatState where
  smallest : WithBot ℝ
  invert : Bool
  feature : CollidingFeature

/-- `axisAlignedSeperatingTest`, rigidbody2d/BoxBoxTools.cpp:20-36; `none` when the axis separates the boxes -/
noncomputable def axisAlignedSeperatingTest (dist widths : ℝ) (crnt : Fin 4) (st : SatState) : Option SatState :=
  let penDepth := |dist| - widths
  if penDepth > 0 then none
  else if (penDepth : WithBot ℝ) > st.smallest then some ⟨penDepth, decide (dist < 0), some crnt⟩
  else some st

/-- The separating axis test of `BoxBoxTools::isActive`, rigidbody2d/BoxBoxTools.cpp:67-113; `none` when one of the axes separates the boxes -/
noncomputable def boxBoxSeparatingAxes (R0 R1 : M22) (x0 r0 x1 r1 : V2 ℝ) : Option SatState :=
  let Q := (R0.transpose.mul R1).cwiseAbs
  let p := x1 - x0
  let p0 := R0.transpose.mulVec p
  let w0 := Q.mulVec r1 + r0
  let p1 := R1.transpose.mulVec p
  let w1 := Q.transpose.mulVec r0 + r1
  (axisAlignedSeperatingTest p0.x w0.x 0 ⟨⊥, false, none⟩).bind fun s =>
  (axisAlignedSeperatingTest p0.y w0.y 1 s).bind fun s =>
  (axisAlignedSeperatingTest p1.x w1.x 2 s).bind fun s =>
  axisAlignedSeperatingTest p1.y w1.y 3 s

/-- Contact generation of `BoxBoxTools::isActive`, rigidbody2d/BoxBoxTools.cpp:142-192, once the reference body `a`, the incident body `b`, the
axis `na` of the reference body and the normal `normal2` that points from `a` to `b` are known: the points that are reported, in order. -/
noncomputable def boxBoxPoints (Ra Rb : M22) (xa ra xb rb : V2 ℝ) (na : Fin 2) (normal2 : V2 ℝ) : List (V2 ℝ) :=
  let nInB := Rb.transpose.mulVec normal2
  let nb : Fin 2 := if |nInB.y| > |nInB.x| then 1 else 0
  let tb : Fin 2 := 1 - nb
  let center := xb - xa + ((if nInB.coeff nb < 0 then 1 else -1) * rb.coeff nb) • Rb.col nb
  let ta : Fin 2 := 1 - na
  let cOnA := center.dot (Ra.col ta)
  let costheta := (Ra.col ta).dot (Rb.col tb)
  let e0 := cOnA - costheta * rb.coeff tb
  let e1 := cOnA + costheta * rb.coeff tb
  let lo := if e0 > e1 then e1 else e0
  let hi := if e0 > e1 then e0 else e1
  let lo' := min lo (ra.coeff ta)
  let hi' := max hi (-ra.coeff ta)
  let i0 := max (-ra.coeff ta) lo'
  let i1 := min (ra.coeff ta) hi'
  let contact (i : ℝ) : List (V2 ℝ) :=
    let point := center + ((i - cOnA) / costheta) • Rb.col tb
    let depth := ra.coeff na - normal2.dot point
    if depth ≥ 0 then [xa + point + ((1 / 2) * depth) • normal2] else []
  if i0 ≠ i1 then contact i0 ++ contact i1 else contact i0

/-- `BoxBoxTools::isActive`, rigidbody2d/BoxBoxTools.cpp:50-196: the normal (the one passed in when there is no contact) and the points, which are
appended to those passed in. -/
noncomputable def boxBoxIsActive (x0 : V2 ℝ) (theta0 : ℝ) (r0 : V2 ℝ) (x1 : V2 ℝ) (theta1 : ℝ) (r1 : V2 ℝ) (n : V2 ℝ) (points : List (V2 ℝ)) :
    Outcome (V2 ℝ × List (V2 ℝ)) :=
  let R0 := rotation2D theta0
  let R1 := rotation2D theta1
  match boxBoxSeparatingAxes R0 R1 x0 r0 x1 r1 with
  | none => .ok (n, points)
  | some st =>
    match st.feature with
    | none => .exit
    | some f =>
      let firstIsReference := decide (f.val ≤ 1)
      let na : Fin 2 := if firstIsReference then (if f = 0 then 0 else 1) else (if f = 2 then 0 else 1)
      let axis := if firstIsReference then R0.col na else R1.col na
      let n := if st.invert then (-1 : ℝ) • axis else axis
      let pts :=
        if firstIsReference then boxBoxPoints R0 R1 x0 r0 x1 r1 na n
        else boxBoxPoints R1 R0 x1 r1 x0 r0 na (-n)
      .ok ((-1 : ℝ) • n, points ++ pts)

end Scisim
