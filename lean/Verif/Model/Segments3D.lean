import Verif.Model.Geometry3D
import Verif.Model.Frames
import Verif.Model.Maps
import Verif.Model.Outcome
import Verif.Model.BoxBox3D

/-!
# Segments, staples, and a box against a ball in space

rigidbody3d/Constraints/CollisionUtilities.cpp and rigidbody3d/Constraints/StapleStapleUtilities.cpp. Arithmetic is exact. The checks of debug builds
(`assert`) are not modelled.
-/

namespace Scisim

open Matrix

open Classical in
/-- `clamp`, rigidbody3d/Constraints/CollisionUtilities.cpp:10-21 -/
noncomputable def clampScalar (val lo hi : ℝ) : ℝ := if val < lo then lo else if val > hi then hi else val

/-- What `closestPointSegmentSegment` gives: the parameters `s` and `t`, the points `c1` and `c2`, and the value returned -/
structure SegmentPair where
  s : ℝ
  t : ℝ
  c1 : Vec3
  c2 : Vec3
  distSq : ℝ

/-- rigidbody3d/Constraints/CollisionUtilities.cpp:45 `DIST_EPS` -/
noncomputable def distEps : ℝ := 1 / 100000000

open Classical in
/-- rigidbody3d/Constraints/CollisionUtilities.cpp:53-114: the parameters `s` and `t` on the two segments, as functions of the products of their directions
(`a`, `b`, `e`) and of those with the vector between their first points (`c`, `f`). The branch for two points, lines 55-62, gives the same parameters. -/
noncomputable def segmentParameters (a b c e f : ℝ) : ℝ × ℝ :=
  if a ≤ distEps ∧ e ≤ distEps then (0, 0)
  else if a ≤ distEps then (0, clampScalar (f / e) 0 1)
  else if e ≤ distEps then (clampScalar (-c / a) 0 1, 0)
  else
    let denom := a * e - b * b
    let s := if denom ≠ 0 then clampScalar ((b * f - c * e) / denom) 0 1 else 0
    let t := (b * s + f) / e
    if t < 0 then (clampScalar (-c / a) 0 1, 0)
    else if t > 1 then (clampScalar ((b - c) / a) 0 1, 1)
    else (s, t)

/-- rigidbody3d/Constraints/CollisionUtilities.cpp:43-119 `closestPointSegmentSegment`. For two points the program takes `c1 = p1` and `c2 = p2`, which is
what the last lines give for the parameters 0. -/
noncomputable def closestPointSegmentSegment (p1 q1 p2 q2 : Vec3) : SegmentPair :=
  let d1 := q1 - p1
  let d2 := q2 - p2
  let r := p1 - p2
  let st := segmentParameters (d1 ⬝ᵥ d1) (d1 ⬝ᵥ d2) (d1 ⬝ᵥ r) (d2 ⬝ᵥ d2) (d2 ⬝ᵥ r)
  let c1 := p1 + st.1 • d1
  let c2 := p2 + st.2 • d2
  ⟨st.1, st.2, c1, c2, (c1 - c2) ⬝ᵥ (c1 - c2)⟩

/-- `staple.points()[ k ]`; the four corners are always there (rigidbody3d/Geometry/RigidBodyStaple.cpp:72) -/
noncomputable def Staple.corner (s : Staple) (k : Nat) : Vec3 := s.corners.getD k 0

open Classical in
/-- rigidbody3d/Constraints/StapleStapleUtilities.cpp:26-58 `isActive` -/
noncomputable def stapleStapleIsActive (cm0 : Vec3) (R0 : Mat3) (s0 : Staple) (cm1 : Vec3) (R1 : Mat3) (s1 : Staple) : Bool :=
  (List.range 3).any fun e0 => (List.range 3).any fun e1 =>
    decide ((closestPointSegmentSegment (R0 *ᵥ s0.corner e0 + cm0) (R0 *ᵥ s0.corner (e0 + 1) + cm0)
      (R1 *ᵥ s1.corner e1 + cm1) (R1 *ᵥ s1.corner (e1 + 1) + cm1)).distSq ≤ (s0.r + s1.r) * (s0.r + s1.r))

/-- rigidbody3d/Constraints/StapleStapleUtilities.cpp:60-65 `computeConstraints`, which ends the program: the points and normals are never given -/
def stapleStapleConstraints (_cm0 : Vec3) (_R0 : Mat3) (_s0 : Staple) (_cm1 : Vec3) (_R1 : Mat3) (_s1 : Staple) : Outcome (List (Vec3 × Vec3)) := .exit

open Classical in
/-- rigidbody3d/Constraints/StapleStapleUtilities.cpp:158-173 `computeStapleHalfPlaneActiveSet` -/
noncomputable def stapleHalfPlaneActiveSet (cm : Vec3) (R : Mat3) (s : Staple) (x0 n : Vec3) : List Nat :=
  (List.range 4).filter fun i => decide (n ⬝ᵥ (R *ᵥ s.corner i + cm - x0) - s.r ≤ 0)

/-- rigidbody3d/Constraints/CollisionUtilities.cpp:28-41 `computeClosestPointToBox` -/
noncomputable def closestPointToBox (xb : Vec3) (Rb : Mat3) (wb p : Vec3) : Vec3 :=
  (List.finRange 3).foldl (fun acc i => acc + clampScalar (Rb.column i ⬝ᵥ (p - xb)) (-wb i) (wb i) • Rb.column i) xb

open Classical in
/-- rigidbody3d/Constraints/CollisionUtilities.cpp:121-156 `computeBoxSphereActiveSet`: the pairs of a point and a normal -/
noncomputable def boxSphereActiveSet (xb : Vec3) (Rb : Mat3) (wb xs : Vec3) (rs : ℝ) : Outcome (List (Vec3 × Vec3)) :=
  let closest := closestPointToBox xb Rb wb xs
  let distSq := squaredNorm3 (closest - xs)
  if distSq > rs * rs then .ok []
  else if distSq ≤ 1 / 1000000000 then .exit
  else .ok [(closest, (1 / Real.sqrt distSq) • (closest - xs))]

end Scisim
