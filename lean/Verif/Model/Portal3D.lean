import Verif.Model.Maps
/-!
# Planes and portals in three dimensions

`rigidbody3d/Portals/PlanarPortal.cpp`, `rigidbody3d/StaticGeometry/StaticPlane.cpp` and the part of `rigidbody3d/RigidBody3DSim.cpp` that enforces periodic
boundary conditions. Scalars are real numbers.
-/

namespace Scisim

open Matrix

/-- `StaticPlane`, rigidbody3d/StaticGeometry/StaticPlane.h -/
structure Plane3 where
  x : Vec3
  n : Vec3
  v : Vec3
  omega : Vec3

namespace Plane3

/-- `StaticPlane::StaticPlane`, rigidbody3d/StaticGeometry/StaticPlane.cpp:10-15 -/
noncomputable def make (x n : Vec3) : Plane3 := ⟨x, normalized3 n, 0, 0⟩

/-- `StaticPlane::distanceToPoint`, rigidbody3d/StaticGeometry/StaticPlane.cpp:24-27 -/
def distanceToPoint (p : Plane3) (x : Vec3) : ℝ := p.n ⬝ᵥ (x - p.x)

/-- `StaticPlane::t0`, rigidbody3d/StaticGeometry/StaticPlane.cpp:58-61. `axis` is the choice of Eigen for opposite vectors, see `Quat.fromTwoVectors`. -/
noncomputable def t0 (axis : Vec3 → Vec3 → Vec3) (p : Plane3) : Vec3 := (Quat.fromTwoVectors axis ![0, 1, 0] p.n).rotate ![1, 0, 0]

/-- `StaticPlane::t1`, rigidbody3d/StaticGeometry/StaticPlane.cpp:63-66 -/
noncomputable def t1 (axis : Vec3 → Vec3 → Vec3) (p : Plane3) : Vec3 := (Quat.fromTwoVectors axis ![0, 1, 0] p.n).rotate ![0, 0, 1]

end Plane3

/-- `PlanarPortal`, rigidbody3d/Portals/PlanarPortal.h: the planes and `m_portal_multiplier` -/
structure Portal3 where
  planeA : Plane3
  planeB : Plane3
  m : Fin 3 → ℤ

namespace Portal3

variable (axis : Vec3 → Vec3 → Vec3)

/-- The body of `teleportPointThroughPlaneA`, rigidbody3d/Portals/PlanarPortal.cpp:186-194, from one plane to another; 196-204,
`teleportPointThroughPlaneB`, is the same with the planes exchanged. -/
noncomputable def through (m : Fin 3 → ℤ) (a b : Plane3) (xin : Vec3) : Vec3 :=
  let nA := (m 0 : ℝ) * (a.n ⬝ᵥ (a.x - xin))
  let tA0 := (m 1 : ℝ) * (a.t0 axis ⬝ᵥ (a.x - xin))
  let tA1 := (m 2 : ℝ) * (a.t1 axis ⬝ᵥ (a.x - xin))
  b.x + nA • b.n + tA0 • b.t0 axis + tA1 • b.t1 axis

/-- `teleportPointThroughPlaneA`, rigidbody3d/Portals/PlanarPortal.cpp:186-194 -/
noncomputable def teleportPointThroughPlaneA (p : Portal3) (xin : Vec3) : Vec3 := through axis p.m p.planeA p.planeB xin

/-- `teleportPointThroughPlaneB`, rigidbody3d/Portals/PlanarPortal.cpp:196-204 -/
noncomputable def teleportPointThroughPlaneB (p : Portal3) (xin : Vec3) : Vec3 := through axis p.m p.planeB p.planeA xin

/-- `teleportPoint`, rigidbody3d/Portals/PlanarPortal.cpp:172-184; `true` is plane B -/
noncomputable def teleportPoint (p : Portal3) (xin : Vec3) (plane : Bool) : Vec3 :=
  if plane = false then p.teleportPointThroughPlaneA axis xin else p.teleportPointThroughPlaneB axis xin

open Classical in
/-- `teleportPointInsidePortal`, rigidbody3d/Portals/PlanarPortal.cpp:155-170 -/
noncomputable def teleportPointInsidePortal (p : Portal3) (xin : Vec3) : Vec3 :=
  if p.planeA.distanceToPoint xin < 0 then p.teleportPointThroughPlaneA axis xin else p.teleportPointThroughPlaneB axis xin

/-- `pointInsidePortal`, rigidbody3d/Portals/PlanarPortal.cpp:109-112 -/
def pointInsidePortal (p : Portal3) (x : Vec3) : Prop := p.planeA.distanceToPoint x < 0 ∨ p.planeB.distanceToPoint x < 0

/-- `aabbInHalfPlane`, rigidbody3d/Portals/PlanarPortal.cpp:114-126 -/
def aabbInHalfPlane (lo hi : Vec3) (p : Plane3) : Prop :=
  p.distanceToPoint ![lo 0, lo 1, lo 2] ≤ 0 ∨ p.distanceToPoint ![lo 0, lo 1, hi 2] ≤ 0 ∨
  p.distanceToPoint ![lo 0, hi 1, lo 2] ≤ 0 ∨ p.distanceToPoint ![lo 0, hi 1, hi 2] ≤ 0 ∨
  p.distanceToPoint ![hi 0, lo 1, lo 2] ≤ 0 ∨ p.distanceToPoint ![hi 0, lo 1, hi 2] ≤ 0 ∨
  p.distanceToPoint ![hi 0, hi 1, lo 2] ≤ 0 ∨ p.distanceToPoint ![hi 0, hi 1, hi 2] ≤ 0

open Classical in
/-- `aabbTouchesPortal`, rigidbody3d/Portals/PlanarPortal.cpp:128-153: the plane, if any; `true` is plane B. The check of debug builds is not modelled. -/
noncomputable def aabbTouchesPortal (p : Portal3) (lo hi : Vec3) : Option Bool :=
  if aabbInHalfPlane lo hi p.planeA then some false
  else if aabbInHalfPlane lo hi p.planeB then some true
  else none

end Portal3

/-- The state of one rigid body: the parts of `q` and `v` that belong to it -/
structure Body3 where
  x : Vec3
  R : Mat3
  v : Vec3
  omega : Vec3

open Classical in
/-- One body and one portal, rigidbody3d/RigidBody3DSim.cpp:652-660 -/
noncomputable def enforceOne3 (axis : Vec3 → Vec3 → Vec3) (p : Portal3) (b : Body3) : Body3 :=
  if p.pointInsidePortal b.x then { b with x := p.teleportPointInsidePortal axis b.x } else b

/-- `RigidBody3DSim::enforcePeriodicBoundaryConditions`, rigidbody3d/RigidBody3DSim.cpp:642-663 -/
noncomputable def enforcePeriodicBoundaryConditions3 (axis : Vec3 → Vec3 → Vec3) (portals : List Portal3) (bodies : List Body3) : List Body3 :=
  portals.foldl (fun bodies p => bodies.map (enforceOne3 axis p)) bodies

/-- The test of a multiplier in rigidbody3dutils/RigidBody3DSceneParser.cpp:645: the scene is rejected if it holds -/
def multiplierRejected (m : Fin 3 → ℤ) : Bool := decide (∃ i, m i < -1) || decide (∃ i, m i = 0) || decide (∃ i, m i > 1)

end Scisim
