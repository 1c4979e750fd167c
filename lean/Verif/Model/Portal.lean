import Verif.Model.Vec2
import Mathlib.Algebra.Order.Floor.Ring
/-!
# Planes and portals (periodic and Lees–Edwards boundaries)

`ball2d/Portals/PlanarPortal.cpp` and `ball2d/StaticGeometry/StaticPlane.cpp`; `rigidbody2d/PlanarPortal.cpp` and
`rigidbody2d/RigidBody2DStaticPlane.cpp` contain the same functions. Scalars are exact.

The code divides by the period `2.0 * m_bounds` and converts the result to `int`. For a static portal `m_bounds` is zero, so the value
converted is an infinity or NaN and the conversion is undefined in C++; on real machines it yields some `int`. The model takes
an arbitrary function `junk` for it, and the theorems hold for every such function. The range of `int` is not modelled.
-/

namespace Scisim

/-- `StaticPlane`, ball2d/StaticGeometry/StaticPlane.h (`RigidBody2DStaticPlane`) -/
structure HalfPlane (K : Type) where
  x : V2 K
  v : V2 K
  n : V2 K
  t : V2 K
deriving DecidableEq

/-- `PlanarPortal`, ball2d/Portals/PlanarPortal.h:86-150 (`rigidbody2d/PlanarPortal.h`) -/
structure PlanarPortal (K : Type) where
  planeA : HalfPlane K
  planeB : HalfPlane K
  v : K
  bounds : K
  dx : K
deriving DecidableEq

variable {K : Type} [Field K] [LinearOrder K]

/-- ball2d/StaticGeometry/StaticPlane.cpp:71-74 `distanceLessThanZero` -/
def HalfPlane.distanceLessThanZero (p : HalfPlane K) (x : V2 K) : Bool := decide (p.n.dot (x - p.x) < 0)

/-- ball2d/StaticGeometry/StaticPlane.cpp:76-79 `distanceLessThanOrEqualZero` -/
def HalfPlane.distanceLessThanOrEqualZero (p : HalfPlane K) (x : V2 K) (r : K) : Bool := decide (p.n.dot (x - p.x) ≤ r)

namespace PlanarPortal

/-- ball2d/Portals/PlanarPortal.cpp:239-242 `isLeesEdwards` -/
def isLeesEdwards (p : PlanarPortal K) : Bool := decide (p.v ≠ 0)

/-- ball2d/Portals/PlanarPortal.cpp:103-106 `pointInsidePortal` -/
def pointInsidePortal (p : PlanarPortal K) (x : V2 K) : Bool :=
  p.planeA.distanceLessThanZero x || p.planeB.distanceLessThanZero x

/-- ball2d/Portals/PlanarPortal.cpp:176-188 `getKinematicVelocityOfPoint` -/
def getKinematicVelocityOfPoint (p : PlanarPortal K) (x : V2 K) : V2 K :=
  if p.planeA.distanceLessThanZero x then (-p.v) • p.planeA.t else (-p.v) • p.planeB.t

/-- ball2d/Portals/PlanarPortal.cpp:162-174 `getKinematicVelocityOfBall` -/
def getKinematicVelocityOfBall (p : PlanarPortal K) (x : V2 K) (r : K) : V2 K :=
  if p.planeA.distanceLessThanOrEqualZero x r then (-p.v) • p.planeA.t else (-p.v) • p.planeB.t

variable [FloorRing K]

/-- `int( floor( ( s + m_bounds ) / ( 2.0 * m_bounds ) ) )`, ball2d/Portals/PlanarPortal.cpp:197, 213, 234 -/
def repeatX (junk : K → ℤ) (s bounds : K) : ℤ := if bounds = 0 then junk s else ⌊(s + bounds) / (2 * bounds)⌋

/-- ball2d/Portals/PlanarPortal.cpp:190-204 `teleportPointThroughPlaneA` -/
def teleportPointThroughPlaneA (junk : K → ℤ) (p : PlanarPortal K) (xin : V2 K) : V2 K :=
  let nA := p.planeA.n.dot (p.planeA.x - xin)
  let tA := p.planeA.t.dot (p.dx • p.planeA.t + p.planeA.x - xin)
  let tA' := tA - 2 * repeatX junk tA p.bounds * p.bounds
  p.planeB.x + nA • p.planeB.n + tA' • p.planeB.t

/-- ball2d/Portals/PlanarPortal.cpp:206-220 `teleportPointThroughPlaneB` -/
def teleportPointThroughPlaneB (junk : K → ℤ) (p : PlanarPortal K) (xin : V2 K) : V2 K :=
  let nB := p.planeB.n.dot (p.planeB.x - xin)
  let tB := p.planeB.t.dot (p.dx • p.planeB.t + p.planeB.x - xin)
  let tB' := tB - 2 * repeatX junk tB p.bounds * p.bounds
  p.planeA.x + nB • p.planeA.n + tB' • p.planeA.t

/-- ball2d/Portals/PlanarPortal.cpp:130-144 `teleportPointInsidePortal` -/
def teleportPointInsidePortal (junk : K → ℤ) (p : PlanarPortal K) (xin : V2 K) : V2 K :=
  if p.planeA.distanceLessThanZero xin then p.teleportPointThroughPlaneA junk xin else p.teleportPointThroughPlaneB junk xin

/-- ball2d/Portals/PlanarPortal.cpp:146-160 `teleportBall` -/
def teleportBall (junk : K → ℤ) (p : PlanarPortal K) (xin : V2 K) (r : K) : V2 K :=
  if p.planeA.distanceLessThanOrEqualZero xin r then p.teleportPointThroughPlaneA junk xin
  else p.teleportPointThroughPlaneB junk xin

/-- ball2d/Portals/PlanarPortal.cpp:232-237 `updateMovingPortals` -/
def updateMovingPortals (junk : K → ℤ) (p : PlanarPortal K) (t : K) : PlanarPortal K :=
  { p with dx := p.v * t - 2 * repeatX junk (p.v * t) p.bounds * p.bounds }

end PlanarPortal

variable [FloorRing K]

/-- Position and velocity of one body. -/
structure Body (K : Type) where
  q : V2 K
  v : V2 K
deriving DecidableEq

/-- ball2d/Ball2DSim.cpp:347-363: one body and one portal -/
def enforceOne (junk : K → ℤ) (p : PlanarPortal K) (b : Body K) : Body K :=
  if p.pointInsidePortal b.q then
    { q := p.teleportPointInsidePortal junk b.q
      v := if p.isLeesEdwards then b.v + p.getKinematicVelocityOfPoint b.q else b.v }
  else b

/-- ball2d/Ball2DSim.cpp:337-366 (rigidbody2d/RigidBody2DSim.cpp:842-875) `enforcePeriodicBoundaryConditions`; in the rigid body code the
angle and the angular velocity are left alone. -/
def enforcePeriodicBoundaryConditions (junk : K → ℤ) (portals : List (PlanarPortal K)) (bodies : List (Body K)) : List (Body K) :=
  portals.foldl (fun bodies p => bodies.map (enforceOne junk p)) bodies

/-- ball2d/Ball2DSim.cpp:328-335 `updatePeriodicBoundaryConditionsStartOfStep` -/
def updatePeriodicBoundaryConditionsStartOfStep (junk : K → ℤ) (iteration : Nat) (dt : K) (portals : List (PlanarPortal K)) :
    List (PlanarPortal K) :=
  portals.map fun p => p.updateMovingPortals junk (iteration * dt)

end Scisim
