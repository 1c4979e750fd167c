import Verif.Model.BallContacts
import Verif.Model.RigidContacts3D
/-!
# Collision statistics

`computeNumberOfCollisions` of the 2D ball simulation and of the 3D rigid body simulation, which the command line programs use to warn about initial
collisions: for each name of a kind of contact, the number of contacts, their total penetration depth and their total overlap volume. `none` as a depth or a
volume is NaN. The `unsigned` counts are natural numbers. A `std::map` from names is a function.
-/

namespace Scisim

/-- `+=` of scalars that can be NaN -/
noncomputable def addNaN (a b : Option ℝ) : Option ℝ :=
  match a, b with
  | some x, some y => some (x + y)
  | _, _ => none

/-- `find`, `insert` with the value 0 if there is no entry, and then `+=`; the blocks of rigidbody3d/RigidBody3DSim.cpp:324-360 and of
ball2d/Ball2DSim.cpp:234-255 -/
def addToEntry {β : Type} (add : β → β → β) (zero : β) (m : String → Option β) (name : String) (x : β) : String → Option β := fun k =>
  if k = name then
    match m name with
    | none => some (add zero x)
    | some y => some (add y x)
  else m k

/-- The results: `collision_counts`, `collision_depths`, `overlap_volumes` (the last is not computed for balls) -/
structure CollisionStats where
  counts : String → Option Nat
  depths : String → Option (Option ℝ)
  volumes : String → Option (Option ℝ)

/-- The three maps after `clear()` -/
def CollisionStats.empty : CollisionStats := ⟨fun _ => none, fun _ => none, fun _ => none⟩

/-- The body of the loop, rigidbody3d/RigidBody3DSim.cpp:319-361, and ball2d/Ball2DSim.cpp:229-256 without the volumes -/
noncomputable def CollisionStats.add (s : CollisionStats) (name : String) (depth volume : Option ℝ) : CollisionStats where
  counts := addToEntry (· + ·) 0 s.counts name 1
  depths := addToEntry addNaN (some 0) s.depths name depth
  volumes := addToEntry addNaN (some 0) s.volumes name volume

/-- `name`: BodyBodyConstraint.cpp:250-253, SphereSphereConstraint.cpp:318-321, TeleportedSphereSphereConstraint.cpp:222-225,
KinematicObjectSphereConstraint.cpp:142-145 and 251-254 (`KinematicSphereSphereConstraint`), KinematicObjectBodyConstraint.cpp:149-152,
StaticPlaneSphereConstraint.cpp:240-243, StaticPlaneBoxConstraint.cpp:245-248, StaticPlaneBodyConstraint.cpp:221-224,
StaticCylinderSphereConstraint.cpp:232-235, StaticCylinderBodyConstraint.cpp:79-82, all in rigidbody3d/Constraints -/
def Contact3.name : Contact3 → String
  | bodyBody _ _ _ _ _ => "body_body"
  | sphereSphere _ _ _ _ _ _ => "sphere_sphere"
  | teleported _ _ _ _ _ => "teleported_sphere_sphere"
  | kinematicSphere _ _ _ _ _ _ _ none => "kinematic_object_sphere"
  | kinematicSphere _ _ _ _ _ _ _ (some _) => "kinematic_sphere_sphere"
  | kinematicBody _ _ _ _ => "kinematic_object_body"
  | planeSphere _ _ _ _ => "static_plane_sphere"
  | planeBox _ _ _ _ => "static_plane_box"
  | planeBody _ _ _ _ => "static_plane_body"
  | cylinderSphere _ _ _ _ => "static_cylinder_sphere"
  | cylinderBody _ _ _ => "static_cylinder_body"

/-- rigidbody3d/RigidBody3DSim.cpp:312-362 `computeNumberOfCollisions`, for bodies in configuration `q` -/
noncomputable def computeNumberOfCollisions3 (axis : Vec3 → Vec3 → Vec3) (bodies : List SceneBody3) (planes : List Plane3)
    (cylinders : List Cylinder3) (portals : List Portal3) (q : Pose3) : Outcome CollisionStats :=
  (Step3.computeActiveSet3 axis ⟨bodies, planes, cylinders, q, q⟩ portals).bind fun cs =>
  .ok (cs.foldl (fun st c => st.add c.name (c.penetrationDepth q) (c.overlapVolume q)) .empty)

/-- One ball of the state: position, radius, and the `fixed` flag -/
structure BallAt where
  x : V2 ℝ
  r : ℝ
  fixed : Bool

/-- The step from a state to itself, as in `computeActiveSet( m_state.q(), m_state.q(), ... )` -/
def BallAt.still (b : BallAt) : BallStep := ⟨b.x, b.x, b.r, b.fixed⟩

/-- `name`: ball2d/Constraints/BallBallConstraint.cpp:207-217, KinematicKickBallBallConstraint.cpp:28-38, BallStaticDrumConstraint.cpp:163-166,
BallStaticPlaneConstraint.cpp:166-169 -/
def Contact.name : Contact → String
  | ballBall c =>
    match c.kick with
    | none => if c.teleported then "teleported_ball_ball" else "ball_ball"
    | some _ => if c.teleported then "teleported_kinematic_kick_ball_ball" else "kinematic_kick_ball_ball"
  | drum _ _ _ => "static_drum_constraint"
  | plane _ _ _ => "static_plane_constraint"

/-- `computePenetrationDepth`: ball2d/Constraints/BallBallConstraint.cpp:270-280, KinematicKickBallBallConstraint.cpp:46-56,
BallStaticPlaneConstraint.cpp:220-223; contacts with drums inherit scisim/Constraints/Constraint.cpp:233-236, NaN. A contact with a plane stores copies of the
plane and of the radius of the ball; here they are looked up. -/
noncomputable def Contact.penetrationDepth (bs : List BallAt) (planes : List (HalfPlane ℝ)) : Contact → Option ℝ
  | ballBall c =>
    if c.teleported then none
    else match bs[c.idx0]?, bs[c.idx1]? with
      | some a, some b => some (min 0 (√(a.x - b.x).normSq - (c.r0 + c.r1)))
      | _, _ => none
  | drum _ _ _ => none
  | plane i _ k =>
    match bs[i]?, planes[k]? with
    | some b, some p => some (min 0 (p.n.dot (b.x - p.x) - b.r))
    | _, _ => none

/-- ball2d/Ball2DSim.cpp:223-257 `computeNumberOfCollisions`; the volumes are not computed -/
noncomputable def computeNumberOfCollisionsBall (junk : ℝ → ℤ) (bs : List BallAt) (planes : List (HalfPlane ℝ)) (drums : List Drum)
    (portals : List (PlanarPortal ℝ)) : Outcome CollisionStats :=
  (computeActiveSet junk (bs.map BallAt.still) planes drums portals).bind fun cs =>
  .ok (cs.foldl (fun st c => st.add c.name (c.penetrationDepth bs planes) none) .empty)

end Scisim
