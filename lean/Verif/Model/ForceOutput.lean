import Verif.Model.Maps
import Verif.Model.RigidContacts3D
/-!
# The files of contact forces

`ImpactFrictionMap::exportConstraintForcesToBinaryFile` and `ImpactSolution`, which write what the contacts of a step did, and the bases and the matrices `N`
and `D` that they have to agree with. Numbers are written as they are: rounding, and the layout of a data set (`Model/HDF5`), are not repeated here. Integers
are unbounded.
-/

namespace Scisim

open Matrix

namespace Forces

/-- What the functions below ask of a contact -/
structure View (V : Type) where
  /-- `getBodyIndices`; a second index -1 is `none` -/
  bodies : Outcome (Nat × Option Nat)
  /-- `getStaticObjectIndex` -/
  static : Outcome Nat
  /-- `getWorldSpaceContactPoint( q )` -/
  point : Outcome V
  /-- `getWorldSpaceContactNormal( q )` -/
  normal : Outcome V

/-- The data sets `collision_count`, `collision_indices`, `collision_points`, `collision_normals` and `collision_forces`; the last four are lists of columns
and are not in the file (`none`) when there is no contact. -/
structure File (V : Type) where
  count : Nat
  indices : Option (List (ℤ × ℤ))
  points : Option (List V)
  normals : Option (List V)
  forces : Option (List V)

/-- `getCollisionIndices`, scisim/ConstrainedMaps/ImpactFrictionMap.cpp:58-66; scisim/ConstrainedMaps/ImpactMaps/ImpactSolution.cpp:19-27 -/
def collisionIndices {V : Type} (c : View V) : Outcome (ℤ × ℤ) :=
  c.bodies.bind fun b =>
  match b.2 with
  | some j => .ok ((b.1 : ℤ), (j : ℤ))
  | none => c.static.bind fun k => .ok ((b.1 : ℤ), -(k : ℤ) - 2)

/-- The body of the loop in scisim/ConstrainedMaps/ImpactFrictionMap.cpp:141-158: the column of `collision_forces` for contact number `con` -/
def forceColumn {V : Type} [Add V] [SMul ℝ V] (dims : Nat) (bases : List V) (alpha beta : List ℝ) (con : Nat) : Outcome V :=
  (entry alpha con).bind fun a =>
  (entry bases (dims * con)).bind fun n =>
  (List.range (dims - 1)).foldl (fun acc s => acc.bind fun f =>
    (entry beta ((dims - 1) * con + s)).bind fun b =>
    (entry bases (dims * con + s + 1)).bind fun t => .ok (f + b • t)) (.ok (a • n))

/-- scisim/ConstrainedMaps/ImpactFrictionMap.cpp:68-163 `exportConstraintForcesToBinaryFile`; `dims` is the number of rows of `bases`, which is the list of
columns of `contact_bases`. The step size `dt` is a parameter that is not used. -/
def exportForces {V : Type} [Add V] [SMul ℝ V] (dims : Nat) (cons : List (View V)) (bases : List V) (alpha beta : List ℝ) (_dt : ℝ) : Outcome (File V) :=
  if cons.length = 0 then .ok ⟨0, none, none, none, none⟩
  else
    (forEach collisionIndices cons).bind fun indices =>
    (forEach (fun c => c.point) cons).bind fun points =>
    (forEach (fun con => entry bases (dims * con)) (List.range cons.length)).bind fun normals =>
    (forEach (forceColumn dims bases alpha beta) (List.range cons.length)).bind fun forces =>
    .ok ⟨cons.length, some indices, some points, some normals, some forces⟩

/-- `computeImpactBases`: ball2d/Ball2DSim.cpp:175-186, rigidbody2d/RigidBody2DSim.cpp:716-727, rigidbody3d/RigidBody3DSim.cpp:264-275 -/
def impactBases {V : Type} (cons : List (View V)) : Outcome (List V) := forEach (fun c => c.normal) cons

/-- scisim/ConstrainedMaps/ImpactMaps/ImpactSolution.cpp:29-73 `setSolution`, 75-99 `writeSolution`, with the normals from `computeImpactBases`, as called in
ImpactMap.cpp:171-181. For an empty list the columns are empty and not written (ImpactMap.cpp:64-74). -/
def exportImpacts {V : Type} [SMul ℝ V] (cons : List (View V)) (alpha : List ℝ) (_dt : ℝ) : Outcome (File V) :=
  if cons.length = 0 then .ok ⟨0, none, none, none, none⟩
  else
    (impactBases cons).bind fun normals =>
    (forEach collisionIndices cons).bind fun indices =>
    (forEach (fun c => c.point) cons).bind fun points =>
    (forEach (fun con => (entry alpha con).bind fun a => (entry normals con).bind fun n => .ok (a • n)) (List.range cons.length)).bind fun forces =>
    .ok ⟨cons.length, some indices, some points, some normals, some forces⟩

end Forces

open Forces

/-! ## 3D rigid bodies -/

namespace Contact3

/-- `getStaticObjectIndex`: StaticPlaneSphereConstraint.cpp:324-327, StaticPlaneBoxConstraint.cpp:312-315, StaticPlaneBodyConstraint.cpp:236-239,
StaticCylinderSphereConstraint.cpp:334-337 (all in rigidbody3d/Constraints); the others inherit scisim/Constraints/Constraint.cpp:209-213, which exits -/
def staticIndex : Contact3 → Outcome Nat
  | planeSphere _ _ _ k | planeBox _ _ _ k | planeBody _ _ _ k | cylinderSphere _ _ _ k => .ok k
  | bodyBody _ _ _ _ _ | sphereSphere _ _ _ _ _ _ | teleported _ _ _ _ _ | kinematicSphere _ _ _ _ _ _ _ _ | kinematicBody _ _ _ _ | cylinderBody _ _ _ => .exit

/-- What the output functions see of a contact in configuration `q` -/
noncomputable def view (q : Pose3) (c : Contact3) : View Vec3 := ⟨c.bodyIndices, c.staticIndex, c.contactPoint q, c.contactNormal q⟩

/-- rigidbody3d/RigidBody3DSim.cpp:277-290 `computeContactBases`: three columns for each contact -/
noncomputable def contactBases (nb : Nat) (q : Pose3) (v : Blocks3) (cs : List Contact3) : List Vec3 :=
  cs.flatMap fun c => [(c.basis nb q v).1, (c.basis nb q v).2.1, (c.basis nb q v).2.2]

/-- The file of a step with friction: the bases are those at the velocity `v` (`v0` in GeometricImpactFrictionMap.cpp:302-304, 430-438 and
SymplecticEulerImpactFrictionMap.cpp:276-277, 396-404; the predictor's velocity in StabilizedImpactFrictionMap.cpp:84-85, 170-178), the points those at `q` -/
noncomputable def exportForces (nb : Nat) (q : Pose3) (v : Blocks3) (cs : List Contact3) (alpha beta : List ℝ) (dt : ℝ) : Outcome (File Vec3) :=
  Forces.exportForces 3 (cs.map (view q)) (contactBases nb q v cs) alpha beta dt

/-- The file of a step without friction, ImpactMap.cpp:171-181 -/
noncomputable def exportImpacts (q : Pose3) (cs : List Contact3) (alpha : List ℝ) (dt : ℝ) : Outcome (File Vec3) :=
  Forces.exportImpacts (cs.map (view q)) alpha dt

/-- scisim/ConstrainedMaps/ImpactMaps/ImpactOperatorUtilities.cpp:11-48 `computeN` -/
noncomputable def computeN (nb : Nat) (q : Pose3) (cs : List Contact3) : Outcome (List Blocks3) :=
  forEach (fun c => (c.gradg nb q).bind fun g => .ok (column g)) cs

/-- scisim/ConstrainedMaps/FrictionMaps/FrictionOperator.cpp:14-56 `formGeneralizedSmoothFrictionBasis`: `nsamples` columns of `D` for each contact, for
the tangents among the columns of `bases` -/
noncomputable def smoothFrictionBasis (nb : Nat) (q : Pose3) (cs : List Contact3) (bases : List Vec3) : Outcome (List Blocks3) :=
  (forEach (fun (ci : Contact3 × Nat) => forEach (fun s => (entry bases (3 * ci.2 + s + 1)).bind fun t =>
    (ci.1.frictionColumn nb q t).bind fun g => .ok (column g)) (List.range 2)) cs.zipIdx).bind fun l => .ok l.flatten

/-- scisim/ConstrainedMaps/FrictionMaps/FrictionOperatorUtilities.cpp:45-60 `formGeneralizedFrictionBasis`: `num_samples` columns of `D` for each contact -/
noncomputable def linearFrictionBasis (nb : Nat) (q : Pose3) (v : Blocks3) (cs : List Contact3) (numSamples : Nat) : Outcome (List Blocks3) :=
  (forEach (fun c => (c.frictionDisk nb q v numSamples).bind fun l => .ok (l.map fun e => column e.1)) cs).bind fun l => .ok l.flatten

end Contact3

/-- A matrix, given by its columns, times a vector -/
noncomputable def mulColumns {ι V : Type} [Add V] [Zero V] [SMul ℝ V] (cols : List (ι → V)) (x : List ℝ) : ι → V := fun b =>
  (List.zipWith (fun (c : ι → V) a => a • c b) cols x).sum

/-! ## 2D rigid bodies -/

namespace Contact2

/-- `getBodyIndices`: BodyBodyConstraint.cpp:38-42, CircleCircleConstraint.cpp:96-100, TeleportedCircleCircleConstraint.cpp:64-68,
KinematicObjectCircleConstraint.cpp:51-55, StaticPlaneBodyConstraint.cpp:35-39, StaticPlaneCircleConstraint.cpp:57-61 (all in rigidbody2d) -/
def bodyIndices : Contact2 → Nat × Option Nat
  | bodyBody i j _ _ _ | circleCircle i j _ _ _ _ | teleported i j _ _ _ | kick i j _ _ _ _ => (i, some j)
  | kinematicCircle i _ _ k _ _ _ => (i, some k)
  | planeCircle i _ _ _ | planeBody i _ _ _ => (i, none)

/-- `getStaticObjectIndex`: rigidbody2d/StaticPlaneBodyConstraint.cpp:41-44, StaticPlaneCircleConstraint.cpp:175-178; the others inherit
scisim/Constraints/Constraint.cpp:209-213, which exits -/
def staticIndex : Contact2 → Outcome Nat
  | planeCircle _ k _ _ | planeBody _ _ _ k => .ok k
  | bodyBody _ _ _ _ _ | circleCircle _ _ _ _ _ _ | teleported _ _ _ _ _ | kick _ _ _ _ _ _ | kinematicCircle _ _ _ _ _ _ _ => .exit

/-- `getWorldSpaceContactNormal`: rigidbody2d/BodyBodyConstraint.cpp:141-144, CircleCircleConstraint.cpp:221-224, KinematicObjectCircleConstraint.cpp:163-166,
StaticPlaneBodyConstraint.cpp:137-140, StaticPlaneCircleConstraint.cpp:170-173; contacts through portals inherit scisim/Constraints/Constraint.cpp:203-207, which
exits -/
def contactNormal : Contact2 → Outcome (V2 ℝ)
  | teleported _ _ _ _ _ | kick _ _ _ _ _ _ => .exit
  | c => .ok c.normal

/-- What the output functions see of a contact in configuration `q` -/
noncomputable def view (q : Dofs) (c : Contact2) : View (V2 ℝ) := ⟨.ok c.bodyIndices, c.staticIndex, .ok (c.contactPoint q), c.contactNormal⟩

/-- rigidbody2d/RigidBody2DSim.cpp:729-742 `computeContactBases`: two columns for each contact -/
def contactBases (cs : List Contact2) : List (V2 ℝ) := cs.flatMap fun c => [c.normal, c.tangent]

/-- The file of a step with friction -/
noncomputable def exportForces (q : Dofs) (cs : List Contact2) (alpha beta : List ℝ) (dt : ℝ) : Outcome (File (V2 ℝ)) :=
  Forces.exportForces 2 (cs.map (view q)) (contactBases cs) alpha beta dt

/-- The file of a step without friction -/
noncomputable def exportImpacts (q : Dofs) (cs : List Contact2) (alpha : List ℝ) (dt : ℝ) : Outcome (File (V2 ℝ)) :=
  Forces.exportImpacts (cs.map (view q)) alpha dt

end Contact2

/-! ## 2D balls -/

namespace Contact

/-- `getSimulatedBodyIndices`, `getBodyIndices`: ball2d/Constraints/BallBallConstraint.cpp:151-160, BallStaticDrumConstraint.cpp:110-119,
BallStaticPlaneConstraint.cpp:109-118 -/
def bodies : Contact → Nat × Option Nat
  | ballBall c => (c.idx0, some c.idx1)
  | drum i _ _ | plane i _ _ => (i, none)

/-- `getStaticObjectIndex`: ball2d/Constraints/BallStaticDrumConstraint.cpp:178-181, BallStaticPlaneConstraint.cpp:181-184; `BallBallConstraint` inherits
scisim/Constraints/Constraint.cpp:209-213, which exits -/
def staticIndex : Contact → Outcome Nat
  | ballBall _ => .exit
  | drum _ _ k | plane _ _ k => .ok k

/-- `getWorldSpaceContactNormal`, and the first column of `computeContactBasis`: ball2d/Constraints/BallBallConstraint.cpp:224-227, 244-253,
BallStaticDrumConstraint.cpp:173-176, 193-202, BallStaticPlaneConstraint.cpp:176-179, 196-205 -/
def normal : Contact → V2 ℝ
  | ballBall c => c.n
  | drum _ n _ | plane _ n _ => n

/-- the second column of `computeContactBasis` -/
def tangent (c : Contact) : V2 ℝ := ⟨-c.normal.y, c.normal.x⟩

/-- The radius that a contact stores of its first ball: it is passed the ball's radius when it is made (ball2d/Ball2DSim.cpp:602, 741, 758) -/
def radius (bs : List BallStep) : Contact → Outcome ℝ
  | ballBall c => .ok c.r0
  | drum i _ _ | plane i _ _ =>
    match bs[i]? with
    | some b => .ok b.r
    | none => .ub

/-- `getWorldSpaceContactPoint`: ball2d/Constraints/BallBallConstraint.cpp:219-222, BallStaticDrumConstraint.cpp:168-171, BallStaticPlaneConstraint.cpp:171-174,
at the start of the step -/
noncomputable def point (bs : List BallStep) (c : Contact) : Outcome (V2 ℝ) :=
  match bs[c.bodies.1]? with
  | some b => (c.radius bs).bind fun r => .ok (b.q0 - r • c.normal)
  | none => .ub

/-- What the output functions see of a contact -/
noncomputable def view (bs : List BallStep) (c : Contact) : View (V2 ℝ) := ⟨.ok c.bodies, c.staticIndex, c.point bs, .ok c.normal⟩

/-- ball2d/Ball2DSim.cpp:188-202 `computeContactBases`: two columns for each contact -/
def contactBases (cs : List Contact) : List (V2 ℝ) := cs.flatMap fun c => [c.normal, c.tangent]

/-- The file of a step with friction -/
noncomputable def exportForces (bs : List BallStep) (cs : List Contact) (alpha beta : List ℝ) (dt : ℝ) : Outcome (File (V2 ℝ)) :=
  Forces.exportForces 2 (cs.map (view bs)) (contactBases cs) alpha beta dt

/-- The file of a step without friction -/
noncomputable def exportImpacts (bs : List BallStep) (cs : List Contact) (alpha : List ℝ) (dt : ℝ) : Outcome (File (V2 ℝ)) :=
  Forces.exportImpacts (cs.map (view bs)) alpha dt

/-- The column that a contact writes for a direction `t`: `evalgradg` (with the normal) and `computeGeneralizedFrictionGivenTangentSample`.
ball2d/Constraints/BallBallConstraint.cpp:88-100, 126-140, BallStaticDrumConstraint.cpp:59-66, 89-98, BallStaticPlaneConstraint.cpp:65-74, 89-97. Entries are
given by ball. -/
noncomputable def column (t : V2 ℝ) : Contact → Nat → V2 ℝ
  | ballBall c, b => if b = c.idx1 then -t else if b = c.idx0 then t else 0
  | drum i _ _, b | plane i _ _, b => if b = i then t else 0

/-- `computeN` and `formGeneralizedSmoothFrictionBasis` (see `Contact3`): one column of each for a contact -/
noncomputable def computeN (cs : List Contact) : List (Nat → V2 ℝ) := cs.map fun c => c.column c.normal

/-- see `computeN` -/
noncomputable def smoothFrictionBasis (cs : List Contact) : List (Nat → V2 ℝ) := cs.map fun c => c.column c.tangent

end Contact

end Scisim
