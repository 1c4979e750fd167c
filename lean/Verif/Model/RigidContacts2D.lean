import Verif.Model.BallContacts
import Verif.Model.Geometry2D
/-!
# Contacts of the 2D rigid body simulation

The contact classes in `rigidbody2d/*Constraint.cpp` and the code of `rigidbody2d/RigidBody2DSim.cpp:178-714, 877-1100` that creates them, without the
debug-only checks. Scalars are real numbers. The flat vectors `q`, `v` are functions of the index of a degree of freedom: body `i` has the entries
`3 * i`, `3 * i + 1` (centre) and `3 * i + 2` (angle). That indices are in range is not modelled: the indices come from loops over the bodies.
-/

namespace Scisim

/-- `VectorXs` of positions, velocities or impulses -/
abbrev Dofs := Nat → ℝ

/-- `q.segment<2>( 3 * i )` -/
def seg2 (q : Dofs) (i : Nat) : V2 ℝ := ⟨q (3 * i), q (3 * i + 1)⟩

/-- `q( 3 * i + 2 )` -/
def ang2 (q : Dofs) (i : Nat) : ℝ := q (3 * i + 2)

/-- `G.insert( row, col ) = x` for one column `G` -/
def insertRow (G : Dofs) (row : Nat) (x : ℝ) : Dofs := fun k => if k = row then x else G k

/-- `RigidBody2DStaticPlane`, rigidbody2d/RigidBody2DStaticPlane.h; the tangent is not stored here -/
structure Plane2 where
  x : V2 ℝ
  n : V2 ℝ
  v : V2 ℝ
  omega : ℝ

/-- The contacts of the 2D rigid body simulation, with the fields that the modelled functions use.
* `bodyBody`: rigidbody2d/BodyBodyConstraint.h
* `circleCircle`: rigidbody2d/CircleCircleConstraint.h
* `teleported`: rigidbody2d/TeleportedCircleCircleConstraint.h
* `kick`: rigidbody2d/KinematicKickCircleCircleConstraint.h, which extends the previous one
* `kinematicCircle`: rigidbody2d/KinematicObjectCircleConstraint.h
* `planeCircle`: rigidbody2d/StaticPlaneCircleConstraint.h
* `planeBody`: rigidbody2d/StaticPlaneBodyConstraint.h -/
inductive Contact2 where
  | bodyBody (i j : Nat) (n r0 r1 : V2 ℝ)
  | circleCircle (i j : Nat) (n p : V2 ℝ) (ra rb : ℝ)
  | teleported (i j : Nat) (n r0 r1 : V2 ℝ)
  | kick (i j : Nat) (n r0 r1 : V2 ℝ) (kick : V2 ℝ)
  | kinematicCircle (i : Nat) (r : ℝ) (n : V2 ℝ) (k : Nat) (x v : V2 ℝ) (omega : ℝ)
  | planeCircle (i plane : Nat) (r : ℝ) (p : Plane2)
  | planeBody (i : Nat) (arm : V2 ℝ) (p : Plane2) (plane : Nat)

namespace Contact2

/-- the constructor in rigidbody2d/BodyBodyConstraint.cpp:10-20 -/
noncomputable def mkBodyBody (i j : Nat) (p n : V2 ℝ) (q : Dofs) : Contact2 := .bodyBody i j n (p - seg2 q i) (p - seg2 q j)

/-- the stored normal and arms, rigidbody2d/TeleportedCircleCircleConstraint.cpp:10-27 -/
noncomputable def mkTeleported (i j : Nat) (x0 x1 : V2 ℝ) (r0 r1 : ℝ) : Contact2 :=
  .teleported i j (x0 - x1).normalized ((r0 / (r0 + r1)) • (x1 - x0)) ((r0 / (r0 + r1) - 1) • (x1 - x0))

/-- rigidbody2d/KinematicKickCircleCircleConstraint.cpp:13-16 -/
noncomputable def mkKick (i j : Nat) (x0 x1 : V2 ℝ) (r0 r1 : ℝ) (k : V2 ℝ) : Contact2 :=
  .kick i j (x0 - x1).normalized ((r0 / (r0 + r1)) • (x1 - x0)) ((r0 / (r0 + r1) - 1) • (x1 - x0)) k

/-- `getWorldSpaceContactPoint`: BodyBodyConstraint.cpp:132-139, CircleCircleConstraint.cpp:216-219, TeleportedCircleCircleConstraint.cpp:155-158,
KinematicObjectCircleConstraint.cpp:158-161, StaticPlaneCircleConstraint.cpp:165-168, StaticPlaneBodyConstraint.cpp:132-135 -/
noncomputable def contactPoint : Contact2 → Dofs → V2 ℝ
  | bodyBody i _ _ r0 _, q => r0 + seg2 q i
  | circleCircle _ _ _ p _ _, _ => p
  | teleported i _ _ r0 _, q | kick i _ _ r0 _ _, q => seg2 q i + r0
  | kinematicCircle i r n _ _ _ _, q => seg2 q i - r • n
  | planeCircle i _ r p, q => seg2 q i - r • p.n
  | planeBody i arm _ _, q => seg2 q i + (rotation2D (ang2 q i)).mulVec arm

/-- the normal, the first column of `computeContactBasis`: BodyBodyConstraint.cpp:73-81, CircleCircleConstraint.cpp:143-151,
TeleportedCircleCircleConstraint.cpp:127-135, KinematicObjectCircleConstraint.cpp:92-100, StaticPlaneCircleConstraint.cpp:122-132,
StaticPlaneBodyConstraint.cpp:99-108. The second column is `{ -n.y(), n.x() }`. -/
def normal : Contact2 → V2 ℝ
  | bodyBody _ _ n _ _ | circleCircle _ _ n _ _ _ | teleported _ _ n _ _ | kick _ _ n _ _ _ | kinematicCircle _ _ n _ _ _ _ => n
  | planeCircle _ _ _ p | planeBody _ _ p _ => p.n

/-- the second column of `computeContactBasis` -/
def tangent (c : Contact2) : V2 ℝ := ⟨-c.normal.y, c.normal.x⟩

/-- `getSimulatedBodyIndices`; a second index -1 is `none`. BodyBodyConstraint.cpp:32-36, CircleCircleConstraint.cpp:90-94,
TeleportedCircleCircleConstraint.cpp:58-62, KinematicObjectCircleConstraint.cpp:45-49, StaticPlaneCircleConstraint.cpp:51-55,
StaticPlaneBodyConstraint.cpp:29-33 -/
def simulatedBodies : Contact2 → Nat × Option Nat
  | bodyBody i j _ _ _ | circleCircle i j _ _ _ _ | teleported i j _ _ _ | kick i j _ _ _ _ => (i, some j)
  | kinematicCircle i _ _ _ _ _ _ | planeCircle i _ _ _ | planeBody i _ _ _ => (i, none)

/-- `computeKinematicCollisionPointVelocity`, KinematicObjectCircleConstraint.cpp:122-130, and `computePlaneCollisionPointVelocity`,
StaticPlaneCircleConstraint.cpp:112-120: velocity `v + omega` times the arm from `x`, turned by a quarter turn -/
noncomputable def movingPointVelocity (x v : V2 ℝ) (omega : ℝ) (contact : V2 ℝ) : V2 ℝ := v + omega • (contact - x).perp

/-- `computeKinematicRelativeVelocity`: BodyBodyConstraint.cpp:126-130, CircleCircleConstraint.cpp:210-214, TeleportedCircleCircleConstraint.cpp:184-188,
KinematicKickCircleCircleConstraint.cpp:57-60, KinematicObjectCircleConstraint.cpp:153-156, StaticPlaneCircleConstraint.cpp:160-163,
StaticPlaneBodyConstraint.cpp:127-130 (whose plane is taken to be at rest, lines 91-97) -/
noncomputable def kinematicRelVel : Contact2 → Dofs → V2 ℝ
  | bodyBody _ _ _ _ _, _ | circleCircle _ _ _ _ _ _, _ | teleported _ _ _ _ _, _ => 0
  | kick _ _ _ _ _ k, _ => k
  | kinematicCircle i r n k x v omega, q => movingPointVelocity x v omega ((kinematicCircle i r n k x v omega).contactPoint q)
  | planeCircle i k r p, q => movingPointVelocity p.x p.v p.omega ((planeCircle i k r p).contactPoint q)
  | planeBody _ _ _ _, _ => 0

/-- `computeRelativeVelocity`: BodyBodyConstraint.cpp:103-114, CircleCircleConstraint.cpp:173-193, TeleportedCircleCircleConstraint.cpp:137-153,
KinematicKickCircleCircleConstraint.cpp:39-55, KinematicObjectCircleConstraint.cpp:132-146, StaticPlaneCircleConstraint.cpp:134-147,
StaticPlaneBodyConstraint.cpp:110-120 -/
noncomputable def relVel : Contact2 → Dofs → Dofs → V2 ℝ
  | bodyBody i j _ r0 r1, _, v | teleported i j _ r0 r1, _, v =>
    seg2 v i + ang2 v i • (⟨-r0.y, r0.x⟩ : V2 ℝ) - seg2 v j - ang2 v j • (⟨-r1.y, r1.x⟩ : V2 ℝ)
  | circleCircle i j _ p _ _, q, v =>
    let r0 := p - seg2 q i
    let r1 := p - seg2 q j
    seg2 v i + ang2 v i • (⟨-r0.y, r0.x⟩ : V2 ℝ) - seg2 v j - ang2 v j • (⟨-r1.y, r1.x⟩ : V2 ℝ)
  | kick i j _ r0 r1 k, _, v =>
    seg2 v i + ang2 v i • (⟨-r0.y, r0.x⟩ : V2 ℝ) - seg2 v j - ang2 v j • (⟨-r1.y, r1.x⟩ : V2 ℝ) - k
  | kinematicCircle i r n k x vk omega, q, v =>
    let r0 := (-r) • n
    seg2 v i + ang2 v i • (⟨-r0.y, r0.x⟩ : V2 ℝ) - (kinematicCircle i r n k x vk omega).kinematicRelVel q
  | planeCircle i k r p, q, v =>
    let r0 := (-r) • p.n
    seg2 v i + ang2 v i • (⟨-r0.y, r0.x⟩ : V2 ℝ) - (planeCircle i k r p).kinematicRelVel q
  | planeBody i arm p k, q, v =>
    let r := (rotation2D (ang2 q i)).mulVec arm
    seg2 v i + ang2 v i • (⟨-r.y, r.x⟩ : V2 ℝ) - (planeBody i arm p k).kinematicRelVel q

/-- `evalNdotV`: BodyBodyConstraint.cpp:22-25, CircleCircleConstraint.cpp:29-34, TeleportedCircleCircleConstraint.cpp:32-37,
KinematicKickCircleCircleConstraint.cpp:21-26, KinematicObjectCircleConstraint.cpp:23-27, StaticPlaneCircleConstraint.cpp:28-32,
StaticPlaneBodyConstraint.cpp:19-22 -/
noncomputable def evalNdotV : Contact2 → Dofs → Dofs → ℝ
  | bodyBody i j n r0 r1, q, v => n.dot ((bodyBody i j n r0 r1).relVel q v)
  | circleCircle i j n _ _ _, _, v | teleported i j n _ _, _, v => n.dot (seg2 v i - seg2 v j)
  | kick i j n _ _ k, _, v => n.dot (seg2 v i - seg2 v j - k)
  | kinematicCircle i r n k x vk omega, q, v => n.dot (seg2 v i - (kinematicCircle i r n k x vk omega).kinematicRelVel q)
  | planeCircle i k r p, q, v => p.n.dot (seg2 v i - (planeCircle i k r p).kinematicRelVel q)
  | planeBody i arm p k, q, v => p.n.dot ((planeBody i arm p k).relVel q v)

/-- A row of `H0` or `H1`: the entries for the centre and the entry for the angle -/
structure Row where
  lin : V2 ℝ
  ang : ℝ

/-- `evalH` with the basis `( n, t )`: the rows 0 and 1 of `H0`, and those of `H1` (`none` when `H1` is not touched).
BodyBodyConstraint.cpp:44-71, CircleCircleConstraint.cpp:108-141, TeleportedCircleCircleConstraint.cpp:96-125, KinematicObjectCircleConstraint.cpp:63-90,
StaticPlaneCircleConstraint.cpp:69-90, StaticPlaneBodyConstraint.cpp:46-69 -/
noncomputable def evalH : Contact2 → Dofs → V2 ℝ → V2 ℝ → (Row × Row) × Option (Row × Row)
  | bodyBody _ _ _ r0 r1, _, n, t =>
    ((⟨n, r0.cross n⟩, ⟨t, r0.cross t⟩), some (⟨n, r1.cross n⟩, ⟨t, r1.cross t⟩))
  | circleCircle i j _ p _ _, q, n, t =>
    let ri := p - seg2 q i
    let rj := p - seg2 q j
    ((⟨n, 0⟩, ⟨t, ri.cross t⟩), some (⟨n, 0⟩, ⟨t, rj.cross t⟩))
  | teleported _ _ _ r0 r1, _, n, t | kick _ _ _ r0 r1 _, _, n, t => ((⟨n, 0⟩, ⟨t, r0.cross t⟩), some (⟨n, 0⟩, ⟨t, r1.cross t⟩))
  | kinematicCircle _ r _ _ _ _ _, _, n, t => ((⟨n, 0⟩, ⟨t, ((-r) • n).cross t⟩), none)
  | planeCircle _ _ r _, _, n, t => ((⟨n, 0⟩, ⟨t, ((-r) • n).cross t⟩), none)
  | planeBody i arm _ _, q, n, t =>
    let r := (rotation2D (ang2 q i)).mulVec arm
    ((⟨n, r.cross n⟩, ⟨t, r.cross t⟩), none)

/-- `evalgradg`, a column of `N`, started from an empty column: CircleCircleConstraint.cpp:36-48, TeleportedCircleCircleConstraint.cpp:39-51,
KinematicObjectCircleConstraint.cpp:29-38, StaticPlaneCircleConstraint.cpp:34-44. The others inherit scisim/Constraints/Constraint.cpp:143-147,
which exits. -/
noncomputable def gradg : Contact2 → Outcome Dofs
  | circleCircle i j n _ _ _ | teleported i j n _ _ | kick i j n _ _ _ =>
    .ok (insertRow (insertRow (insertRow (insertRow (fun _ => 0) (3 * i) n.x) (3 * i + 1) n.y) (3 * j) (-n.x)) (3 * j + 1) (-n.y))
  | kinematicCircle i _ n _ _ _ _ => .ok (insertRow (insertRow (fun _ => 0) (3 * i) n.x) (3 * i + 1) n.y)
  | planeCircle i _ _ p => .ok (insertRow (insertRow (fun _ => 0) (3 * i) p.n.x) (3 * i + 1) p.n.y)
  | bodyBody _ _ _ _ _ | planeBody _ _ _ _ => .exit

/-- `computeGeneralizedFrictionGivenTangentSample`, a column of `D`, started from an empty column: CircleCircleConstraint.cpp:50-78. The others inherit
scisim/Constraints/Constraint.cpp:155-159, which exits. -/
noncomputable def frictionColumn : Contact2 → Dofs → V2 ℝ → Outcome Dofs
  | circleCircle i j _ p _ _, q, t =>
    let ri := p - seg2 q i
    let rj := p - seg2 q j
    .ok (insertRow (insertRow (insertRow (insertRow (insertRow (insertRow (fun _ => 0) (3 * i) t.x) (3 * i + 1) t.y) (3 * i + 2) (ri.cross t))
      (3 * j) (-t.x)) (3 * j + 1) (-t.y)) (3 * j + 2) (-(rj.cross t)))
  | _, _, _ => .exit

/-- `evalKinematicNormalRelVel`: CircleCircleConstraint.cpp:102-106, TeleportedCircleCircleConstraint.cpp:70-74, KinematicKickCircleCircleConstraint.cpp:28-32,
KinematicObjectCircleConstraint.cpp:57-61, StaticPlaneCircleConstraint.cpp:63-67. The others inherit scisim/Constraints/Constraint.cpp:179-183, which
exits. -/
noncomputable def kinematicNormalRelVel : Contact2 → Dofs → Outcome ℝ
  | circleCircle _ _ _ _ _ _, _ | teleported _ _ _ _ _, _ => .ok 0
  | kick _ _ n _ _ k, _ => .ok (-(n.dot k))
  | kinematicCircle i r n k x v omega, q => .ok (-(n.dot ((kinematicCircle i r n k x v omega).kinematicRelVel q)))
  | planeCircle i k r p, q => .ok (-(p.n.dot ((planeCircle i k r p).kinematicRelVel q)))
  | bodyBody _ _ _ _ _, _ | planeBody _ _ _ _, _ => .exit

/-- `conservesTranslationalMomentum`, `conservesAngularMomentumUnderImpact`, `conservesAngularMomentumUnderImpactAndFriction`:
BodyBodyConstraint.cpp:83-96, CircleCircleConstraint.cpp:153-166, TeleportedCircleCircleConstraint.cpp:76-89, KinematicObjectCircleConstraint.cpp:102-115,
StaticPlaneCircleConstraint.cpp:92-105, StaticPlaneBodyConstraint.cpp:71-84 -/
def conservesTranslationalMomentum : Contact2 → Bool
  | bodyBody _ _ _ _ _ | circleCircle _ _ _ _ _ _ | teleported _ _ _ _ _ | kick _ _ _ _ _ _ => true
  | kinematicCircle _ _ _ _ _ _ _ | planeCircle _ _ _ _ | planeBody _ _ _ _ => false

/-- see `conservesTranslationalMomentum` -/
def conservesAngularMomentumUnderImpact : Contact2 → Bool
  | bodyBody _ _ _ _ _ | circleCircle _ _ _ _ _ _ => true
  | teleported _ _ _ _ _ | kick _ _ _ _ _ _ | kinematicCircle _ _ _ _ _ _ _ | planeCircle _ _ _ _ | planeBody _ _ _ _ => false

/-- see `conservesTranslationalMomentum` -/
def conservesAngularMomentumUnderImpactAndFriction : Contact2 → Bool
  | bodyBody _ _ _ _ _ | circleCircle _ _ _ _ _ _ => true
  | teleported _ _ _ _ _ | kick _ _ _ _ _ _ | kinematicCircle _ _ _ _ _ _ _ | planeCircle _ _ _ _ | planeBody _ _ _ _ => false

/-- `computePenetrationDepth`: CircleCircleConstraint.cpp:205-208, StaticPlaneCircleConstraint.cpp:154-158. The depth of teleported contacts
(TeleportedCircleCircleConstraint.cpp:177-182) uses fields that are not modelled; the other contacts return NaN (scisim/Constraints/Constraint.cpp:233-236).
`none` stands for these cases. -/
noncomputable def penetrationDepth : Contact2 → Dofs → Option ℝ
  | circleCircle i j _ _ ra rb, q => some (min 0 (√(seg2 q i - seg2 q j).normSq - ra - rb))
  | planeCircle i _ r p, q => some (min 0 (p.n.dot (seg2 q i - p.x) - r))
  | _, _ => none

end Contact2

/-! ## The narrow phase -/

/-- What `RigidBody2DState` says about one body: its geometry and whether it is scripted (`fixed`) -/
structure Body2 where
  geometry : Geometry2D
  fixed : Bool

/-- The data of one step: the bodies, the static planes, and the arguments `q0`, `q1`, `v` of `computeActiveSet` -/
structure Step2 where
  bodies : List Body2
  planes : List Plane2
  q0 : Dofs
  q1 : Dofs
  v : Dofs

namespace Step2

/-- rigidbody2d/RigidBody2DSim.cpp:184-208 `boxBoxNarrowPhaseCollision` -/
noncomputable def boxBoxNarrowPhaseCollision (s : Step2) (i j : Nat) (a b : Body2) (ra rb : V2 ℝ) : Outcome (List Contact2) :=
  if a.fixed || b.fixed then .exit
  else
    (boxBoxIsActive (seg2 s.q1 i) (ang2 s.q1 i) ra (seg2 s.q1 j) (ang2 s.q1 j) rb 0 []).bind fun r =>
    .ok (r.2.map fun point => .mkBodyBody i j point r.1 s.q0)

/-- rigidbody2d/RigidBody2DSim.cpp:210-246 `boxCircleNarrowPhaseCollision`: the circle `c` with index `ic` and the box `b` with index `ib` -/
noncomputable def boxCircleNarrowPhaseCollision (s : Step2) (ic ib : Nat) (c b : Body2) (r : ℝ) (rb : V2 ℝ) : Outcome (List Contact2) :=
  if c.fixed then .exit
  else
    match circleBoxIsActive (seg2 s.q1 ic) r (seg2 s.q1 ib) (ang2 s.q1 ib) rb with
    | none => .ok []
    | some (n, p) =>
      if !b.fixed then
        if ic < ib then .ok [.mkBodyBody ic ib p n s.q0] else .ok [.mkBodyBody ib ic p (-n) s.q0]
      else .ok [.kinematicCircle ic r n ib (seg2 s.q0 ib) (seg2 s.v ib) (ang2 s.v ib)]

/-- rigidbody2d/RigidBody2DSim.cpp:272-310, two circles -/
noncomputable def circleCircleNarrowPhaseCollision (s : Step2) (i j : Nat) (b : Body2) (ra rb : ℝ) : List Contact2 :=
  let q0a := seg2 s.q0 i
  let q0b := seg2 s.q0 j
  match ballBallCCD q0a (seg2 s.q1 i) ra q0b (seg2 s.q1 j) rb with
  | none => []
  | some _ =>
    let n := (q0a - q0b).normalized
    if !b.fixed then [.circleCircle i j n (q0a + (ra / (ra + rb)) • (q0b - q0a)) ra rb]
    else [.kinematicCircle i ra n j q0b (seg2 s.v j) (ang2 s.v j)]

/-- rigidbody2d/RigidBody2DSim.cpp:263-338: the switch over the geometries -/
noncomputable def dispatchOrdered (s : Step2) (i j : Nat) (a b : Body2) : Outcome (List Contact2) :=
  match a.geometry, b.geometry with
  | .circle ra, .circle rb => .ok (s.circleCircleNarrowPhaseCollision i j b ra rb)
  | .circle ra, .box rb => s.boxCircleNarrowPhaseCollision i j a b ra rb
  | .box ra, .circle rb => s.boxCircleNarrowPhaseCollision j i b a rb ra
  | .box ra, .box rb => s.boxBoxNarrowPhaseCollision i j a b ra rb

/-- rigidbody2d/RigidBody2DSim.cpp:248-339 `dispatchNarrowPhaseCollision`. Out of range indices are undefined behaviour. -/
noncomputable def dispatchNarrowPhaseCollision (s : Step2) (p : Nat × Nat) : Outcome (List Contact2) :=
  match s.bodies[p.1]?, s.bodies[p.2]? with
  | some a, some b =>
    if a.fixed && b.fixed then .ok []
    else if a.fixed then s.dispatchOrdered p.2 p.1 b a
    else s.dispatchOrdered p.1 p.2 a b
  | _, _ => .ub

/-- A loop that appends the results of a function, as `active_set.emplace_back` does, and stops when it does -/
def collect {α β : Type} (f : α → Outcome (List β)) : List α → Outcome (List β)
  | [] => .ok []
  | a :: l => (f a).bind fun here => (collect f l).bind fun rest => .ok (here ++ rest)

/-- `AABB{ min, max }` -/
def toBox (b : V2 ℝ × V2 ℝ) : Box 2 ℝ := ⟨![b.1.x, b.1.y], ![b.2.x, b.2.y]⟩

/-- rigidbody2d/RigidBody2DSim.cpp:1075-1083: the box of a body moving through the step -/
noncomputable def collisionBoxes (s : Step2) : List (Box 2 ℝ) :=
  s.bodies.zipIdx.map fun (b, i) => toBox (b.geometry.collisionAABB (seg2 s.q0 i) (ang2 s.q0 i) (seg2 s.q1 i) (ang2 s.q1 i))

/-- rigidbody2d/RigidBody2DSim.cpp:1066-1100 `computeBodyBodyActiveSetSpatialGrid` -/
noncomputable def computeBodyBodyActiveSetSpatialGrid (s : Step2) : Outcome (List Contact2) :=
  (getPotentialOverlaps s.collisionBoxes).bind fun pairs => collect s.dispatchNarrowPhaseCollision pairs

/-- rigidbody2d/RigidBody2DSim.cpp:655-692, the body of the loop: contacts of one body with one plane. The test for circles is
rigidbody2d/StaticPlaneCircleConstraint.cpp:12-16. -/
noncomputable def bodyPlane (s : Step2) (k : Nat) (p : Plane2) (i : Nat) (b : Body2) : List Contact2 :=
  if b.fixed then []
  else match b.geometry with
    | .circle r => if p.n.dot (seg2 s.q1 i - p.x) ≤ r then [.planeCircle i k r p] else []
    | .box r =>
      [(-1, -1), (-1, 1), (1, -1), (1, 1)].filterMap fun (e : ℝ × ℝ) =>
        let arm : V2 ℝ := ⟨e.1 * r.x, e.2 * r.y⟩
        let vertex := seg2 s.q1 i + (rotation2D (ang2 s.q1 i)).mulVec arm
        if p.n.dot (vertex - p.x) ≤ 0 then some (.planeBody i arm p k) else none

/-- rigidbody2d/RigidBody2DSim.cpp:638-694 `computeBodyPlaneActiveSetAllPairs` -/
noncomputable def computeBodyPlaneActiveSetAllPairs (s : Step2) : List Contact2 :=
  s.planes.zipIdx.flatMap fun (p, k) => s.bodies.zipIdx.flatMap fun (b, i) => s.bodyPlane k p i b

/-! ## With portals -/

/-- rigidbody2d/PlanarPortal.cpp:148-168 `aabbInHalfPlane`, also `aabbInPlaneA` and `aabbInPlaneB`, lines 253-291 -/
noncomputable def aabbInHalfPlane (b : V2 ℝ × V2 ℝ) (p : HalfPlane ℝ) : Bool :=
  decide (p.n.dot ((⟨b.1.x, b.1.y⟩ : V2 ℝ) - p.x) ≤ 0) || decide (p.n.dot ((⟨b.1.x, b.2.y⟩ : V2 ℝ) - p.x) ≤ 0) ||
  decide (p.n.dot ((⟨b.2.x, b.1.y⟩ : V2 ℝ) - p.x) ≤ 0) || decide (p.n.dot ((⟨b.2.x, b.2.y⟩ : V2 ℝ) - p.x) ≤ 0)

/-- rigidbody2d/PlanarPortal.cpp:170-193 `aabbTouchesPortal` without the debug-only exit: the plane touched, if any (`false` is plane A) -/
noncomputable def aabbTouchesPortal (p : PlanarPortal ℝ) (b : V2 ℝ × V2 ℝ) : Option Bool :=
  if aabbInHalfPlane b p.planeA then some false else if aabbInHalfPlane b p.planeB then some true else none

/-- rigidbody2d/PlanarPortal.cpp:211-224 `teleportPoint`; also `getTeleportedCollisionCenter`, rigidbody2d/RigidBody2DSim.cpp:428-439 -/
noncomputable def teleportPoint (junk : ℝ → ℤ) (p : PlanarPortal ℝ) (plane : Bool) (x : V2 ℝ) : V2 ℝ :=
  if plane = false then p.teleportPointThroughPlaneA junk x else p.teleportPointThroughPlaneB junk x

/-- rigidbody2d/PlanarPortal.cpp:226-238 `getKinematicVelocityOfAABB` -/
noncomputable def getKinematicVelocityOfAABB (p : PlanarPortal ℝ) (b : V2 ℝ × V2 ℝ) : V2 ℝ :=
  if aabbInHalfPlane b p.planeA then (-p.v) • p.planeA.t else (-p.v) • p.planeB.t

/-- rigidbody2d/RigidBody2DSim.cpp:890-898: the box of a body at the end of the step -/
noncomputable def endBox (s : Step2) (b : Body2) (i : Nat) : V2 ℝ × V2 ℝ := b.geometry.aabb (seg2 s.q1 i) (ang2 s.q1 i)

/-- rigidbody2d/RigidBody2DSim.cpp:901-925: the teleported boxes, portal by portal. `TeleportedBody` (rigidbody2d/PlanarPortal.h) is the same as
`TeleportedBall` of the ball simulation. -/
noncomputable def teleportedBodies (junk : ℝ → ℤ) (s : Step2) (portals : List (PlanarPortal ℝ)) : List (TeleportedBall × Box 2 ℝ) :=
  portals.zipIdx.flatMap fun (p, prtl) =>
    s.bodies.zipIdx.filterMap fun (b, i) =>
      (aabbTouchesPortal p (s.endBox b i)).map fun plane =>
        (⟨i, prtl, plane⟩, toBox (b.geometry.aabb (teleportPoint junk p plane (seg2 s.q1 i)) (ang2 s.q1 i)))

/-- rigidbody2d/PlanarPortal.cpp:35-44, the constructor of `TeleportedCollision` -/
def mkTeleportedCollision2 (a b : Image) : TeleportedCollision := if a.body < b.body then ⟨a, b⟩ else ⟨b, a⟩

/-- `collisionIsActive`, rigidbody2d/RigidBody2DSim.cpp:341-398 -/
noncomputable def collisionIsActive (x0 : V2 ℝ) (g0 : Geometry2D) (x1 : V2 ℝ) (g1 : Geometry2D) : Outcome Bool :=
  match g0, g1 with
  | .circle r0, .circle r1 => .ok (ballBallIsActive x0 x1 r0 r1)
  | _, _ => .exit

/-- `getTeleportedCollisionCenters`, rigidbody2d/RigidBody2DSim.cpp:441-476, one of the two bodies -/
noncomputable def imageCenter2 (junk : ℝ → ℤ) (portals : List (PlanarPortal ℝ)) (q : Dofs) (i : Image) : V2 ℝ :=
  match i.via with
  | none => seg2 q i.body
  | some (prtl, plane) =>
    match portals[prtl]? with
    | none => seg2 q i.body
    | some p => teleportPoint junk p plane (seg2 q i.body)

/-- rigidbody2d/RigidBody2DSim.cpp:997-1008: does the teleported collision happen? -/
noncomputable def classifyTeleported (junk : ℝ → ℤ) (s : Step2) (portals : List (PlanarPortal ℝ)) (i j : Image) : Outcome (Option TeleportedCollision) :=
  match s.bodies[i.body]?, s.bodies[j.body]? with
  | some a, some b =>
    if a.fixed && b.fixed then .ok none
    else
      let c := mkTeleportedCollision2 i j
      (collisionIsActive (imageCenter2 junk portals s.q1 c.fst) a.geometry (imageCenter2 junk portals s.q1 c.snd) b.geometry).bind fun act =>
      .ok (if act then some c else none)
  | _, _ => .ub

/-- rigidbody2d/RigidBody2DSim.cpp:932-1009, the body of the loop over candidate pairs: contacts to append, or a teleported collision to insert -/
noncomputable def classify2 (junk : ℝ → ℤ) (s : Step2) (portals : List (PlanarPortal ℝ)) (tele : List TeleportedBall) (p : Nat × Nat) :
    Outcome (List Contact2 × Option TeleportedCollision) :=
  let i := imageOf s.bodies.length tele p.1
  let j := imageOf s.bodies.length tele p.2
  match i.via, j.via with
  | none, none => (s.dispatchNarrowPhaseCollision p).bind fun cs => .ok (cs, none)
  | some _, some _ =>
    match s.bodies[i.body]?, s.bodies[j.body]? with
    | some a, some b =>
      (collisionIsActive (seg2 s.q1 i.body) a.geometry (seg2 s.q1 j.body) b.geometry).bind fun dup =>
        if dup then .ok ([], none) else (classifyTeleported junk s portals i j).bind fun t => .ok ([], t)
    | _, _ => .ub
  | _, _ => (classifyTeleported junk s portals i j).bind fun t => .ok ([], t)

/-- rigidbody2d/RigidBody2DSim.cpp:932-1009, the loop -/
noncomputable def classifyAll (junk : ℝ → ℤ) (s : Step2) (portals : List (PlanarPortal ℝ)) (tele : List TeleportedBall) :
    List (Nat × Nat) → List Contact2 × List TeleportedCollision → Outcome (List Contact2 × List TeleportedCollision)
  | [], acc => .ok acc
  | p :: ps, acc =>
    (classify2 junk s portals tele p).bind fun r =>
    classifyAll junk s portals tele ps (acc.1 ++ r.1, match r.2 with | none => acc.2 | some c => insertCollision c acc.2)

/-- `dispatchTeleportedNarrowPhaseCollision`, rigidbody2d/RigidBody2DSim.cpp:478-636 -/
noncomputable def dispatchTeleported (junk : ℝ → ℤ) (s : Step2) (portals : List (PlanarPortal ℝ)) (c : TeleportedCollision) : Outcome (List Contact2) :=
  match s.bodies[c.fst.body]?, s.bodies[c.snd.body]? with
  | some a, some b =>
    if a.fixed || b.fixed then .exit
    else match a.geometry, b.geometry with
      | .circle ra, .circle rb =>
        if ballBallIsActive (imageCenter2 junk portals s.q1 c.fst) (imageCenter2 junk portals s.q1 c.snd) ra rb then
          let x0 := imageCenter2 junk portals s.q0 c.fst
          let x1 := imageCenter2 junk portals s.q0 c.snd
          match c.snd.slides portals with
          | some p => .ok [.mkKick c.fst.body c.snd.body x0 x1 ra rb (getKinematicVelocityOfAABB p (s.endBox b c.snd.body))]
          | none =>
            match c.fst.slides portals with
            | some p => .ok [.mkKick c.fst.body c.snd.body x0 x1 ra rb (-getKinematicVelocityOfAABB p (s.endBox a c.fst.body))]
            | none => .ok [.mkTeleported c.fst.body c.snd.body x0 x1 ra rb]
        else .ok []
      | _, _ => .exit
  | _, _ => .ub

/-- rigidbody2d/RigidBody2DSim.cpp:877-1064 `computeBodyBodyActiveSetSpatialGridWithPortals` -/
noncomputable def computeBodyBodyActiveSetSpatialGridWithPortals (junk : ℝ → ℤ) (s : Step2) (portals : List (PlanarPortal ℝ)) :
    Outcome (List Contact2) :=
  let tele := s.teleportedBodies junk portals
  (getPotentialOverlaps (s.bodies.zipIdx.map (fun (b, i) => toBox (s.endBox b i)) ++ tele.map (·.2))).bind fun pairs =>
  (classifyAll junk s portals (tele.map (·.1)) pairs ([], [])).bind fun r =>
  (collect (s.dispatchTeleported junk portals) r.2).bind fun cs => .ok (r.1 ++ cs)

/-- rigidbody2d/RigidBody2DSim.cpp:696-714 `computeActiveSet` -/
noncomputable def computeActiveSet2 (junk : ℝ → ℤ) (s : Step2) (portals : List (PlanarPortal ℝ)) : Outcome (List Contact2) :=
  (if portals.isEmpty then s.computeBodyBodyActiveSetSpatialGrid
    else s.computeBodyBodyActiveSetSpatialGridWithPortals junk portals).bind fun cs =>
  .ok (cs ++ s.computeBodyPlaneActiveSetAllPairs)

end Step2

end Scisim
