import Verif.Model.BallContacts
import Verif.Model.Frames
import Verif.Model.Geometry3D
import Verif.Model.Portal3D
import Verif.Model.RigidContacts2D
import Verif.Model.BoxBox3D
import Verif.Model.Segments3D
/-!
# Contacts of the 3D rigid body simulation

The contact classes in `rigidbody3d/Constraints/*Constraint.cpp` and the code of `rigidbody3d/RigidBody3DSim.cpp:250-262, 665-1557` that creates them,
without the debug-only checks. Scalars are real numbers. Vectors of velocities and impulses are functions of the index of a block of three entries: with
`nb` bodies, block `i` belongs to the centre of body `i` and block `nb + i` to its rotation. That indices are in range is not modelled: the indices come from
loops over the bodies. The lookup in the signed distance field of a mesh is a function that the model leaves open.
-/

namespace Scisim

open Matrix

/-- `VectorXs` of velocities or impulses: `v.segment<3>( 3 * k )` is block `k` -/
abbrev Blocks3 := Nat → Vec3

/-- `VectorXs` of positions: `q.segment<3>( 3 * i )`, and the matrix at `q.segment<9>( 3 * nb + 9 * i )` -/
structure Pose3 where
  x : Nat → Vec3
  R : Nat → Mat3

/-- `StaticCylinder`, rigidbody3d/StaticGeometry/StaticCylinder.h -/
structure Cylinder3 where
  x : Vec3
  axis : Vec3
  v : Vec3
  omega : Vec3
  r : ℝ

/-- `StaticCylinder::StaticCylinder`, rigidbody3d/StaticGeometry/StaticCylinder.cpp:11-21 -/
noncomputable def Cylinder3.make (x axis : Vec3) (r : ℝ) : Cylinder3 := ⟨x, normalized3 axis, 0, 0, r⟩

/-- `y - cyl.x() - cyl.axis().dot( y - cyl.x() ) * cyl.axis()` -/
def Cylinder3.offset (c : Cylinder3) (y : Vec3) : Vec3 := y - c.x - (c.axis ⬝ᵥ (y - c.x)) • c.axis

/-- The contacts of the 3D rigid body simulation, with the fields that the modelled functions use (all in rigidbody3d/Constraints).
* `bodyBody`: BodyBodyConstraint.h
* `sphereSphere`: SphereSphereConstraint.h
* `teleported`: TeleportedSphereSphereConstraint.h
* `kinematicSphere`: KinematicObjectSphereConstraint.h; with a radius of the scripted body, `KinematicSphereSphereConstraint` of the same file
* `kinematicBody`: KinematicObjectBodyConstraint.h
* `planeSphere`: StaticPlaneSphereConstraint.h
* `planeBox`: StaticPlaneBoxConstraint.h
* `planeBody`: StaticPlaneBodyConstraint.h
* `cylinderSphere`: StaticCylinderSphereConstraint.h
* `cylinderBody`: StaticCylinderBodyConstraint.h -/
inductive Contact3 where
  | bodyBody (i j : Nat) (n r0 r1 : Vec3)
  | sphereSphere (i j : Nat) (n p : Vec3) (ra rb : ℝ)
  | teleported (i j : Nat) (n r0 r1 : Vec3)
  | kinematicSphere (i : Nat) (r : ℝ) (n : Vec3) (k : Nat) (x v omega : Vec3) (rk : Option ℝ)
  | kinematicBody (i k : Nat) (n r : Vec3)
  | planeSphere (i : Nat) (r : ℝ) (p : Plane3) (plane : Nat)
  | planeBox (i : Nat) (n r : Vec3) (plane : Nat)
  | planeBody (i : Nat) (n r : Vec3) (plane : Nat)
  | cylinderSphere (i : Nat) (r : ℝ) (c : Cylinder3) (cyl : Nat)
  | cylinderBody (i : Nat) (r : Vec3) (c : Cylinder3)

namespace Contact3

/-- the constructor in BodyBodyConstraint.cpp:14-24 -/
def mkBodyBody (i j : Nat) (p n : Vec3) (q : Pose3) : Contact3 := .bodyBody i j n (p - q.x i) (p - q.x j)

/-- the constructor in TeleportedSphereSphereConstraint.cpp:14-27 -/
noncomputable def mkTeleported (i j : Nat) (x0 x1 : Vec3) (r0 r1 : ℝ) : Contact3 :=
  .teleported i j (normalized3 (x0 - x1)) ((r0 / (r0 + r1)) • (x1 - x0)) ((r0 / (r0 + r1) - 1) • (x1 - x0))

/-- the constructor in KinematicObjectBodyConstraint.cpp:14-21 -/
def mkKinematicBody (i k : Nat) (p n : Vec3) (q : Pose3) : Contact3 := .kinematicBody i k n (p - q.x i)

/-- the constructor in StaticPlaneBodyConstraint.cpp:14-21 -/
def mkPlaneBody (i : Nat) (p n : Vec3) (q : Pose3) (plane : Nat) : Contact3 := .planeBody i n (p - q.x i) plane

/-- StaticPlaneBoxConstraint.cpp:14-20 `getBodySpaceCorner` -/
def boxCorner (w : Vec3) (i : Nat) : Vec3 :=
  ![w 0 * (2 * ((i % 2 : ℕ) : ℝ) - 1), w 1 * (2 * ((i / 2 % 2 : ℕ) : ℝ) - 1), w 2 * (2 * ((i / 4 % 2 : ℕ) : ℝ) - 1)]

/-- the constructor in StaticPlaneBoxConstraint.cpp:38-49 -/
def mkPlaneBox (i corner : Nat) (n w : Vec3) (q : Pose3) (plane : Nat) : Contact3 := .planeBox i n (q.R i *ᵥ boxCorner w corner) plane

/-- the constructor in StaticCylinderBodyConstraint.cpp:14-18 -/
def mkCylinderBody (i : Nat) (p : Vec3) (c : Cylinder3) (q : Pose3) : Contact3 := .cylinderBody i (p - q.x i) c

/-- the normal, the first column of `computeContactBasis`: the stored normal, or the normal of the plane, or `computeN`
(StaticCylinderSphereConstraint.cpp:237-244, StaticCylinderBodyConstraint.cpp:84-91; the latter divides by the norm, which is a division by zero, and NaN,
for a body on the axis; this is not modelled) -/
noncomputable def normal : Contact3 → Pose3 → Vec3
  | bodyBody _ _ n _ _, _ | sphereSphere _ _ n _ _ _, _ | teleported _ _ n _ _, _ | kinematicSphere _ _ n _ _ _ _ _, _ | kinematicBody _ _ n _, _
  | planeBox _ n _ _, _ | planeBody _ n _ _, _ => n
  | planeSphere _ _ p _, _ => p.n
  | cylinderSphere i _ c _, q => normalized3 (-(c.offset (q.x i)))
  | cylinderBody i _ c, q => (norm3 (-(c.offset (q.x i))))⁻¹ • -(c.offset (q.x i))

/-- `getWorldSpaceContactPoint`: BodyBodyConstraint.cpp:312-319, SphereSphereConstraint.cpp:392-395, TeleportedSphereSphereConstraint.cpp:318-321,
KinematicObjectSphereConstraint.cpp:171-174, KinematicObjectBodyConstraint.cpp:205-208, StaticPlaneSphereConstraint.cpp:314-317,
StaticPlaneBoxConstraint.cpp:302-305, StaticPlaneBodyConstraint.cpp:226-229, StaticCylinderSphereConstraint.cpp:324-327; the last one inherits
scisim/Constraints/Constraint.cpp:197-201, which exits -/
noncomputable def contactPoint : Contact3 → Pose3 → Outcome Vec3
  | bodyBody i _ _ r0 _, q => .ok (r0 + q.x i)
  | sphereSphere _ _ _ p _ _, _ => .ok p
  | teleported i _ _ r0 _, q => .ok (q.x i + r0)
  | kinematicSphere i r n _ _ _ _ _, q => .ok (q.x i - r • n)
  | kinematicBody i _ _ r, q => .ok (q.x i + r)
  | planeSphere i r p _, q => .ok (q.x i - r • p.n)
  | planeBox i _ r _, q | planeBody i _ r _, q => .ok (q.x i + r)
  | cylinderSphere i r c k, q => .ok (q.x i - r • (cylinderSphere i r c k).normal q)
  | cylinderBody _ _ _, _ => .exit

/-- `getWorldSpaceContactNormal`: BodyBodyConstraint.cpp:321-324, SphereSphereConstraint.cpp:397-400, TeleportedSphereSphereConstraint.cpp:323-326,
KinematicObjectSphereConstraint.cpp:176-179, KinematicObjectBodyConstraint.cpp:210-213, StaticPlaneSphereConstraint.cpp:319-322,
StaticPlaneBoxConstraint.cpp:307-310, StaticPlaneBodyConstraint.cpp:231-234, StaticCylinderSphereConstraint.cpp:329-332; the last one inherits
scisim/Constraints/Constraint.cpp:203-207, which exits -/
noncomputable def contactNormal : Contact3 → Pose3 → Outcome Vec3
  | bodyBody _ _ n _ _, _ | sphereSphere _ _ n _ _ _, _ | teleported _ _ n _ _, _ | kinematicSphere _ _ n _ _ _ _ _, _ | kinematicBody _ _ n _, _
  | planeBox _ n _ _, _ | planeBody _ n _ _, _ => .ok n
  | planeSphere _ _ p _, _ => .ok p.n
  | cylinderSphere i r c k, q => .ok ((cylinderSphere i r c k).normal q)
  | cylinderBody _ _ _, _ => .exit

/-- `getSimulatedBodyIndices`; a second index -1 is `none`. BodyBodyConstraint.cpp:176-180, SphereSphereConstraint.cpp:212-216,
TeleportedSphereSphereConstraint.cpp:189-193, KinematicObjectSphereConstraint.cpp:75-79, KinematicObjectBodyConstraint.cpp:83-87,
StaticPlaneSphereConstraint.cpp:179-183, StaticPlaneBoxConstraint.cpp:186-190, StaticPlaneBodyConstraint.cpp:162-166,
StaticCylinderSphereConstraint.cpp:166-170, StaticCylinderBodyConstraint.cpp:34-38 -/
def simulatedBodies : Contact3 → Nat × Option Nat
  | bodyBody i j _ _ _ | sphereSphere i j _ _ _ _ | teleported i j _ _ _ => (i, some j)
  | kinematicSphere i _ _ _ _ _ _ _ | kinematicBody i _ _ _ | planeSphere i _ _ _ | planeBox i _ _ _ | planeBody i _ _ _ | cylinderSphere i _ _ _
  | cylinderBody i _ _ => (i, none)

/-- `getBodyIndices`: as `getSimulatedBodyIndices`, but contacts with scripted bodies name both bodies. BodyBodyConstraint.cpp:230-233,
SphereSphereConstraint.cpp:218-221, TeleportedSphereSphereConstraint.cpp:195-199, KinematicObjectSphereConstraint.cpp:81-85,
KinematicObjectBodyConstraint.cpp:128-132, StaticPlaneSphereConstraint.cpp:185-188, StaticPlaneBoxConstraint.cpp:225-228,
StaticPlaneBodyConstraint.cpp:168-171, StaticCylinderSphereConstraint.cpp:172-175; the last one inherits scisim/Constraints/Constraint.cpp:173-177,
which exits -/
def bodyIndices : Contact3 → Outcome (Nat × Option Nat)
  | bodyBody i j _ _ _ | sphereSphere i j _ _ _ _ | teleported i j _ _ _ => .ok (i, some j)
  | kinematicSphere i _ _ k _ _ _ _ | kinematicBody i k _ _ => .ok (i, some k)
  | planeSphere i _ _ _ | planeBox i _ _ _ | planeBody i _ _ _ | cylinderSphere i _ _ _ => .ok (i, none)
  | cylinderBody _ _ _ => .exit

/-- `computePlaneCollisionPointVelocity`, StaticPlaneSphereConstraint.cpp:245-253 -/
def planePointVelocity (p : Plane3) (x : Vec3) : Vec3 := p.v + crossProduct p.omega ((x - p.x) - (p.n ⬝ᵥ (x - p.x)) • p.n)

/-- `computeCylinderCollisionPointVelocity`, StaticCylinderSphereConstraint.cpp:246-261; `n` is the contact normal -/
def cylinderPointVelocity (c : Cylinder3) (normal x : Vec3) : Vec3 :=
  let n := -normal
  let p := x - c.x - (n ⬝ᵥ (x - c.x)) • n
  let r := p + c.r • n
  c.v + crossProduct c.omega r

/-- `computeKinematicRelativeVelocity`: BodyBodyConstraint.cpp:306-310, SphereSphereConstraint.cpp:386-390, TeleportedSphereSphereConstraint.cpp:328-332,
KinematicObjectSphereConstraint.cpp:229-234, KinematicObjectBodyConstraint.cpp:199-203, StaticPlaneSphereConstraint.cpp:309-312,
StaticPlaneBoxConstraint.cpp:296-300, StaticPlaneBodyConstraint.cpp:286-291, StaticCylinderSphereConstraint.cpp:319-322,
StaticCylinderBodyConstraint.cpp:93-100 -/
noncomputable def kinematicRelVel : Contact3 → Pose3 → Vec3
  | bodyBody _ _ _ _ _, _ | sphereSphere _ _ _ _ _ _, _ | teleported _ _ _ _ _, _ | kinematicSphere _ _ _ _ _ _ _ _, _ | kinematicBody _ _ _ _, _
  | planeBox _ _ _ _, _ | planeBody _ _ _ _, _ | cylinderBody _ _ _, _ => 0
  | planeSphere i _ p _, q => planePointVelocity p (q.x i)
  | cylinderSphere i r c k, q => cylinderPointVelocity c ((cylinderSphere i r c k).normal q) (q.x i)

/-- `computeRelativeVelocity`: BodyBodyConstraint.cpp:284-294, SphereSphereConstraint.cpp:323-339, TeleportedSphereSphereConstraint.cpp:296-306,
KinematicObjectSphereConstraint.cpp:210-222, KinematicObjectBodyConstraint.cpp:183-192, StaticPlaneSphereConstraint.cpp:285-296,
StaticPlaneBoxConstraint.cpp:280-289, StaticPlaneBodyConstraint.cpp:270-279, StaticCylinderSphereConstraint.cpp:292-303,
StaticCylinderBodyConstraint.cpp:134-143. `nb` is `v.size() / 6`. -/
noncomputable def relVel (nb : Nat) : Contact3 → Pose3 → Blocks3 → Vec3
  | bodyBody i j _ r0 r1, _, v | teleported i j _ r0 r1, _, v =>
    v i + crossProduct (v (nb + i)) r0 - v j - crossProduct (v (nb + j)) r1
  | sphereSphere i j _ p _ _, q, v =>
    let r0 := p - q.x i
    let r1 := p - q.x j
    v i + crossProduct (v (nb + i)) r0 - v j - crossProduct (v (nb + j)) r1
  | kinematicSphere i r n k x vk omega rk, q, v =>
    v i + crossProduct (v (nb + i)) ((-r) • n) - (kinematicSphere i r n k x vk omega rk).kinematicRelVel q
  | kinematicBody i _ _ r, _, v | planeBox i _ r _, _, v | planeBody i _ r _, _, v | cylinderBody i r _, _, v => v i + crossProduct (v (nb + i)) r
  | planeSphere i r p _, q, v => v i + crossProduct (v (nb + i)) ((-r) • p.n) - planePointVelocity p (q.x i)
  | cylinderSphere i r c k, q, v =>
    let n := (cylinderSphere i r c k).normal q
    v i + crossProduct (v (nb + i)) ((-r) • n) - cylinderPointVelocity c n (q.x i)

/-- `computeContactBasis`, with the normal and the relative velocity of the contact; see `contactBasis3` for the lines -/
noncomputable def basis (nb : Nat) (c : Contact3) (q : Pose3) (v : Blocks3) : Vec3 × Vec3 × Vec3 := contactBasis3 (c.normal q) (c.relVel nb q v)

/-- `evalNdotV`: BodyBodyConstraint.cpp:26-29, SphereSphereConstraint.cpp:33-40, TeleportedSphereSphereConstraint.cpp:42-49,
KinematicObjectSphereConstraint.cpp:21-25, KinematicObjectBodyConstraint.cpp:26-29, StaticPlaneSphereConstraint.cpp:37-41,
StaticPlaneBoxConstraint.cpp:54-57, StaticPlaneBodyConstraint.cpp:26-31, StaticCylinderSphereConstraint.cpp:38-43, StaticCylinderBodyConstraint.cpp:20-26 -/
noncomputable def evalNdotV (nb : Nat) : Contact3 → Pose3 → Blocks3 → ℝ
  | sphereSphere i j n _ _ _, _, v | teleported i j n _ _, _, v => n ⬝ᵥ (v i - v j)
  | kinematicSphere i _ n _ _ _ _ _, _, v => n ⬝ᵥ v i
  | planeSphere i _ p _, q, v => p.n ⬝ᵥ (v i - planePointVelocity p (q.x i))
  | cylinderSphere i r c k, q, v =>
    let n := (cylinderSphere i r c k).normal q
    n ⬝ᵥ (v i - cylinderPointVelocity c n (q.x i))
  | c, q, v => c.normal q ⬝ᵥ c.relVel nb q v

/-- A row of `H0` or `H1`: the entries for the centre and those for the rotation -/
structure Row3 where
  lin : Vec3
  ang : Vec3

/-- the rows `b^T, ( arm x b )^T` for `b` in a basis -/
def fullRows (arm : Vec3) (b : Vec3 × Vec3 × Vec3) : Row3 × Row3 × Row3 :=
  (⟨b.1, crossProduct arm b.1⟩, ⟨b.2.1, crossProduct arm b.2.1⟩, ⟨b.2.2, crossProduct arm b.2.2⟩)

/-- the same with a zero torque in the row of the normal -/
def sphereRows (arm : Vec3) (b : Vec3 × Vec3 × Vec3) : Row3 × Row3 × Row3 :=
  (⟨b.1, 0⟩, ⟨b.2.1, crossProduct arm b.2.1⟩, ⟨b.2.2, crossProduct arm b.2.2⟩)

/-- `evalH`: the rows of `H0`, and those of `H1` (`none` when `H1` is not touched). BodyBodyConstraint.cpp:191-228, SphereSphereConstraint.cpp:229-271,
TeleportedSphereSphereConstraint.cpp:227-265, KinematicObjectSphereConstraint.cpp:99-125, KinematicObjectBodyConstraint.cpp:98-126,
StaticPlaneSphereConstraint.cpp:197-223, StaticPlaneBoxConstraint.cpp:201-223, StaticPlaneBodyConstraint.cpp:182-204,
StaticCylinderSphereConstraint.cpp:189-215, StaticCylinderBodyConstraint.cpp:40-62 -/
noncomputable def evalH : Contact3 → Pose3 → Vec3 × Vec3 × Vec3 → (Row3 × Row3 × Row3) × Option (Row3 × Row3 × Row3)
  | bodyBody _ _ _ r0 r1, _, b => (fullRows r0 b, some (fullRows r1 b))
  | sphereSphere i j _ p _ _, q, b => (sphereRows (p - q.x i) b, some (sphereRows (p - q.x j) b))
  | teleported _ _ _ r0 r1, _, b => (sphereRows r0 b, some (sphereRows r1 b))
  | kinematicSphere _ r _ _ _ _ _ _, _, b | planeSphere _ r _ _, _, b | cylinderSphere _ r _ _, _, b => (sphereRows ((-r) • b.1) b, none)
  | kinematicBody _ _ _ r, _, b | planeBox _ _ r _, _, b | planeBody _ _ r _, _, b | cylinderBody _ r _, _, b => (fullRows r b, none)

/-- The entries written by a sequence of `insert` calls into one column of an empty matrix: block index and the three values, in the order of the calls -/
abbrev Inserts := List (Nat × Vec3)

/-- The column after the calls. Inserting twice in the same place is not allowed by Eigen; `C59_stencil` says that it does not happen. -/
def column (l : Inserts) : Blocks3 := fun k => (l.filter fun e => e.1 = k).foldl (fun _ e => e.2) 0

/-- `evalgradg`, a column of `N`: BodyBodyConstraint.cpp:31-61, SphereSphereConstraint.cpp:71-86, TeleportedSphereSphereConstraint.cpp:51-66,
KinematicObjectSphereConstraint.cpp:27-38, KinematicObjectBodyConstraint.cpp:31-48, StaticPlaneSphereConstraint.cpp:65-78, StaticPlaneBoxConstraint.cpp:78-97,
StaticPlaneBodyConstraint.cpp:54-73, StaticCylinderSphereConstraint.cpp:45-61; the last one inherits scisim/Constraints/Constraint.cpp:143-147, which exits -/
noncomputable def gradg (nb : Nat) : Contact3 → Pose3 → Outcome Inserts
  | bodyBody i j n r0 r1, _ => .ok [(i, n), (i + nb, crossProduct r0 n), (j, -n), (j + nb, -(crossProduct r1 n))]
  | sphereSphere i j n _ _ _, _ | teleported i j n _ _, _ => .ok [(i, n), (j, -n)]
  | kinematicSphere i _ n _ _ _ _ _, _ => .ok [(i, n)]
  | kinematicBody i _ n r, _ | planeBox i n r _, _ | planeBody i n r _, _ => .ok [(i, n), (i + nb, crossProduct r n)]
  | planeSphere i _ p _, _ => .ok [(i, p.n)]
  | cylinderSphere i r c k, q => .ok [(i, (cylinderSphere i r c k).normal q)]
  | cylinderBody _ _ _, _ => .exit

/-- `computeGeneralizedFrictionGivenTangentSample`, a column of `D`: BodyBodyConstraint.cpp:130-164, SphereSphereConstraint.cpp:162-200,
TeleportedSphereSphereConstraint.cpp:139-177, KinematicObjectSphereConstraint.cpp:40-63, KinematicObjectBodyConstraint.cpp:50-71,
StaticPlaneSphereConstraint.cpp:142-167, StaticPlaneBoxConstraint.cpp:153-174, StaticPlaneBodyConstraint.cpp:129-150,
StaticCylinderSphereConstraint.cpp:126-154; the last one inherits scisim/Constraints/Constraint.cpp:155-159, which exits. The columns written by
`computeGeneralizedFrictionDisk` are the same for the directions of the disk. -/
noncomputable def frictionColumn (nb : Nat) : Contact3 → Pose3 → Vec3 → Outcome Inserts
  | bodyBody i j _ r0 r1, _, t | teleported i j _ r0 r1, _, t =>
    .ok [(i, t), (i + nb, crossProduct r0 t), (j, -t), (j + nb, -(crossProduct r1 t))]
  | sphereSphere i j _ p _ _, q, t =>
    .ok [(i, t), (i + nb, crossProduct (p - q.x i) t), (j, -t), (j + nb, -(crossProduct (p - q.x j) t))]
  | kinematicSphere i r n _ _ _ _ _, _, t => .ok [(i, t), (i + nb, crossProduct ((-r) • n) t)]
  | kinematicBody i _ _ r, _, t | planeBox i _ r _, _, t | planeBody i _ r _, _, t => .ok [(i, t), (i + nb, crossProduct r t)]
  | planeSphere i r p _, _, t => .ok [(i, t), (nb + i, crossProduct ((-r) • p.n) t)]
  | cylinderSphere i r c k, q, t => .ok [(i, t), (nb + i, crossProduct ((-r) • (cylinderSphere i r c k).normal q) t)]
  | cylinderBody _ _ _, _, _ => .exit

/-- `computeGeneralizedFrictionDisk`: `num_samples` columns of `D` and entries of `drel`. BodyBodyConstraint.cpp:63-128, SphereSphereConstraint.cpp:88-160,
TeleportedSphereSphereConstraint.cpp:68-137, StaticPlaneSphereConstraint.cpp:81-140, StaticPlaneBoxConstraint.cpp:99-151,
StaticPlaneBodyConstraint.cpp:75-127, StaticCylinderSphereConstraint.cpp:63-124; the others inherit scisim/Constraints/Constraint.cpp:149-153, which exits -/
noncomputable def frictionDisk (nb : Nat) (c : Contact3) (q : Pose3) (v : Blocks3) (numSamples : Nat) : Outcome (List (Inserts × ℝ)) :=
  let d := Scisim.frictionDisk (c.normal q) (c.relVel nb q v) numSamples
  match c with
  | bodyBody i j _ r0 r1 | teleported i j _ r0 r1 =>
    .ok ((List.range numSamples).map fun k =>
      ([(i, d k), (i + nb, crossProduct r0 (d k)), (j, -(d k)), (j + nb, -(crossProduct r1 (d k)))], 0))
  | sphereSphere i j _ p _ _ =>
    .ok ((List.range numSamples).map fun k =>
      ([(i, d k), (i + nb, crossProduct (p - q.x i) (d k)), (j, -(d k)), (j + nb, -(crossProduct (p - q.x j) (d k)))], 0))
  | planeBox i _ r _ | planeBody i _ r _ =>
    .ok ((List.range numSamples).map fun k => ([(i, d k), (i + nb, crossProduct r (d k))], 0))
  | planeSphere i r p _ =>
    .ok ((List.range numSamples).map fun k => ([(i, d k), (nb + i, crossProduct ((-r) • p.n) (d k))], -(d k ⬝ᵥ planePointVelocity p (q.x i))))
  | cylinderSphere i r cyl idx =>
    let n := (cylinderSphere i r cyl idx).normal q
    .ok ((List.range numSamples).map fun k =>
      ([(i, d k), (nb + i, crossProduct ((-r) • n) (d k))], -(d k ⬝ᵥ cylinderPointVelocity cyl n (q.x i))))
  | kinematicSphere _ _ _ _ _ _ _ _ | kinematicBody _ _ _ _ | cylinderBody _ _ _ => .exit

/-- `impactStencilSize`, `frictionStencilSize`: the numbers of entries to reserve in a column of `N` and of `D`. BodyBodyConstraint.cpp:166-174,
SphereSphereConstraint.cpp:202-210, TeleportedSphereSphereConstraint.cpp:179-187, KinematicObjectSphereConstraint.cpp:65-73,
KinematicObjectBodyConstraint.cpp:73-81, StaticPlaneSphereConstraint.cpp:169-177, StaticPlaneBoxConstraint.cpp:176-184, StaticPlaneBodyConstraint.cpp:152-160,
StaticCylinderSphereConstraint.cpp:156-164, StaticCylinderBodyConstraint.cpp:28-32 -/
def impactStencilSize : Contact3 → Outcome Nat
  | bodyBody _ _ _ _ _ => .ok 12
  | sphereSphere _ _ _ _ _ _ | teleported _ _ _ _ _ | kinematicBody _ _ _ _ | planeBox _ _ _ _ | planeBody _ _ _ _ => .ok 6
  | kinematicSphere _ _ _ _ _ _ _ _ | planeSphere _ _ _ _ | cylinderSphere _ _ _ _ => .ok 3
  | cylinderBody _ _ _ => .exit

/-- see `impactStencilSize` -/
def frictionStencilSize : Contact3 → Outcome Nat
  | bodyBody _ _ _ _ _ | sphereSphere _ _ _ _ _ _ | teleported _ _ _ _ _ => .ok 12
  | kinematicSphere _ _ _ _ _ _ _ _ | kinematicBody _ _ _ _ | planeSphere _ _ _ _ | planeBox _ _ _ _ | planeBody _ _ _ _ | cylinderSphere _ _ _ _ => .ok 6
  | cylinderBody _ _ _ => .exit

/-- `evalKinematicNormalRelVel`: BodyBodyConstraint.cpp:182-189, SphereSphereConstraint.cpp:223-227, TeleportedSphereSphereConstraint.cpp:201-205,
KinematicObjectSphereConstraint.cpp:87-97, KinematicObjectBodyConstraint.cpp:89-96, StaticPlaneSphereConstraint.cpp:190-195, StaticPlaneBoxConstraint.cpp:192-199,
StaticPlaneBodyConstraint.cpp:173-180, StaticCylinderSphereConstraint.cpp:177-187; the last one inherits scisim/Constraints/Constraint.cpp:179-183,
which exits -/
noncomputable def kinematicNormalRelVel : Contact3 → Pose3 → Outcome ℝ
  | bodyBody _ _ _ _ _, _ | sphereSphere _ _ _ _ _ _, _ | teleported _ _ _ _ _, _ | kinematicSphere _ _ _ _ _ _ _ _, _ | kinematicBody _ _ _ _, _
  | planeBox _ _ _ _, _ | planeBody _ _ _ _, _ => .ok 0
  | planeSphere i _ p _, q => .ok (-(p.n ⬝ᵥ planePointVelocity p (q.x i)))
  | cylinderSphere i r c k, q =>
    let n := (cylinderSphere i r c k).normal q
    .ok (-(n ⬝ᵥ cylinderPointVelocity c n (q.x i)))
  | cylinderBody _ _ _, _ => .exit

/-- `conservesTranslationalMomentum`, `conservesAngularMomentumUnderImpact`, `conservesAngularMomentumUnderImpactAndFriction`: BodyBodyConstraint.cpp:235-248,
SphereSphereConstraint.cpp:303-316, TeleportedSphereSphereConstraint.cpp:207-220, KinematicObjectSphereConstraint.cpp:127-140,
KinematicObjectBodyConstraint.cpp:134-147, StaticPlaneSphereConstraint.cpp:225-238, StaticPlaneBoxConstraint.cpp:230-243, StaticPlaneBodyConstraint.cpp:206-219,
StaticCylinderSphereConstraint.cpp:217-230, StaticCylinderBodyConstraint.cpp:64-77 -/
def conservesTranslationalMomentum : Contact3 → Bool
  | bodyBody _ _ _ _ _ | sphereSphere _ _ _ _ _ _ | teleported _ _ _ _ _ => true
  | kinematicSphere _ _ _ _ _ _ _ _ | kinematicBody _ _ _ _ | planeSphere _ _ _ _ | planeBox _ _ _ _ | planeBody _ _ _ _ | cylinderSphere _ _ _ _
  | cylinderBody _ _ _ => false

/-- see `conservesTranslationalMomentum` -/
def conservesAngularMomentumUnderImpact : Contact3 → Bool
  | bodyBody _ _ _ _ _ | sphereSphere _ _ _ _ _ _ => true
  | teleported _ _ _ _ _ | kinematicSphere _ _ _ _ _ _ _ _ | kinematicBody _ _ _ _ | planeSphere _ _ _ _ | planeBox _ _ _ _ | planeBody _ _ _ _
  | cylinderSphere _ _ _ _ | cylinderBody _ _ _ => false

/-- see `conservesTranslationalMomentum` -/
def conservesAngularMomentumUnderImpactAndFriction : Contact3 → Bool
  | bodyBody _ _ _ _ _ | sphereSphere _ _ _ _ _ _ => true
  | teleported _ _ _ _ _ | kinematicSphere _ _ _ _ _ _ _ _ | kinematicBody _ _ _ _ | planeSphere _ _ _ _ | planeBox _ _ _ _ | planeBody _ _ _ _
  | cylinderSphere _ _ _ _ | cylinderBody _ _ _ => false

/-- `evaluateGapFunction`: SphereSphereConstraint.cpp:28-31, KinematicObjectSphereConstraint.cpp:261-264 (`KinematicSphereSphereConstraint`),
StaticPlaneSphereConstraint.cpp:31-35, StaticCylinderSphereConstraint.cpp:30-36; the others inherit scisim/Constraints/Constraint.cpp:137-141, which exits -/
noncomputable def gap : Contact3 → Pose3 → Outcome ℝ
  | sphereSphere i j _ _ ra rb, q => .ok (norm3 (q.x i - q.x j) - ra - rb)
  | kinematicSphere i r _ k _ _ _ (some rk), q => .ok (norm3 (q.x i - q.x k) - r - rk)
  | planeSphere i r p _, q => .ok (p.n ⬝ᵥ (q.x i - p.x) - r)
  | cylinderSphere i r c _, q => .ok (c.r - norm3 (c.offset (q.x i)) - r)
  | _, _ => .exit

/-- `computePenetrationDepth`: SphereSphereConstraint.cpp:351-354, KinematicObjectSphereConstraint.cpp:256-259 (`KinematicSphereSphereConstraint`),
StaticPlaneSphereConstraint.cpp:303-307, StaticCylinderSphereConstraint.cpp:311-317. The others return NaN (scisim/Constraints/Constraint.cpp:233-236),
which is `none` here. -/
noncomputable def penetrationDepth : Contact3 → Pose3 → Option ℝ
  | sphereSphere i j _ _ ra rb, q => some (min 0 (norm3 (q.x i - q.x j) - ra - rb))
  | kinematicSphere i r _ k _ _ _ (some rk), q => some (min 0 (norm3 (q.x i - q.x k) - r - rk))
  | planeSphere i r p _, q => some (min 0 (p.n ⬝ᵥ (q.x i - p.x) - r))
  | cylinderSphere i r c _, q => some (min 0 (c.r - norm3 (c.offset (q.x i)) - r))
  | _, _ => none

/-- `overlapVolumeGivenDistanceAndRadii`, SphereSphereConstraint.cpp:356-360 -/
noncomputable def overlapVolumeGivenDistanceAndRadii (d r R : ℝ) : ℝ :=
  Real.pi * (R + r - d) * (R + r - d) * (d * d + 2 * d * r - 3 * r * r + 2 * d * R + 6 * r * R - 3 * R * R) / (12 * d)

open Classical in
/-- `computeOverlapVolume`, SphereSphereConstraint.cpp:362-384. The others return NaN (scisim/Constraints/Constraint.cpp:238-241), which is `none` here. -/
noncomputable def overlapVolume : Contact3 → Pose3 → Option ℝ
  | sphereSphere i j _ _ ra rb, q =>
    let d := norm3 (q.x i - q.x j)
    if d > ra + rb then some 0
    else
      let r := min ra rb
      let R := max ra rb
      if d + r ≤ R then some (4 * Real.pi * r * r * r / 3) else some (overlapVolumeGivenDistanceAndRadii d r R)
  | _, _ => none

end Contact3

/-! ## Creation of the contacts -/

/-- What a mesh body uses besides its vertices: the vertices of its convex hull, its surface samples, and the lookup in its signed distance field
(`detectCollision`, rigidbody3d/Geometry/RigidBodyTriangleMesh.cpp:276-330: the normal if a point in the frame of the mesh is inside) -/
structure MeshData where
  hull : List Vec3
  samples : List Vec3
  detect : Vec3 → Option Vec3

/-- What `RigidBody3DState` says about one body: its geometry, the extra data of a mesh (not used for other geometries), and whether it is scripted -/
structure SceneBody3 where
  geometry : Geometry3D
  mesh : MeshData
  fixed : Bool

/-- The data of one step: the bodies, the static planes and cylinders, and the arguments `q0`, `q1` of `computeActiveSet` -/
structure Step3 where
  bodies : List SceneBody3
  planes : List Plane3
  cylinders : List Cylinder3
  q0 : Pose3
  q1 : Pose3

namespace Step3

/-- `nbodies()` -/
def nb (s : Step3) : Nat := s.bodies.length

open Classical in
/-- `SphereSphereConstraint::isActive`, rigidbody3d/Constraints/SphereSphereConstraint.cpp:9-12 -/
noncomputable def sphereSphereIsActive (x0 x1 : Vec3) (r0 r1 : ℝ) : Bool := decide (squaredNorm3 (x0 - x1) ≤ (r0 + r1) * (r0 + r1))

/-- rigidbody3d/RigidBody3DSim.cpp:665-693 `boxBoxNarrowPhaseCollision`. The variable for the normal is not initialised, the model says zero; it is given a value
before the first point is. -/
noncomputable def boxBoxNarrowPhaseCollision (s : Step3) (i j : Nat) (b : SceneBody3) (w0 w1 : Vec3) : List Contact3 :=
  let r := boxBoxIsActive3 (s.q1.x i) (s.q1.R i) w0 (s.q1.x j) (s.q1.R j) w1 0
  if !b.fixed then r.2.map fun p => .mkBodyBody i j p r.1 s.q0 else r.2.map fun p => .mkKinematicBody i j p r.1 s.q0

/-- rigidbody3d/RigidBody3DSim.cpp:793-818 `sphereSphereNarrowPhaseCollision` -/
noncomputable def sphereSphereNarrowPhaseCollision (s : Step3) (i j : Nat) (b : SceneBody3) (r0 r1 : ℝ) : List Contact3 :=
  if sphereSphereIsActive (s.q1.x i) (s.q1.x j) r0 r1 then
    let n := normalized3 (s.q0.x i - s.q0.x j)
    if !b.fixed then
      let p := s.q0.x i + (r0 / (r0 + r1)) • (s.q0.x j - s.q0.x i)
      [.sphereSphere i j n p r0 r1]
    else [.kinematicSphere i r0 n j (s.q0.x j) 0 0 (some r1)]
  else []

/-- rigidbody3d/RigidBody3DSim.cpp:821-841 `stapleStapleNarrowPhaseCollision`; that the second body is scripted is excluded only in debug builds -/
noncomputable def stapleStapleNarrowPhaseCollision (s : Step3) (i j : Nat) (s0 s1 : Staple) : Outcome (List Contact3) :=
  if stapleStapleIsActive (s.q1.x i) (s.q1.R i) s0 (s.q1.x j) (s.q1.R j) s1 then
    (stapleStapleConstraints (s.q1.x i) (s.q1.R i) s0 (s.q1.x j) (s.q1.R j) s1).bind fun l => .ok (l.map fun (p, n) => .mkBodyBody i j p n s.q0)
  else .ok []

/-- rigidbody3d/Constraints/MeshMeshUtilities.cpp:14-36 (and 39-61 with the meshes exchanged): the surface samples of the first mesh that are inside the
second, in world coordinates, and the normals of the second mesh there -/
def samplesInside (cm0 : Vec3) (R0 : Mat3) (m0 : MeshData) (cm1 : Vec3) (R1 : Mat3) (m1 : MeshData) : List (Vec3 × Vec3) :=
  m0.samples.filterMap fun sample =>
    let x := (R1.transpose * R0) *ᵥ sample + R1.transpose *ᵥ (cm0 - cm1)
    (m1.detect x).map fun normal => (R1 *ᵥ x + cm1, R1 *ᵥ normal)

/-- rigidbody3d/Constraints/MeshMeshUtilities.cpp:9-63 `computeActiveSet` -/
def meshMeshActiveSet (cm0 : Vec3) (R0 : Mat3) (m0 : MeshData) (cm1 : Vec3) (R1 : Mat3) (m1 : MeshData) : List (Vec3 × Vec3) :=
  samplesInside cm0 R0 m0 cm1 R1 m1 ++ (samplesInside cm1 R1 m1 cm0 R0 m0).map fun (p, n) => (p, -n)

/-- rigidbody3d/RigidBody3DSim.cpp:844-876 `meshMeshNarrowPhaseCollision` -/
def meshMeshNarrowPhaseCollision (s : Step3) (i j : Nat) (b : SceneBody3) (m0 m1 : MeshData) : List Contact3 :=
  let l := meshMeshActiveSet (s.q1.x i) (s.q1.R i) m0 (s.q1.x j) (s.q1.R j) m1
  if !b.fixed then l.map fun (p, n) => .mkBodyBody i j p n s.q0 else l.map fun (p, n) => .mkKinematicBody i j p n s.q0

/-- rigidbody3d/RigidBody3DSim.cpp:895-961: the switch over the geometries -/
noncomputable def dispatchOrdered (s : Step3) (i j : Nat) (a b : SceneBody3) : Outcome (List Contact3) :=
  match a.geometry, b.geometry with
  | .box w0, .box w1 => .ok (s.boxBoxNarrowPhaseCollision i j b w0 w1)
  | .sphere r0, .sphere r1 => .ok (s.sphereSphereNarrowPhaseCollision i j b r0 r1)
  | .staple s0, .staple s1 => s.stapleStapleNarrowPhaseCollision i j s0 s1
  | .mesh _, .mesh _ => .ok (s.meshMeshNarrowPhaseCollision i j b a.mesh b.mesh)
  | _, _ => .exit

/-- rigidbody3d/RigidBody3DSim.cpp:879-962 `dispatchNarrowPhaseCollision`. Out of range indices are undefined behaviour. -/
noncomputable def dispatchNarrowPhaseCollision (s : Step3) (p : Nat × Nat) : Outcome (List Contact3) :=
  match s.bodies[p.1]?, s.bodies[p.2]? with
  | some a, some b =>
    if a.fixed && b.fixed then .ok []
    else if a.fixed then s.dispatchOrdered p.2 p.1 b a
    else s.dispatchOrdered p.1 p.2 a b
  | _, _ => .ub

/-- rigidbody3d/RigidBody3DSim.cpp:965-1053 `collisionIsActive`, which repeats the code of `dispatchNarrowPhaseCollision` -/
noncomputable def collisionIsActive (s : Step3) (p : Nat × Nat) : Outcome Bool :=
  match s.bodies[p.1]?, s.bodies[p.2]? with
  | some a, some b =>
    if a.fixed && b.fixed then .ok false
    else if a.fixed then (s.dispatchOrdered p.2 p.1 b a).bind fun l => .ok (!l.isEmpty)
    else (s.dispatchOrdered p.1 p.2 a b).bind fun l => .ok (!l.isEmpty)
  | _, _ => .ub

/-- `AABB{ min, max }`; the box of a mesh without vertices is not defined in the model -/
noncomputable def toBox3 (b : Option (Vec3 × Vec3)) : Box 3 ℝ :=
  match b with
  | some (lo, hi) => ⟨lo, hi⟩
  | none => ⟨0, 0⟩

/-- rigidbody3d/RigidBody3DSim.cpp:1057-1069 `generateAABBs`, for the positions `q1` (line 1087) -/
noncomputable def endBoxes (s : Step3) : List (Box 3 ℝ) :=
  s.bodies.zipIdx.map fun (b, i) => toBox3 (b.geometry.aabb (s.q1.x i) (s.q1.R i))

/-- rigidbody3d/RigidBody3DSim.cpp:1090-1118: the teleported boxes, portal by portal -/
noncomputable def teleportedBodies (axis : Vec3 → Vec3 → Vec3) (s : Step3) (portals : List Portal3) : List (TeleportedBall × Box 3 ℝ) :=
  portals.zipIdx.flatMap fun (p, prtl) =>
    s.bodies.zipIdx.filterMap fun (b, i) =>
      let box := toBox3 (b.geometry.aabb (s.q1.x i) (s.q1.R i))
      (p.aabbTouchesPortal box.min box.max).map fun plane =>
        (⟨i, prtl, plane⟩, toBox3 (b.geometry.aabb (p.teleportPoint axis (s.q1.x i) plane) (s.q1.R i)))

/-- rigidbody3d/RigidBody3DSim.cpp:1296-1341 `getTeleportedCollisionCenters`, one of the two bodies -/
noncomputable def imageCenter3 (axis : Vec3 → Vec3 → Vec3) (portals : List Portal3) (q : Pose3) (i : Image) : Vec3 :=
  match i.via with
  | none => q.x i.body
  | some (prtl, plane) =>
    match portals[prtl]? with
    | none => q.x i.body
    | some p => if plane = false then p.teleportPointThroughPlaneA axis (q.x i.body) else p.teleportPointThroughPlaneB axis (q.x i.body)

/-- rigidbody3d/RigidBody3DSim.cpp:1262-1294 `teleportedCollisionHappens` -/
noncomputable def teleportedCollisionHappens (axis : Vec3 → Vec3 → Vec3) (s : Step3) (portals : List Portal3) (c : TeleportedCollision) : Outcome Bool :=
  match s.bodies[c.fst.body]?, s.bodies[c.snd.body]? with
  | some a, some b =>
    match a.geometry, b.geometry with
    | .sphere r0, .sphere r1 =>
      .ok (sphereSphereIsActive (imageCenter3 axis portals s.q1 c.fst) (imageCenter3 axis portals s.q1 c.snd) r0 r1)
    | _, _ => .exit
  | _, _ => .ub

/-- rigidbody3d/RigidBody3DSim.cpp:1187-1199: does the teleported collision happen? The constructor of `TeleportedCollision`,
rigidbody3d/Portals/PlanarPortal.cpp:34-43, orders the bodies as in the plane. -/
noncomputable def classifyTeleported (axis : Vec3 → Vec3 → Vec3) (s : Step3) (portals : List Portal3) (i j : Image) : Outcome (Option TeleportedCollision) :=
  match s.bodies[i.body]?, s.bodies[j.body]? with
  | some a, some b =>
    if a.fixed && b.fixed then .ok none
    else
      let c := Step2.mkTeleportedCollision2 i j
      (s.teleportedCollisionHappens axis portals c).bind fun happens => .ok (if happens then some c else none)
  | _, _ => .ub

/-- rigidbody3d/RigidBody3DSim.cpp:1131-1200, the body of the loop over candidate pairs: contacts to append, or a teleported collision to insert. The test
for two scripted bodies in lines 1139-1142 is repeated by `dispatchNarrowPhaseCollision`. -/
noncomputable def classify3 (axis : Vec3 → Vec3 → Vec3) (s : Step3) (portals : List Portal3) (tele : List TeleportedBall)
    (p : Nat × Nat) : Outcome (List Contact3 × Option TeleportedCollision) :=
  let i := imageOf s.bodies.length tele p.1
  let j := imageOf s.bodies.length tele p.2
  match i.via, j.via with
  | none, none => (s.dispatchNarrowPhaseCollision p).bind fun cs => .ok (cs, none)
  | some _, some _ =>
    (s.collisionIsActive (i.body, j.body)).bind fun dup =>
      if dup then .ok ([], none) else (classifyTeleported axis s portals i j).bind fun t => .ok ([], t)
  | _, _ => (classifyTeleported axis s portals i j).bind fun t => .ok ([], t)

/-- rigidbody3d/RigidBody3DSim.cpp:1131-1200, the loop. `std::set<TeleportedCollision>` compares the two bodies only, rigidbody3d/Portals/PlanarPortal.cpp:45-50,
as in the plane. -/
noncomputable def classifyAll (axis : Vec3 → Vec3 → Vec3) (s : Step3) (portals : List Portal3) (tele : List TeleportedBall) :
    List (Nat × Nat) → List Contact3 × List TeleportedCollision → Outcome (List Contact3 × List TeleportedCollision)
  | [], acc => .ok acc
  | p :: ps, acc =>
    (classify3 axis s portals tele p).bind fun r =>
    classifyAll axis s portals tele ps (acc.1 ++ r.1, match r.2 with | none => acc.2 | some c => insertCollision c acc.2)

/-- rigidbody3d/RigidBody3DSim.cpp:1343-1397 `generateTeleportedCollision`, for the positions `q0` (line 1239) -/
noncomputable def generateTeleportedCollision (axis : Vec3 → Vec3 → Vec3) (s : Step3) (portals : List Portal3) (c : TeleportedCollision) :
    Outcome (List Contact3) :=
  match s.bodies[c.fst.body]?, s.bodies[c.snd.body]? with
  | some a, some b =>
    match a.geometry, b.geometry with
    | .sphere r0, .sphere r1 =>
      let x0 := imageCenter3 axis portals s.q0 c.fst
      let x1 := imageCenter3 axis portals s.q0 c.snd
      if a.fixed && !b.fixed then .ok [.kinematicSphere c.snd.body r1 (normalized3 (x1 - x0)) c.fst.body x0 0 0 none]
      else if !a.fixed && b.fixed then .ok [.kinematicSphere c.fst.body r0 (normalized3 (x0 - x1)) c.snd.body x1 0 0 none]
      else if !a.fixed && !b.fixed then .ok [.mkTeleported c.fst.body c.snd.body x0 x1 r0 r1]
      else .exit
    | _, _ => .exit
  | _, _ => .ub

/-- rigidbody3d/RigidBody3DSim.cpp:1072-1260 `computeActiveSetBodyBodySpatialGrid` -/
noncomputable def computeActiveSetBodyBodySpatialGrid (axis : Vec3 → Vec3 → Vec3) (s : Step3) (portals : List Portal3) :
    Outcome (List Contact3) :=
  let tele := s.teleportedBodies axis portals
  (getPotentialOverlaps (s.endBoxes ++ tele.map (·.2))).bind fun pairs =>
  (classifyAll axis s portals (tele.map (·.1)) pairs ([], [])).bind fun r =>
  (Step2.collect (s.generateTeleportedCollision axis portals) r.2).bind fun cs => .ok (r.1 ++ cs)

open Classical in
/-- rigidbody3d/RigidBody3DSim.cpp:1422-1499, the body of the loop: contacts of one body with one plane. The tests are
rigidbody3d/Constraints/StaticPlaneBoxConstraint.cpp:22-36, StaticPlaneSphereConstraint.cpp:13-17 and MeshMeshUtilities.cpp:65-87. -/
noncomputable def bodyPlane (s : Step3) (k : Nat) (p : Plane3) (i : Nat) (b : SceneBody3) : Outcome (List Contact3) :=
  if b.fixed then .ok []
  else match b.geometry with
    | .box w =>
      .ok (((List.range 8).filter fun corner => decide (p.n ⬝ᵥ (s.q1.R i *ᵥ Contact3.boxCorner w corner + s.q1.x i - p.x) ≤ 0)).map fun corner =>
        .mkPlaneBox i corner p.n w s.q0 k)
    | .sphere r => .ok (if p.n ⬝ᵥ (s.q1.x i - p.x) ≤ r then [.planeSphere i r p k] else [])
    | .staple _ => .exit
    | .mesh _ =>
      .ok ((b.mesh.hull.filter fun vtx => decide (p.n ⬝ᵥ (s.q1.R i *ᵥ vtx + s.q1.x i - p.x) ≤ 0)).map fun vtx =>
        .mkPlaneBody i (s.q0.x i + s.q0.R i *ᵥ vtx) p.n s.q0 k)

/-- rigidbody3d/RigidBody3DSim.cpp:1414-1502 `computeBodyPlaneActiveSetAllPairs` -/
noncomputable def computeBodyPlaneActiveSetAllPairs (s : Step3) : Outcome (List Contact3) :=
  Step2.collect (fun (p, k) => Step2.collect (fun (b, i) => s.bodyPlane k p i b) s.bodies.zipIdx) s.planes.zipIdx

open Classical in
/-- rigidbody3d/RigidBody3DSim.cpp:1512-1554, the body of the loop: contacts of one body with one cylinder. The tests are
rigidbody3d/Constraints/StaticCylinderSphereConstraint.cpp:10-19 and MeshMeshUtilities.cpp:89-113. -/
noncomputable def bodyCylinder (s : Step3) (k : Nat) (c : Cylinder3) (i : Nat) (b : SceneBody3) : Outcome (List Contact3) :=
  if b.fixed then .ok []
  else match b.geometry with
    | .sphere r => .ok (if squaredNorm3 (c.offset (s.q1.x i)) ≥ (c.r - r) * (c.r - r) then [.cylinderSphere i r c k] else [])
    | .mesh _ =>
      .ok ((b.mesh.hull.filter fun vtx => decide (squaredNorm3 (c.offset (s.q1.R i *ᵥ vtx + s.q1.x i)) ≥ c.r * c.r)).map fun vtx =>
        .mkCylinderBody i (s.q0.x i + s.q0.R i *ᵥ vtx) c s.q0)
    | .box _ | .staple _ => .exit

/-- rigidbody3d/RigidBody3DSim.cpp:1504-1557 `computeBodyCylinderActiveSetAllPairs` -/
noncomputable def computeBodyCylinderActiveSetAllPairs (s : Step3) : Outcome (List Contact3) :=
  Step2.collect (fun (c, k) => Step2.collect (fun (b, i) => s.bodyCylinder k c i b) s.bodies.zipIdx) s.cylinders.zipIdx

/-- rigidbody3d/RigidBody3DSim.cpp:250-262 `computeActiveSet` -/
noncomputable def computeActiveSet3 (axis : Vec3 → Vec3 → Vec3) (s : Step3) (portals : List Portal3) : Outcome (List Contact3) :=
  (s.computeActiveSetBodyBodySpatialGrid axis portals).bind fun bodies =>
  s.computeBodyPlaneActiveSetAllPairs.bind fun planes =>
  s.computeBodyCylinderActiveSetAllPairs.bind fun cylinders =>
  .ok (bodies ++ planes ++ cylinders)

end Step3

end Scisim
