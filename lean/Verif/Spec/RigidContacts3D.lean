import Mathlib.Algebra.BigOperators.Group.Finset.Basic
import Verif.Model.RigidContacts3D
import Verif.Spec.Geometry3D
import Verif.Spec.BoxBox3D
import Verif.Spec.Portal3D
/-!
# Rigid motions, impulses at a point and momentum in space, and which contacts there should be
-/

namespace Scisim

open Matrix

/-- A body with centre `x` moves with velocity `v` and angular velocity `omega`: the velocity of its material at the point `P` -/
def rigidVelocity3 (x v omega P : Vec3) : Vec3 := v + crossProduct omega (P - x)

/-- The velocity at `P` of the material of body `i` -/
def bodyVelocity3 (nb : Nat) (q : Pose3) (v : Blocks3) (i : Nat) (P : Vec3) : Vec3 := rigidVelocity3 (q.x i) (v i) (v (nb + i)) P

/-- What an impulse `f` at the point `P` does to the momenta of body `i`, when its centre is seen at `x` -/
def impulseAbout3 (nb : Nat) (x : Vec3) (i : Nat) (P f : Vec3) : Blocks3 := fun k =>
  if k = i then f else if k = nb + i then crossProduct (P - x) f else 0

/-- What an impulse `f` at the point `P` does to the momenta of body `i` -/
def pointImpulse3 (nb : Nat) (q : Pose3) (i : Nat) (P f : Vec3) : Blocks3 := impulseAbout3 nb (q.x i) i P f

/-- The transpose of three rows of `H0` or `H1` times the coordinates `a`, at the blocks of body `i` -/
def rowImpulse3 (nb i : Nat) (r : Contact3.Row3 × Contact3.Row3 × Contact3.Row3) (a : Vec3) : Blocks3 := fun k =>
  if k = i then a 0 • r.1.lin + a 1 • r.2.1.lin + a 2 • r.2.2.lin
  else if k = nb + i then a 0 • r.1.ang + a 1 • r.2.1.ang + a 2 • r.2.2.ang
  else 0

/-- What a contact does to the momenta of the bodies when its impulse has the coordinates `a` in the contact frame for velocities `v`: the transpose of
`( H0, -H1 )` times the coordinates -/
noncomputable def contactImpulse3 (nb : Nat) (c : Contact3) (q : Pose3) (v : Blocks3) (a : Vec3) : Blocks3 :=
  let H := c.evalH q (c.basis nb q v)
  match c.simulatedBodies.2, H.2 with
  | some j, some H1 => fun k => rowImpulse3 nb c.simulatedBodies.1 H.1 a k - rowImpulse3 nb j H1 a k
  | _, _ => rowImpulse3 nb c.simulatedBodies.1 H.1 a

/-- The vector with coordinates `a` in a frame -/
def inFrame (b : Vec3 × Vec3 × Vec3) (a : Vec3) : Vec3 := a 0 • b.1 + a 1 • b.2.1 + a 2 • b.2.2

/-- What an impulse `f` at `P` does to the momenta of the simulated bodies of a contact: it acts on the first, and its opposite on the second, if there is
one. -/
def pairImpulse3 (nb : Nat) (q : Pose3) (bodies : Nat × Option Nat) (P f : Vec3) : Blocks3 :=
  match bodies.2 with
  | some j => fun k => pointImpulse3 nb q bodies.1 P f k - pointImpulse3 nb q j P f k
  | none => pointImpulse3 nb q bodies.1 P f

/-- The product of momenta and velocities of `nb` bodies -/
noncomputable def power3 (nb : Nat) (f v : Blocks3) : ℝ := ∑ k ∈ Finset.range (2 * nb), f k ⬝ᵥ v k

/-- The sum of the linear momenta of `nb` bodies -/
noncomputable def totalLinear3 (nb : Nat) (f : Blocks3) : Vec3 := ∑ b ∈ Finset.range nb, f b

/-- The angular momentum of `nb` bodies about the origin -/
noncomputable def totalAngular3 (nb : Nat) (q : Pose3) (f : Blocks3) : Vec3 := ∑ b ∈ Finset.range nb, (crossProduct (q.x b) (f b) + f (nb + b))

/-- The contact is between a body and something that is in the same place: it was not found through a portal. -/
def Contact3.Direct : Contact3 → Prop
  | .teleported _ _ _ _ _ | .kinematicSphere _ _ _ _ _ _ _ none => False
  | _ => True

/-- `Q` is a point of `S` that is closest to `x`. -/
def IsClosest3 (S : Set Vec3) (x Q : Vec3) : Prop := Q ∈ S ∧ ∀ z ∈ S, distSq3 x Q ≤ distSq3 x z

/-- The points of a plane -/
def Plane3.surface (p : Plane3) : Set Vec3 := {z | p.height z = 0}

/-- The points of the wall of a cylinder with a unit axis -/
def Cylinder3.surface (c : Cylinder3) : Set Vec3 := {z | inner3 (z - c.x) (z - c.x) - inner3 c.axis (z - c.x) ^ 2 = c.r ^ 2}

/-- The body does not have its centre on the axis of the cylinder. -/
def Cylinder3.OffAxis (c : Cylinder3) (z : Vec3) : Prop := ∀ t : ℝ, z ≠ c.x + t • c.axis

/-- The place `Q` where the partner of the first body is looked at when that body is touched at `P`: the same point, except that for a sphere that touches a
plane or a cylinder it is the point of the surface closest to the centre of the sphere. -/
def Contact3.Opposite (s : Step3) (P Q : Vec3) : Contact3 → Prop
  | .planeSphere i _ _ k => ∀ p, s.planes[k]? = some p → IsClosest3 p.surface (s.q0.x i) Q
  | .cylinderSphere i _ _ k => ∀ c, s.cylinders[k]? = some c → IsClosest3 c.surface (s.q0.x i) Q
  | _ => Q = P

/-- The velocity at `Q` of what the first body of a direct contact touches: the second body, the scripted body, the plane or the cylinder -/
noncomputable def partnerVelocity3 (s : Step3) (v : Blocks3) (c : Contact3) (Q : Vec3) : Vec3 :=
  match c with
  | .bodyBody _ j _ _ _ | .sphereSphere _ j _ _ _ _ | .teleported _ j _ _ _ | .kinematicSphere _ _ _ j _ _ _ _ | .kinematicBody _ j _ _ =>
    bodyVelocity3 s.nb s.q0 v j Q
  | .planeSphere _ _ _ k | .planeBox _ _ _ k | .planeBody _ _ _ k =>
    match s.planes[k]? with
    | some p => rigidVelocity3 p.x p.v p.omega Q
    | none => 0
  | .cylinderSphere _ _ _ k =>
    match s.cylinders[k]? with
    | some c => rigidVelocity3 c.x c.v c.omega Q
    | none => 0
  | .cylinderBody _ _ c => rigidVelocity3 c.x c.v c.omega Q

/-- Scripted bodies, and planes and cylinders that do not touch a sphere, are at rest. -/
def Contact3.PartnerAtRest (s : Step3) (v : Blocks3) : Contact3 → Prop
  | .kinematicSphere _ _ _ k _ _ _ _ | .kinematicBody _ k _ _ => v k = 0 ∧ v (s.nb + k) = 0
  | .planeBox _ _ _ k | .planeBody _ _ _ k => ∀ p, s.planes[k]? = some p → p.v = 0 ∧ p.omega = 0
  | .cylinderBody _ _ c => c.v = 0 ∧ c.omega = 0
  | _ => True

/-- The centre of an image of a body, in configuration `q`: the centre of the body, moved by the portal through which it is seen -/
noncomputable def Image.centre3 (axis : Vec3 → Vec3 → Vec3) (portals : List Portal3) (q : Pose3) (i : Image) : Vec3 :=
  match i.via with
  | none => q.x i.body
  | some (k, plane) =>
    match portals[k]? with
    | none => q.x i.body
    | some p => p.teleportPoint axis (q.x i.body) plane

/-- The planes have unit normals, the cylinders unit axes and positive radii, and no sphere has its centre on the axis of a cylinder. -/
def Step3.ProperSurfaces (s : Step3) : Prop :=
  (∀ p ∈ s.planes, inner3 p.n p.n = 1) ∧
  ∀ c ∈ s.cylinders, inner3 c.axis c.axis = 1 ∧ 0 < c.r ∧ ∀ i b r, s.bodies[i]? = some b → b.geometry = .sphere r → c.OffAxis (s.q0.x i)

/-- The points of body `i` in configuration `q` -/
noncomputable def SceneBody3.pointsAt (b : SceneBody3) (q : Pose3) (i : Nat) : Set Vec3 := PosedBody3D.points ⟨b.geometry, q.x i, q.R i⟩

/-- A sphere has a positive radius, a box no negative width, and the vertices that were stored as those of the convex hull of a mesh have the same convex hull
as all its vertices. -/
def SceneBody3.Sound (b : SceneBody3) : Prop :=
  match b.geometry with
  | .sphere r => 0 < r
  | .box w => ∀ i, 0 ≤ w i
  | .mesh verts => convexHull ℝ {v | v ∈ b.mesh.hull} = convexHull ℝ {v | v ∈ verts}
  | .staple _ => True

/-- Both bodies are spheres, or both are boxes, or both meshes, or both staples. -/
def SameKind3 (a b : SceneBody3) : Prop :=
  match a.geometry, b.geometry with
  | .sphere _, .sphere _ | .box _, .box _ | .mesh _, .mesh _ | .staple _, .staple _ => True
  | _, _ => False

/-- Body `i`, a mesh, has a surface sample at the point `z` that is inside the mesh of body `j`, with the normal `n` there. -/
def SampleInside3 (q : Pose3) (i j : Nat) (a b : SceneBody3) (z n : Vec3) : Prop :=
  ∃ y ∈ a.mesh.samples, z = q.x i + q.R i *ᵥ y ∧ ∃ m, b.mesh.detect ((q.R j).transpose *ᵥ (z - q.x j)) = some m ∧ n = q.R j *ᵥ m

/-- The axis aligned boxes of two bodies have a point in common. -/
def BoxesMeet3 (q : Pose3) (i j : Nat) (a b : SceneBody3) : Prop :=
  ∃ (A B : Vec3 × Vec3) (z : Vec3), a.geometry.aabb (q.x i) (q.R i) = some A ∧ b.geometry.aabb (q.x j) (q.R j) = some B ∧
    ∀ t, A.1 t ≤ z t ∧ z t ≤ A.2 t ∧ B.1 t ≤ z t ∧ z t ≤ B.2 t

/-- The bodies `i` and `j` collide at the end of the step: two spheres have a point in common; two boxes have one that is not on their surfaces; the axis aligned
boxes of two meshes have one, and a surface sample of one mesh is inside the other. -/
def Collide3 (s : Step3) (i j : Nat) (a b : SceneBody3) : Prop :=
  match a.geometry, b.geometry with
  | .sphere _, .sphere _ => ∃ z, z ∈ a.pointsAt s.q1 i ∧ z ∈ b.pointsAt s.q1 j
  | .mesh _, .mesh _ => BoxesMeet3 s.q1 i j a b ∧ ∃ z n, SampleInside3 s.q1 i j a b z n ∨ SampleInside3 s.q1 j i b a z n
  | .box w0, .box w1 => ∃ z, z ∈ boxInterior3 (s.q1.x i) (s.q1.R i) w0 ∧ z ∈ boxInterior3 (s.q1.x j) (s.q1.R j) w1
  | _, _ => False

/-- The bodies `i` and `j` touch at the end of the step: they collide, or they are two boxes that have a point in common. -/
def Touch3 (s : Step3) (i j : Nat) (a b : SceneBody3) : Prop :=
  match a.geometry, b.geometry with
  | .box _, .box _ => ∃ z, z ∈ a.pointsAt s.q1 i ∧ z ∈ b.pointsAt s.q1 j
  | _, _ => Collide3 s i j a b

/-- What the program can treat when the axis aligned boxes of the bodies `i` and `j` meet: two spheres, two meshes, two boxes with positive widths, and two staples
that have no point in common at the end of the step. -/
def Supported3 (s : Step3) (i j : Nat) (a b : SceneBody3) : Prop :=
  match a.geometry, b.geometry with
  | .sphere _, .sphere _ | .mesh _, .mesh _ => True
  | .box w0, .box w1 => (∀ t, 0 < w0 t) ∧ (∀ t, 0 < w1 t) ∧ (s.q1.R i).transpose * s.q1.R i = 1 ∧ (s.q1.R j).transpose * s.q1.R j = 1
  | .staple s0, .staple s1 => 0 ≤ s0.r ∧ 0 ≤ s1.r ∧ ∀ z, ¬(z ∈ a.pointsAt s.q1 i ∧ z ∈ b.pointsAt s.q1 j)
  | _, _ => False

/-- The two bodies of a contact between bodies (simulated or scripted), the smaller index first -/
def Contact3.pair : Contact3 → Option (Nat × Nat)
  | .bodyBody i j _ _ _ | .sphereSphere i j _ _ _ _ | .teleported i j _ _ _ | .kinematicSphere i _ _ j _ _ _ _ | .kinematicBody i j _ _ =>
    some (min i j, max i j)
  | _ => none

/-- The body and the plane of a contact with a plane -/
def Contact3.planePair : Contact3 → Option (Nat × Nat)
  | .planeSphere i _ _ k | .planeBox i _ _ k | .planeBody i _ _ k => some (i, k)
  | _ => none

/-- The body and the cylinder of a contact with a cylinder -/
def Contact3.cylinderPair : Contact3 → Option (Nat × Cylinder3)
  | .cylinderSphere i _ c _ | .cylinderBody i _ c => some (i, c)
  | _ => none

/-- The squared distance of a point from the axis of a cylinder -/
def Cylinder3.distSqAxis (c : Cylinder3) (z : Vec3) : ℝ := inner3 (z - c.x) (z - c.x) - inner3 c.axis (z - c.x) ^ 2

end Scisim
