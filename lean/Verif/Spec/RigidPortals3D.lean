import Verif.Spec.RigidContacts3D
/-!
# Rigid bodies in space seen through portals
-/

namespace Scisim

open Matrix

/-- The axis aligned box of body `b`, with its centre moved to `c`, in the orientation that body `i` has in `q`, contains `z`. -/
def InBox3 (b : SceneBody3) (q : Pose3) (i : Nat) (c z : Vec3) : Prop :=
  ∃ A : Vec3 × Vec3, b.geometry.aabb c (q.R i) = some A ∧ ∀ t, A.1 t ≤ z t ∧ z t ≤ A.2 t

/-- The axis aligned box of body `i` at the end of the step has a point that is not in front of the plane. -/
def BoxReaches3 (s : Step3) (b : SceneBody3) (i : Nat) (p : Plane3) : Prop := ∃ z, InBox3 b s.q1 i (s.q1.x i) z ∧ p.height z ≤ 0

/-- `u` is an image of the body `b` at the end of the step, with its centre at `c`: the body itself, or the body seen through the first plane of a portal
that the box around it reaches, or, if it does not reach the first, the second. -/
def IsImage3 (axis : Vec3 → Vec3 → Vec3) (portals : List Portal3) (s : Step3) (u : Image) (b : SceneBody3) (c : Vec3) : Prop :=
  s.bodies[u.body]? = some b ∧
  match u.via with
  | none => c = s.q1.x u.body
  | some (k, plane) => ∃ p, portals[k]? = some p ∧
      ((plane = false ∧ BoxReaches3 s b u.body p.planeA ∧ c = p.teleportPointThroughPlaneA axis (s.q1.x u.body)) ∨
       (plane = true ∧ ¬BoxReaches3 s b u.body p.planeA ∧ BoxReaches3 s b u.body p.planeB ∧ c = p.teleportPointThroughPlaneB axis (s.q1.x u.body)))

/-- The axis aligned boxes of two images have a point in common. -/
def ImageBoxesMeet3 (s : Step3) (u v : Image) (a b : SceneBody3) (ca cb : Vec3) : Prop :=
  ∃ z, InBox3 a s.q1 u.body ca z ∧ InBox3 b s.q1 v.body cb z

/-- Both bodies are spheres. -/
def BothSpheres (a b : SceneBody3) : Prop := (∃ r, a.geometry = .sphere r) ∧ ∃ r, b.geometry = .sphere r

/-- The points of a body, with its centre moved to `c` -/
noncomputable def SceneBody3.pointsSeen (b : SceneBody3) (q : Pose3) (i : Nat) (c : Vec3) : Set Vec3 := PosedBody3D.points ⟨b.geometry, c, q.R i⟩

/-- Two images of spheres collide through a portal: at least one of them is seen through a portal, they have a point in common, and it is not the case that
both are seen through portals while the spheres have a point in common directly. -/
def CollideThroughPortal3 (axis : Vec3 → Vec3 → Vec3) (portals : List Portal3) (s : Step3) (u v : Image) : Prop :=
  ∃ a b ca cb, IsImage3 axis portals s u a ca ∧ IsImage3 axis portals s v b cb ∧ BothSpheres a b ∧ (u.via ≠ none ∨ v.via ≠ none) ∧
    (∃ z, z ∈ a.pointsSeen s.q1 u.body ca ∧ z ∈ b.pointsSeen s.q1 v.body cb) ∧
    ¬(u.via ≠ none ∧ v.via ≠ none ∧ ∃ z, z ∈ a.pointsAt s.q1 u.body ∧ z ∈ b.pointsAt s.q1 v.body)

/-- What the program can treat when the boxes of two images meet, at least one of which is seen through a portal: two spheres; or two bodies, both of them seen
through portals, that collide directly, for which nothing is done here. -/
def SupportedImages3 (s : Step3) (u v : Image) (a b : SceneBody3) : Prop :=
  BothSpheres a b ∨ (u.via ≠ none ∧ v.via ≠ none ∧ Supported3 s u.body v.body a b ∧ Collide3 s u.body v.body a b)

/-- What the program surely gives up on: a sphere and another body or two bodies that are not spheres, one of them seen through a portal and the other not;
or bodies of different kinds, seen through portals. -/
def UnsupportedImages3 (u v : Image) (a b : SceneBody3) : Prop :=
  ¬BothSpheres a b ∧ (u.via ≠ none ∨ v.via ≠ none) ∧ (u.via = none ∨ v.via = none ∨ ¬SameKind3 a b)

/-- The boxes that the broad phase is given: those of the bodies at the end of the step and those of their images -/
noncomputable def Step3.portalBoxes3 (axis : Vec3 → Vec3 → Vec3) (s : Step3) (portals : List Portal3) : List (Box 3 ℝ) :=
  s.endBoxes ++ (s.teleportedBodies axis portals).map (·.2)

end Scisim
