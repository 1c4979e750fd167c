import Verif.Spec.RigidContacts2D
/-!
# Rigid bodies in the plane seen through portals
-/

namespace Scisim

/-- `z` lies in the smallest axis-aligned box around the points of `S`. -/
def InBounds2 (S : Set (V2 ℝ)) (z : V2 ℝ) : Prop :=
  (∃ u ∈ S, u.x ≤ z.x) ∧ (∃ u ∈ S, z.x ≤ u.x) ∧ (∃ u ∈ S, u.y ≤ z.y) ∧ ∃ u ∈ S, z.y ≤ u.y

/-- The boxes around `S` and `T` have a point in common. -/
def BoundsMeet2 (S T : Set (V2 ℝ)) : Prop := ∃ z, InBounds2 S z ∧ InBounds2 T z

/-- The box around `S` has a point that is not in front of the plane. -/
def BoundsReach2 (S : Set (V2 ℝ)) (p : HalfPlane ℝ) : Prop := ∃ z, InBounds2 S z ∧ p.height z ≤ 0

/-- The points of body `i` at the end of the step, with its centre moved to `c` -/
def Body2.pointsSeen (b : Body2) (q : Dofs) (i : Nat) (c : V2 ℝ) : Set (V2 ℝ) := PosedBody2D.points ⟨b.geometry, c, q (3 * i + 2)⟩

/-- `u` is an image of the body `b` at the end of the step, with its centre at `c`: the body itself, or the body seen through the first plane of a portal
that the box around it reaches, or, if it does not reach the first, the second. -/
def IsImage2 (junk : ℝ → ℤ) (portals : List (PlanarPortal ℝ)) (s : Step2) (u : Image) (b : Body2) (c : V2 ℝ) : Prop :=
  s.bodies[u.body]? = some b ∧
  match u.via with
  | none => c = ⟨s.q1 (3 * u.body), s.q1 (3 * u.body + 1)⟩
  | some (k, plane) => ∃ p, portals[k]? = some p ∧
      ((plane = false ∧ BoundsReach2 (b.pointsAt s.q1 u.body) p.planeA ∧
          c = p.teleportPointThroughPlaneA junk ⟨s.q1 (3 * u.body), s.q1 (3 * u.body + 1)⟩) ∨
       (plane = true ∧ ¬BoundsReach2 (b.pointsAt s.q1 u.body) p.planeA ∧ BoundsReach2 (b.pointsAt s.q1 u.body) p.planeB ∧
          c = p.teleportPointThroughPlaneB junk ⟨s.q1 (3 * u.body), s.q1 (3 * u.body + 1)⟩))

/-- Two images collide through a portal: at least one of them is seen through a portal, they have a point in common, and it is not the case that both
are seen through portals while the bodies have a point in common directly. -/
def CollideThroughPortal2 (junk : ℝ → ℤ) (portals : List (PlanarPortal ℝ)) (s : Step2) (u v : Image) : Prop :=
  ∃ a b ca cb, IsImage2 junk portals s u a ca ∧ IsImage2 junk portals s v b cb ∧ (u.via ≠ none ∨ v.via ≠ none) ∧
    (∃ z, z ∈ a.pointsSeen s.q1 u.body ca ∧ z ∈ b.pointsSeen s.q1 v.body cb) ∧
    ¬(u.via ≠ none ∧ v.via ≠ none ∧ ∃ z, z ∈ a.pointsAt s.q1 u.body ∧ z ∈ b.pointsAt s.q1 v.body)

/-- Both bodies are circles. -/
def BothCircles (a b : Body2) : Prop := (∃ r, a.geometry = .circle r) ∧ ∃ r, b.geometry = .circle r

/-- Pairs of images that the program gives up on when the boxes around them meet. Without portals: `Unsupported2`. Through portals: anything but two circles,
unless both are scripted and only one of them is seen through a portal -/
def UnsupportedImages (u v : Image) (a b : Body2) : Prop :=
  if u.via = none ∧ v.via = none then Unsupported2 a b
  else ¬BothCircles a b ∧ (¬(a.fixed = true ∧ b.fixed = true) ∨ (u.via ≠ none ∧ v.via ≠ none))

/-- The boxes around two different images meet, and the program does not support the pair. -/
def MeetUnsupported2 (junk : ℝ → ℤ) (portals : List (PlanarPortal ℝ)) (s : Step2) : Prop :=
  ∃ u v a b ca cb, u ≠ v ∧ IsImage2 junk portals s u a ca ∧ IsImage2 junk portals s v b cb ∧
    BoundsMeet2 (a.pointsSeen s.q1 u.body ca) (b.pointsSeen s.q1 v.body cb) ∧ UnsupportedImages u v a b

/-- A scripted body and a body that is not scripted collide through a portal. -/
def CollideScripted2 (junk : ℝ → ℤ) (portals : List (PlanarPortal ℝ)) (s : Step2) : Prop :=
  ∃ u v a b, CollideThroughPortal2 junk portals s u v ∧ s.bodies[u.body]? = some a ∧ s.bodies[v.body]? = some b ∧ a.fixed ≠ b.fixed

/-- The two bodies of a contact through a portal, in the order of the contact -/
def Contact2.portalPair : Contact2 → Option (Nat × Nat)
  | .teleported i j _ _ _ | .kick i j _ _ _ _ => some (i, j)
  | _ => none

/-- The two bodies of a contact between bodies that was not found through a portal -/
def Contact2.directPair : Contact2 → Option (Nat × Nat)
  | .teleported _ _ _ _ _ | .kick _ _ _ _ _ _ => none
  | c => c.pair

/-- The boxes that the broad phase is given when there are portals: those around the bodies at the end of the step and those around their images -/
noncomputable def Step2.portalBoxes (junk : ℝ → ℤ) (s : Step2) (portals : List (PlanarPortal ℝ)) : List (Box 2 ℝ) :=
  s.bodies.zipIdx.map (fun (b, i) => Step2.toBox (s.endBox b i)) ++ (s.teleportedBodies junk portals).map (·.2)

end Scisim
