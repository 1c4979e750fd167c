import Mathlib.Algebra.BigOperators.Group.Finset.Basic
import Verif.Model.RigidContacts2D
import Verif.Spec.BallContacts
import Verif.Spec.Geometry2D
/-!
# Rigid motions, impulses at a point, momentum, and which contacts there should be
-/

namespace Scisim

/-- A body with centre `x` moves with velocity `v` and angular velocity `omega`: the velocity of its material at the point `P` -/
def rigidVelocity (x v : V2 ℝ) (omega : ℝ) (P : V2 ℝ) : V2 ℝ := ⟨v.x - omega * (P.y - x.y), v.y + omega * (P.x - x.x)⟩

/-- The velocity at `P` of the material of body `i` -/
def bodyVelocity (q v : Dofs) (i : Nat) (P : V2 ℝ) : V2 ℝ := rigidVelocity ⟨q (3 * i), q (3 * i + 1)⟩ ⟨v (3 * i), v (3 * i + 1)⟩ (v (3 * i + 2)) P

/-- What an impulse `f` at the point `P` does to the momenta of body `i`, when its centre is seen at `x` -/
def impulseAbout (x : V2 ℝ) (i : Nat) (P f : V2 ℝ) : Dofs := fun k =>
  if k = 3 * i then f.x
  else if k = 3 * i + 1 then f.y
  else if k = 3 * i + 2 then (P.x - x.x) * f.y - (P.y - x.y) * f.x
  else 0

/-- What an impulse `f` at the point `P` does to the momenta of body `i` -/
def pointImpulse (q : Dofs) (i : Nat) (P f : V2 ℝ) : Dofs := impulseAbout ⟨q (3 * i), q (3 * i + 1)⟩ i P f

/-- The transpose of two rows of `H0` or `H1` times `( alpha, beta )`, at the degrees of freedom of body `i` -/
noncomputable def rowImpulse (i : Nat) (r : Contact2.Row × Contact2.Row) (alpha beta : ℝ) : Dofs := fun k =>
  if k = 3 * i then alpha * r.1.lin.x + beta * r.2.lin.x
  else if k = 3 * i + 1 then alpha * r.1.lin.y + beta * r.2.lin.y
  else if k = 3 * i + 2 then alpha * r.1.ang + beta * r.2.ang
  else 0

/-- What a contact does to the momenta of the bodies when its impulse has the coordinates `alpha`, `beta` in the contact frame: the transpose of
`( H0, -H1 )` times the coordinates -/
noncomputable def contactImpulse (c : Contact2) (q : Dofs) (alpha beta : ℝ) : Dofs :=
  let H := c.evalH q c.normal c.tangent
  match c.simulatedBodies.2, H.2 with
  | some j, some H1 => fun k => rowImpulse c.simulatedBodies.1 H.1 alpha beta k - rowImpulse j H1 alpha beta k
  | _, _ => rowImpulse c.simulatedBodies.1 H.1 alpha beta

/-- The product of momenta and velocities of `nb` bodies -/
noncomputable def power (nb : Nat) (f v : Dofs) : ℝ := ∑ k ∈ Finset.range (3 * nb), f k * v k

/-- The sum of the linear momenta of `nb` bodies -/
noncomputable def totalLinear (nb : Nat) (f : Dofs) : V2 ℝ := ⟨∑ b ∈ Finset.range nb, f (3 * b), ∑ b ∈ Finset.range nb, f (3 * b + 1)⟩

/-- The angular momentum of `nb` bodies about the origin -/
noncomputable def totalAngular (nb : Nat) (q f : Dofs) : ℝ :=
  ∑ b ∈ Finset.range nb, (q (3 * b) * f (3 * b + 1) - q (3 * b + 1) * f (3 * b) + f (3 * b + 2))

/-- The contact is between a body and something that is in the same place: it was not found through a portal. -/
def Contact2.Direct : Contact2 → Prop
  | .teleported _ _ _ _ _ | .kick _ _ _ _ _ _ => False
  | _ => True

/-- The velocity at `P` of what the first body of a direct contact touches: the second body, the scripted body (which moves as it did when the contact
was found) or the plane -/
noncomputable def partnerVelocity (s : Step2) (v : Dofs) (c : Contact2) (P : V2 ℝ) : V2 ℝ :=
  match c with
  | .bodyBody _ j _ _ _ | .circleCircle _ j _ _ _ _ | .teleported _ j _ _ _ | .kick _ j _ _ _ _ => bodyVelocity s.q0 v j P
  | .kinematicCircle _ _ _ k _ _ _ => bodyVelocity s.q0 s.v k P
  | .planeCircle _ k _ _ | .planeBody _ _ _ k =>
    match s.planes[k]? with
    | some p => rigidVelocity p.x p.v p.omega P
    | none => 0

/-- The plane of a contact of a box with a plane is at rest. -/
def Contact2.PlaneAtRest (s : Step2) : Contact2 → Prop
  | .planeBody _ _ _ k => ∀ p, s.planes[k]? = some p → p.v = 0 ∧ p.omega = 0
  | _ => True

/-- The centre of an image of a body, in configuration `q` -/
noncomputable def Image.centre (junk : ℝ → ℤ) (portals : List (PlanarPortal ℝ)) (q : Dofs) (i : Image) : V2 ℝ :=
  i.see junk portals ⟨q (3 * i.body), q (3 * i.body + 1)⟩

/-- The velocity at `P` of the material of an image of a body: that of the body, moved with the centre, plus the velocity of the portal -/
noncomputable def imageVelocity (junk : ℝ → ℤ) (portals : List (PlanarPortal ℝ)) (q v : Dofs) (i : Image) (P : V2 ℝ) : V2 ℝ :=
  rigidVelocity (i.centre junk portals q) ⟨v (3 * i.body), v (3 * i.body + 1)⟩ (v (3 * i.body + 2)) P +
    match i.via with
    | none => 0
    | some (k, plane) =>
      match portals[k]? with
      | none => 0
      | some p => kickOf p plane

/-- The points of a body at the start (`q0`) or at the end (`q1`) of a step -/
def Body2.pointsAt (b : Body2) (q : Dofs) (i : Nat) : Set (V2 ℝ) := PosedBody2D.points ⟨b.geometry, ⟨q (3 * i), q (3 * i + 1)⟩, q (3 * i + 2)⟩

/-- A body has a positive size. -/
def Body2.Solid (b : Body2) : Prop :=
  match b.geometry with
  | .circle r => 0 < r
  | .box r => 0 < r.x ∧ 0 < r.y

/-- The bodies `i` and `j` collide: two circles, moved in straight lines from their start to their end positions, meet at some time of the step; a
box and another body meet at the end of the step. -/
def Collide2 (s : Step2) (i j : Nat) (a b : Body2) : Prop :=
  match a.geometry, b.geometry with
  | .circle ra, .circle rb => ∃ t, CollideAt ⟨s.q0 (3 * i), s.q0 (3 * i + 1)⟩ ⟨s.q1 (3 * i), s.q1 (3 * i + 1)⟩ ra
      ⟨s.q0 (3 * j), s.q0 (3 * j + 1)⟩ ⟨s.q1 (3 * j), s.q1 (3 * j + 1)⟩ rb t
  | _, _ => ∃ z, z ∈ a.pointsAt s.q1 i ∧ z ∈ b.pointsAt s.q1 j

/-- Pairs of bodies that the program gives up on when their boxes overlap: a scripted body next to a box, except that a box may be scripted if the other
body is a circle -/
def Unsupported2 (a b : Body2) : Prop :=
  (a.fixed ≠ b.fixed) ∧
  match a.geometry, b.geometry with
  | .circle _, .circle _ => False
  | .circle _, .box _ => a.fixed = true
  | .box _, .circle _ => b.fixed = true
  | .box _, .box _ => True

/-- The two bodies of a contact between bodies (simulated or scripted), the smaller index first -/
def Contact2.pair : Contact2 → Option (Nat × Nat)
  | .bodyBody i j _ _ _ | .circleCircle i j _ _ _ _ | .teleported i j _ _ _ | .kick i j _ _ _ _ => some (min i j, max i j)
  | .kinematicCircle i _ _ k _ _ _ => some (min i k, max i k)
  | .planeCircle _ _ _ _ | .planeBody _ _ _ _ => none

/-- The body and the plane of a contact with a plane -/
def Contact2.planePair : Contact2 → Option (Nat × Nat)
  | .planeCircle i k _ _ => some (i, k)
  | .planeBody i _ _ k => some (i, k)
  | _ => none

end Scisim
