import Verif.Model.Maps
import Verif.Model.Vec2
/-!
# Contact frames, friction directions and the linear friction constraint
-/

namespace Scisim

open Matrix

/-- rigidbody3d/Constraints/FrictionUtilities.cpp:18-30 `orthogonalVector` -/
noncomputable def orthogonalVector (n : Vec3) : Vec3 :=
  let orthog : Vec3 :=
    if |n 0| ≤ |n 1| ∧ |n 0| ≤ |n 2| then ![1, 0, 0] else if |n 1| ≤ |n 2| then ![0, 1, 0] else ![0, 0, 1]
  normalized3 (orthog - (n ⬝ᵥ orthog) • n)

/-- Eigen `squaredNorm` of a three-dimensional vector -/
def squaredNorm3 (v : Vec3) : ℝ := v 0 * v 0 + v 1 * v 1 + v 2 * v 2

/-- `computeContactBasis`: rigidbody3d/Constraints/SphereSphereConstraint.cpp:273-300. The same code with the contact's own normal and relative velocity
in BodyBodyConstraint.cpp:255-283, StaticCylinderSphereConstraint.cpp:263-292, StaticPlaneSphereConstraint.cpp:255-285,
StaticPlaneBoxConstraint.cpp:250-278, KinematicObjectBodyConstraint.cpp:154-182, TeleportedSphereSphereConstraint.cpp:267-295,
KinematicObjectSphereConstraint.cpp:181-209, StaticCylinderBodyConstraint.cpp:102-134, StaticPlaneBodyConstraint.cpp:241-269.
`vrel` is the relative velocity of the bodies at the contact; the three columns of the result are the three vectors returned. -/
noncomputable def contactBasis3 (n vrel : Vec3) : Vec3 × Vec3 × Vec3 :=
  let s := if squaredNorm3 (crossProduct n vrel) < 1 / 1000000000 then orthogonalVector n else normalized3 (vrel - (vrel ⬝ᵥ n) • n)
  let s := -s
  (n, s, normalized3 (crossProduct n s))

/-- `computeContactBasis` in the plane: ball2d/Constraints/BallBallConstraint.cpp:244-252, BallStaticDrumConstraint.cpp:193-202,
BallStaticPlaneConstraint.cpp:196-206 (whose tangent was computed in the same way by ball2d/StaticGeometry/StaticPlane.cpp:14);
rigidbody2d/CircleCircleConstraint.cpp:143-151, BodyBodyConstraint.cpp:73-81, StaticPlaneBodyConstraint.cpp:99-108,
StaticPlaneCircleConstraint.cpp:122-132, KinematicObjectCircleConstraint.cpp:92-100, TeleportedCircleCircleConstraint.cpp:127-135 -/
def contactBasis2 {K : Type} [Field K] (n : V2 K) : V2 K × V2 K := (n, ⟨-n.y, n.x⟩)

/-- rigidbody3d/Constraints/FrictionUtilities.cpp:32-64 `generateOrthogonalVectors`: the vector with index `i` of `size` vectors. The code computes
vector 0 without a rotation. -/
noncomputable def generateOrthogonalVectors (n : Vec3) (size : Nat) (suggestedTangent : Vec3) (i : Nat) : Vec3 :=
  let first := normalized3 (suggestedTangent - (n ⬝ᵥ suggestedTangent) • n)
  if i = 0 then first else
    let dtheta := 2 * Real.pi / (size : ℝ)
    angleAxisMatrix ((i : ℝ) * dtheta) n *ᵥ first

/-- rigidbody3d/Constraints/SphereSphereConstraint.cpp:100-114: the directions in which friction is sampled. The same code in
StaticPlaneSphereConstraint.cpp:93-106, BodyBodyConstraint.cpp:75-88, StaticCylinderSphereConstraint.cpp:77-90, StaticPlaneBoxConstraint.cpp,
StaticPlaneBodyConstraint.cpp and TeleportedSphereSphereConstraint.cpp. -/
noncomputable def frictionDisk (n vrel : Vec3) (numSamples : Nat) (i : Nat) : Vec3 :=
  let suggestion := if squaredNorm3 (crossProduct vrel n) < 1 / 1000000000 then orthogonalVector n else vrel
  let suggestion := -suggestion
  generateOrthogonalVectors n numSamples suggestion i

/-- `E.insert( r, c ) = 1.0` -/
def insertOne (E : Nat → Nat → ℝ) (r c : Nat) : Nat → Nat → ℝ := fun r' c' => if r' = r ∧ c' = c then 1 else E r' c'

/-- scisim/ConstrainedMaps/FrictionMaps/FrictionOperatorUtilities.cpp:59-79 `formLinearFrictionDiskConstraint`, starting from an empty matrix with
`cols` columns -/
def formLinearFrictionDiskConstraint (numSamples cols : Nat) : Nat → Nat → ℝ :=
  (List.range cols).foldl (fun E col => (List.range numSamples).foldl (fun E s => insertOne E (numSamples * col + s) col) E) fun _ _ => 0

/-- The constraints `LinearMDPOperatorQL::flow` hands to its solver, scisim/ConstrainedMaps/FrictionMaps/LinearMDPOperatorQL.cpp:54-56 (lower bounds zero, no
upper bounds) and 120-131 (`A = -E^T`, `b = mu * alpha`, `A x + b >= 0`) -/
def linearFrictionAdmissible (numSamples contacts : Nat) (mu alpha beta : Nat → ℝ) : Prop :=
  (∀ i < numSamples * contacts, 0 ≤ beta i) ∧
  ∀ c < contacts, 0 ≤ -(∑ r ∈ Finset.range (numSamples * contacts), formLinearFrictionDiskConstraint numSamples contacts r c * beta r) + mu c * alpha c

/-- The constraints `BoundConstrainedMDPOperatorQL::flow` hands to its solver, scisim/ConstrainedMaps/FrictionMaps/BoundConstrainedMDPOperatorQL.cpp:97-104:
bounds `-mu * alpha` and `mu * alpha` on the single friction impulse of each contact -/
def boundFrictionAdmissible (contacts : Nat) (mu alpha beta : Nat → ℝ) : Prop :=
  ∀ c < contacts, -(mu c * alpha c) ≤ beta c ∧ beta c ≤ -(-(mu c * alpha c))

end Scisim
