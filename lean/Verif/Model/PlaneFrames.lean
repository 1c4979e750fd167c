import Verif.Model.BallContacts
import Verif.Model.Scripting
/-!
# The normals of planes and the axes of cylinders

How planes and cylinders are made when a scene is loaded; how scripts change them is in Model/Scripting. Numbers are reals.
-/

namespace Scisim.PlaneFrames
open Scisim.Scripting

/-- `StaticPlane::StaticPlane`, ball2d/StaticGeometry/StaticPlane.cpp:11-21, called in ball2dutils/Ball2DSceneParser.cpp:361 with the normal as it is in the scene. (These planes have no angular velocity.) -/
noncomputable def makeBall (x n : V2 ℝ) : BodyPlane ℝ := ⟨x, n.normalized, ⟨-n.normalized.y, n.normalized.x⟩, 0, 0⟩

/-- `RigidBody2DStaticPlane::RigidBody2DStaticPlane`, rigidbody2d/RigidBody2DStaticPlane.cpp:10-21: the normal is taken as it is -/
noncomputable def makeBody (x n : V2 ℝ) : BodyPlane ℝ := ⟨x, n, ⟨-n.y, n.x⟩, 0, 0⟩

/-- The end of the loop of `loadStaticPlanes`, rigidbody2dutils/RigidBody2DSceneParser.cpp:271-277, for a point and normal that were read -/
noncomputable def loadBody (x n : V2 ℝ) : Outcome (BodyPlane ℝ) := if Real.sqrt n.normSq = 0 then .fail else .ok (makeBody x n.normalized)

/-- The loop of `loadStaticPlanes`, rigidbody2dutils/RigidBody2DSceneParser.cpp:239-278 -/
noncomputable def loadBodies : List (V2 ℝ × V2 ℝ) → Outcome (List (BodyPlane ℝ))
  | [] => .ok []
  | e :: es => (loadBody e.1 e.2).bind fun p => (loadBodies es).bind fun ps => .ok (p :: ps)

/-- `squaredNorm` of a `Vector3s` -/
noncomputable def normSq3 (a : Triple ℝ) : ℝ := a.x * a.x + a.y * a.y + a.z * a.z

/-- Eigen's `normalized` -/
noncomputable def unit3 (a : Triple ℝ) : Triple ℝ := if 0 < normSq3 a then ⟨a.x / Real.sqrt (normSq3 a), a.y / Real.sqrt (normSq3 a), a.z / Real.sqrt (normSq3 a)⟩ else a

open Classical in
/-- `fabs( axis.norm() - 1.0 ) <= 1.0e-6`, rigidbody3d/PythonScripting.cpp:458 -/
noncomputable def isUnit (a : Triple ℝ) : Bool := decide (|Real.sqrt (normSq3 a) - 1| ≤ 1 / 1000000)

/-- `StaticCylinder::StaticCylinder`, rigidbody3d/StaticGeometry/StaticCylinder.cpp:11-21, called in rigidbody3dutils/RigidBody3DSceneParser.cpp:792 with the axis as it is in the scene -/
noncomputable def makeCylinder (x axis : Triple ℝ) (r : ℝ) : SpaceCylinder ℝ := ⟨x, unit3 axis, 0, ⟨0, 0, 0⟩, ⟨0, 0, 0⟩, r⟩

/-- Calls in a row, of the functions of a module -/
def calls {W O : Type} (f : O → Machine W ℝ → Outcome (Reply ℝ × Machine W ℝ)) : List O → Machine W ℝ → Outcome (Machine W ℝ)
  | [], m => .ok m
  | o :: os, m => (f o m).bind fun r => calls f os r.2

end Scisim.PlaneFrames
