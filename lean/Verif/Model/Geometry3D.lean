import Mathlib.LinearAlgebra.Matrix.Notation
import Mathlib.Analysis.Real.Pi.Bounds
import Verif.Model.Rotations
import Verif.Model.Outcome
/-!
# Geometry in three dimensions: bounding boxes and mass properties

rigidbody3d/Geometry/RigidBodySphere.cpp, RigidBodyBox.cpp, RigidBodyStaple.cpp, RigidBodyTriangleMesh.cpp, MomentTools.cpp and
rigidbody3d/RigidBody3DSim.cpp. Scalars are real numbers: rounding is not modelled.
-/

namespace Scisim

open Matrix

/-- `RigidBodyStaple`, rigidbody3d/Geometry/RigidBodyStaple.h: the width and length of the centreline and the radius -/
structure Staple where
  w : ℝ
  l : ℝ
  r : ℝ

namespace Staple

/-- `RigidBodyStaple::RigidBodyStaple( w, l, D )`, rigidbody3d/Geometry/RigidBodyStaple.cpp:62-66 -/
noncomputable def make (w l D : ℝ) : Staple := ⟨w - D, l - D, 1 / 2 * D⟩

/-- `computeCenterOfMassY`, rigidbody3d/Geometry/RigidBodyStaple.cpp:141-144 -/
noncomputable def centerOfMassY (s : Staple) : ℝ := (s.l * s.l) / (2 * s.l + s.w)

/-- `m_p`, the corners of the centreline, rigidbody3d/Geometry/RigidBodyStaple.cpp:72-78 -/
noncomputable def corners (s : Staple) : List Vec3 :=
  let ycm := s.centerOfMassY
  [![-(1 / 2) * s.w, s.l - ycm, 0], ![-(1 / 2) * s.w, -ycm, 0], ![1 / 2 * s.w, -ycm, 0], ![1 / 2 * s.w, s.l - ycm, 0]]

end Staple

/-- A geometry of `RigidBody3DState`, rigidbody3d/Geometry/RigidBodyGeometry.h. Of a mesh only the vertices are kept here; its faces are an argument
of `computeMoments`. -/
inductive Geometry3D where
  | sphere (r : ℝ)
  | box (halfWidths : Vec3)
  | staple (s : Staple)
  | mesh (verts : List Vec3)

/-- Componentwise minimum and maximum with one more point. `none` is the box before the first point, whose lower corner is at plus infinity and
whose upper corner is at minus infinity. -/
noncomputable def growBox (bounds : Option (Vec3 × Vec3)) (lo hi : Vec3) : Option (Vec3 × Vec3) :=
  match bounds with
  | none => some (lo, hi)
  | some (l, h) => some (fun i => min (l i) (lo i), fun i => max (h i) (hi i))

/-- The loops of `RigidBodyStaple::computeAABB` (RigidBodyStaple.cpp:98-112) and `RigidBodyTriangleMesh::computeAABB`
(RigidBodyTriangleMesh.cpp:187-200) over the points they transform -/
noncomputable def pointsAABB (pts : List Vec3) (cm : Vec3) (R : Mat3) : Option (Vec3 × Vec3) :=
  pts.foldl (fun bounds p => growBox bounds (R *ᵥ p + cm) (R *ᵥ p + cm)) none

/-- `computeAABB` of the four geometries: RigidBodySphere.cpp:45-49, RigidBodyBox.cpp:45-51, RigidBodyStaple.cpp:98-112,
RigidBodyTriangleMesh.cpp:187-200. `none` is the empty box of a mesh without vertices. -/
noncomputable def Geometry3D.aabb (g : Geometry3D) (cm : Vec3) (R : Mat3) : Option (Vec3 × Vec3) :=
  match g with
  | .sphere r => some (fun i => cm i - r, fun i => cm i + r)
  | .box w =>
    let extents := (R.map fun x => |x|) *ᵥ w
    some (fun i => cm i - extents i, fun i => cm i + extents i)
  | .staple s => pointsAABB s.corners cm R
  | .mesh verts => pointsAABB verts cm R

/-- A body of a scene: its geometry, its centre of mass and its orientation -/
structure PosedBody3D where
  geometry : Geometry3D
  cm : Vec3
  R : Mat3

/-- `RigidBody3DSim::computeBoundingBox`, rigidbody3d/RigidBody3DSim.cpp:49-72 -/
noncomputable def sceneBoundingBox3 (bodies : List PosedBody3D) : Option (Vec3 × Vec3) :=
  bodies.foldl (fun bounds b =>
    match b.geometry.aabb b.cm b.R with
    | none => bounds
    | some (lo, hi) => growBox bounds lo hi) none

/-- `RigidBody3DSim::computeBoundingSphere`, rigidbody3d/RigidBody3DSim.cpp:74-85: the radius and the centre. `none` stands for the result
computed from an empty scene, where infinities of opposite sign are added. -/
noncomputable def sceneBoundingSphere (bodies : List PosedBody3D) : Option (ℝ × Vec3) :=
  (sceneBoundingBox3 bodies).map fun (lo, hi) =>
    let center : Vec3 := ![1 / 2 * (lo 0 + hi 0), 1 / 2 * (lo 1 + hi 1), 1 / 2 * (lo 2 + hi 2)]
    (Real.sqrt ((center 0 - hi 0) * (center 0 - hi 0) + (center 1 - hi 1) * (center 1 - hi 1) + (center 2 - hi 2) * (center 2 - hi 2)), center)

/-! ## Mass properties -/

/-- The results of `computeMassAndInertia`: the mass, the centre of mass and the principal moments -/
structure MassProps where
  M : ℝ
  CM : Vec3
  I : Vec3

/-- `RigidBodySphere::computeMassAndInertia`, rigidbody3d/Geometry/RigidBodySphere.cpp:10-18. `R` is the identity. -/
noncomputable def sphereMass (r density : ℝ) : MassProps :=
  let M := 4 * Real.pi * r * r * r / 3
  let I := 2 * M * r * r / 5
  ⟨M * density, 0, fun _ => I * density⟩

/-- `RigidBodyBox::computeMassAndInertia`, rigidbody3d/Geometry/RigidBodyBox.cpp:11-18, with `computeInertia`, 53-59, and `volume`, 73-76. `R` is
the identity. -/
noncomputable def boxMass (w : Vec3) (density : ℝ) : MassProps :=
  let M := density * (8 * w 0 * w 1 * w 2)
  ⟨M, 0, ![(w 1 * w 1 + w 2 * w 2) * (M / 3), (w 0 * w 0 + w 2 * w 2) * (M / 3), (w 0 * w 0 + w 1 * w 1) * (M / 3)]⟩

/-- `RigidBodyStaple::computeMassAndInertia`, rigidbody3d/Geometry/RigidBodyStaple.cpp:12-58. `R` is the identity. -/
noncomputable def stapleMass (s : Staple) (density : ℝ) : MassProps :=
  let Mx := density * s.w * Real.pi * s.r * s.r
  let My := density * s.l * Real.pi * s.r * s.r
  let cy := s.centerOfMassY
  let CMx : Vec3 := ![0, -cy, 0]
  let CMy : Vec3 := ![-(1 / 2) * s.w, 1 / 2 * s.l - cy, 0]
  ⟨Mx + 2 * My, ![0, cy, 0],
    ![Mx * (CMx 1 * CMx 1 + CMx 2 * CMx 2) + 2 * My * (CMy 1 * CMy 1 + CMy 2 * CMy 2)
        + Mx * (s.r * s.r) / 2 + 2 * My * (3 * s.r * s.r + s.l * s.l * s.l) / 12,
      Mx * (CMx 0 * CMx 0 + CMx 2 * CMx 2) + 2 * My * (CMy 0 * CMy 0 + CMy 2 * CMy 2)
        + Mx * (3 * s.r * s.r + s.w * s.w * s.w) / 12 + My * (s.r * s.r),
      Mx * (CMx 0 * CMx 0 + CMx 1 * CMx 1) + 2 * My * (CMy 0 * CMy 0 + CMy 1 * CMy 1)
        + Mx * (3 * s.r * s.r + s.w * s.w * s.w) / 12 + 2 * My * (3 * s.r * s.r + s.l * s.l * s.l) / 12]⟩

/-- `f1`, `f2`, `f3`, `g0`, `g1`, `g2` of one coordinate of the corners of a triangle, rigidbody3d/Geometry/MomentTools.cpp:79-87 (89-97 and 99-107
repeat it for the other coordinates) -/
def subexpressions (w0 w1 w2 : ℝ) : ℝ × ℝ × ℝ × ℝ × ℝ × ℝ :=
  let tmp0 := w0 + w1
  let tmp1 := w0 * w0
  let tmp2 := tmp1 + w1 * tmp0
  let f1 := tmp0 + w2
  let f2 := tmp2 + w2 * f1
  let f3 := w0 * tmp1 + w1 * tmp2 + w2 * f2
  (f1, f2, f3, f2 + w0 * (f1 + w0), f2 + w1 * (f1 + w1), f2 + w2 * (f1 + w2))

/-- What one triangle adds to `integral`, rigidbody3d/Geometry/MomentTools.cpp:70-119. Order: 1, x, y, z, x², y², z², xy, yz, zx. -/
def triangleTerms (v0 v1 v2 : Vec3) : Fin 10 → ℝ :=
  let N := crossProduct (v1 - v0) (v2 - v0)
  let (f1x, f2x, f3x, g0x, g1x, g2x) := subexpressions (v0 0) (v1 0) (v2 0)
  let (_, f2y, f3y, g0y, g1y, g2y) := subexpressions (v0 1) (v1 1) (v2 1)
  let (_, f2z, f3z, g0z, g1z, g2z) := subexpressions (v0 2) (v1 2) (v2 2)
  ![N 0 * f1x, N 0 * f2x, N 1 * f2y, N 2 * f2z, N 0 * f3x, N 1 * f3y, N 2 * f3z,
    N 0 * (v0 1 * g0x + v1 1 * g1x + v2 1 * g2x), N 1 * (v0 2 * g0y + v1 2 * g1y + v2 2 * g2y),
    N 2 * (v0 0 * g0z + v1 0 * g1z + v2 0 * g2z)]

/-- The loop over the triangles, rigidbody3d/Geometry/MomentTools.cpp:66-120. An index outside the vertex matrix is undefined behaviour. -/
def sumTriangles (vertices : List Vec3) : List (Nat × Nat × Nat) → (Fin 10 → ℝ) → Outcome (Fin 10 → ℝ)
  | [], acc => .ok acc
  | (a, b, c) :: rest, acc =>
    match vertices[a]?, vertices[b]?, vertices[c]? with
    | some v0, some v1, some v2 => sumTriangles vertices rest (acc + triangleTerms v0 v1 v2)
    | _, _, _ => .ub

/-- The factors of rigidbody3d/Geometry/MomentTools.cpp:122-131 -/
noncomputable def integralFactors : Fin 10 → ℝ := ![1 / 6, 1 / 24, 1 / 24, 1 / 24, 1 / 60, 1 / 60, 1 / 60, 1 / 120, 1 / 120, 1 / 120]

/-- `integral` after scaling, rigidbody3d/Geometry/MomentTools.cpp:66-131 -/
noncomputable def meshIntegrals (vertices : List Vec3) (indices : List (Nat × Nat × Nat)) : Outcome (Fin 10 → ℝ) :=
  (sumTriangles vertices indices 0).bind fun s => .ok fun k => s k * integralFactors k

/-- The mass, the centre and the inertia tensor relative to the centre, rigidbody3d/Geometry/MomentTools.cpp:133-159. If the mass is zero the code
divides by zero, which here gives zero: statements about the centre and the tensor assume that it is not. -/
noncomputable def momentsOf (J : Fin 10 → ℝ) : ℝ × Vec3 × Mat3 :=
  let mass := J 0
  let center : Vec3 := ![J 1 / mass, J 2 / mass, J 3 / mass]
  let a00 := J 5 + J 6 - mass * (center 1 * center 1 + center 2 * center 2)
  let a01 := -J 7 + mass * center 0 * center 1
  let a02 := -J 9 + mass * center 2 * center 0
  let a11 := J 4 + J 6 - mass * (center 2 * center 2 + center 0 * center 0)
  let a12 := -J 8 + mass * center 1 * center 2
  let a22 := J 4 + J 5 - mass * (center 0 * center 0 + center 1 * center 1)
  (mass, center, !![a00, a01, a02; a01, a11, a12; a02, a12, a22])

/-- `diagonalizeInertiaTensor`, rigidbody3d/Geometry/MomentTools.cpp:12-50. `eig` is Eigen's `SelfAdjointEigenSolver` (library code, a parameter): the
matrix of eigenvectors and the eigenvalues. -/
noncomputable def diagonalizeInertiaTensor (eig : Mat3 → Mat3 × Vec3) (A : Mat3) : Mat3 × Vec3 :=
  let (R0, I0) := eig A
  if R0.det < 0 then (Matrix.of fun i j => if j = 0 then R0 i j * -1 else R0 i j, I0) else (R0, I0)

/-- `MomentTools::computeMoments`, rigidbody3d/Geometry/MomentTools.cpp:56-174: `mass`, `I`, `center`, `R` -/
noncomputable def computeMoments (eig : Mat3 → Mat3 × Vec3) (vertices : List Vec3) (indices : List (Nat × Nat × Nat)) :
    Outcome (ℝ × Vec3 × Vec3 × Mat3) :=
  (meshIntegrals vertices indices).bind fun J =>
    let (mass, center, A) := momentsOf J
    let (R, I) := diagonalizeInertiaTensor eig A
    .ok (mass, I, center, R)

end Scisim
