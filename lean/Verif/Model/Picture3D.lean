import Mathlib.Analysis.SpecialFunctions.Complex.Arg
import Verif.Model.Geometry3D
import Verif.Model.Portal3D
import Verif.Model.RigidContacts3D
import Verif.Model.Outcome
/-!
# The pictures of the spatial program

`paintSystem` of rigidbody3dqt4/GLWidget.cpp with the renderers it calls. A picture is the list of the primitives handed to OpenGL, in the order in which they are
handed over, in the coordinates of the simulation: the camera is that of `Verif.Model.Camera`. Normals, and with them the shading, the width and the stipple pattern of
lines, the axes and the heads-up display are not modelled. The colours of bodies and portals are drawn from a random number generator in the code and are given here.
Scalars are real numbers.
-/

namespace Scisim
namespace Picture3

open Matrix

/-- Red, green and blue -/
abbrev Color := ℝ × ℝ × ℝ

/-- A colour times a number, as in `GLfloat( 0.8 * color.x() ), ...` -/
def Color.times (s : ℝ) (c : Color) : Color := (s * c.1, s * c.2.1, s * c.2.2)

/-- What a primitive is painted with: the ambient and the diffuse colour of `glMaterialfv`, or, with the lights off, the colour of `glColor3d` -/
inductive Paint where
  | material (ambient diffuse : Color)
  | plain (color : Color)

/-- The current matrix of OpenGL: its last row is always `( 0, 0, 0, 1 )` here -/
structure GlMatrix where
  lin : Mat3
  off : Vec3

namespace GlMatrix

/-- The matrix `paintSystem` is called with, in the coordinates of the simulation -/
def ident : GlMatrix := ⟨1, 0⟩

/-- `glTranslated( x, y, z )`: the current matrix is multiplied from the right -/
def translated (M : GlMatrix) (d : Vec3) : GlMatrix := ⟨M.lin, M.lin *ᵥ d + M.off⟩

/-- `glMultMatrixd` with a matrix whose upper left block is `R` and which is zero elsewhere but for the last entry, which is one -/
def multiplied (M : GlMatrix) (R : Mat3) : GlMatrix := ⟨M.lin * R, M.off⟩

/-- `glScaled( x, y, z )` -/
def scaled (M : GlMatrix) (s : Vec3) : GlMatrix := ⟨M.lin * Matrix.diagonal s, M.off⟩

/-- `glRotatef( degrees, x, y, z )`: OpenGL makes the axis a unit vector -/
noncomputable def rotated (M : GlMatrix) (degrees : ℝ) (axis : Vec3) : GlMatrix := ⟨M.lin * angleAxisMatrix (degrees * Real.pi / 180) (normalized3 axis), M.off⟩

/-- A vertex under the current matrix -/
def apply (M : GlMatrix) (p : Vec3) : Vec3 := M.lin *ᵥ p + M.off

end GlMatrix

/-- The argument of `glBegin` or `glDrawArrays` -/
inductive Mode where
  | triangles
  | quads
  | lines
  | lineLoop
deriving DecidableEq

/-- `glBegin( mode ); ... glEnd();` or `glDrawArrays` -/
structure Draw where
  mode : Mode
  paint : Paint
  vertices : List Vec3

/-- `glColor3d( 0.0, 0.0, 0.0 )` -/
def black : Color := (0, 0, 0)

/-- `secondary_color{ 1.0, 1.0, 1.0 }`, rigidbody3dqt4/GLWidget.cpp:1045 -/
def white : Color := (1, 1, 1)

/-- `gray_color{ 0.2, 0.2, 0.2 }`, rigidbody3dqt4/GLWidget.cpp:1201 -/
noncomputable def gray : Color := (1 / 5, 1 / 5, 1 / 5)

/-! ## The sphere renderer -/

/-- `computeNumTriangles`, rigidbody3dqt4/Rendering/OpenGL3DSphereRenderer.cpp:109-117, in arithmetic of 32 bits -/
def numTriangles : ℕ → ℕ
  | 0 => 2
  | n + 1 => numTriangles n * 4 % 2 ^ 32

/-- `num_mesh_verts`, the number of columns `allocateSphereMemory` makes, rigidbody3dqt4/Rendering/OpenGL3DSphereRenderer.cpp:119-128 -/
def sphereCapacity (n : ℕ) : ℕ := 3 * numTriangles n % 2 ^ 32

/-- `saveTriangleInMem`, rigidbody3dqt4/Rendering/OpenGL3DSphereRenderer.cpp:64-81. The columns written so far are the list `acc`, its length is `current_vertex`;
a column that does not exist is undefined behaviour. -/
def saveTriangle (cap : ℕ) (v1 v2 v3 : Vec3) (acc : List Vec3) : Outcome (List Vec3) :=
  if acc.length + 2 < cap then .ok (acc ++ [v1, v2, v3]) else .ub

/-- `( 0.5 * ( v1 + v2 ) ).normalized()`, rigidbody3dqt4/Rendering/OpenGL3DSphereRenderer.cpp:93-100 -/
noncomputable def midpoint (v w : Vec3) : Vec3 := normalized3 ((1 / 2 : ℝ) • (v + w))

/-- `subdivide`, rigidbody3dqt4/Rendering/OpenGL3DSphereRenderer.cpp:83-107 -/
noncomputable def subdivide (cap : ℕ) : ℕ → Vec3 → Vec3 → Vec3 → List Vec3 → Outcome (List Vec3)
  | 0, v1, v2, v3, acc => saveTriangle cap v1 v2 v3 acc
  | depth + 1, v1, v2, v3, acc =>
    let v12 := midpoint v1 v2
    let v23 := midpoint v2 v3
    let v31 := midpoint v3 v1
    (subdivide cap depth v1 v12 v31 acc).bind fun acc =>
    (subdivide cap depth v2 v23 v12 acc).bind fun acc =>
    (subdivide cap depth v3 v31 v23 acc).bind fun acc =>
    subdivide cap depth v12 v23 v31 acc

/-- `generateSphere`, rigidbody3dqt4/Rendering/OpenGL3DSphereRenderer.cpp:130-143, with `g_vdata` and `g_tindices`, lines 3-11. Columns that are never written hold
indeterminate values, which `glDrawArrays` reads. -/
noncomputable def generateSphere (n : ℕ) : Outcome (List Vec3) :=
  (subdivide (sphereCapacity n) n ![0, 0, 1] ![1, 0, 0] ![0, 1, 0] []).bind fun acc =>
  (subdivide (sphereCapacity n) n ![0, 0, -1] ![0, 1, 0] ![1, 0, 0] acc).bind fun acc =>
  if acc.length = sphereCapacity n then .ok acc else .ub

/-- `drawVertexArray`, rigidbody3dqt4/Rendering/OpenGL3DSphereRenderer.cpp:21-62 -/
noncomputable def drawVertexArray (verts : List Vec3) (M : GlMatrix) (primary secondary : Color) : List Draw :=
  let p := Paint.material (primary.times (3 / 10)) primary
  let s := Paint.material (secondary.times (3 / 10)) secondary
  [⟨.triangles, p, verts.map M.apply⟩,
   ⟨.triangles, p, verts.map (M.rotated 180 ![0, 0, 1]).apply⟩,
   ⟨.triangles, s, verts.map (M.rotated 90 ![0, 0, 1]).apply⟩,
   ⟨.triangles, s, verts.map (M.rotated 270 ![0, 0, 1]).apply⟩]

/-- `m_sphere_renderer->drawVertexArray` of a renderer made with `num_subdivs = n` -/
noncomputable def drawSphere (n : ℕ) (M : GlMatrix) (primary secondary : Color) : Outcome (List Draw) :=
  (generateSphere n).bind fun verts => .ok (drawVertexArray verts M primary secondary)

/-- `paintSphere`, rigidbody3dqt4/GLWidget.cpp:1042-1049; `m_sphere_renderer` is made with 4, line 521 -/
noncomputable def paintSphere (M : GlMatrix) (r : ℝ) (color : Color) : Outcome (List Draw) := drawSphere 4 (M.scaled ![r, r, r]) color white

/-! ## Boxes -/

/-- The vertices of `paintBox`, rigidbody3dqt4/GLWidget.cpp:1077-1117 -/
def boxVertices : List Vec3 :=
  [![1, 1, 1], ![1, 1, -1], ![-1, 1, -1], ![-1, 1, 1],
   ![1, -1, 1], ![1, -1, -1], ![-1, -1, -1], ![-1, -1, 1],
   ![1, -1, 1], ![1, -1, -1], ![1, 1, -1], ![1, 1, 1],
   ![-1, -1, 1], ![-1, -1, -1], ![-1, 1, -1], ![-1, 1, 1],
   ![-1, -1, 1], ![1, -1, 1], ![1, 1, 1], ![-1, 1, 1],
   ![-1, -1, -1], ![1, -1, -1], ![1, 1, -1], ![-1, 1, -1]]

/-- The material of `paintBox` and `paintTriangleMesh`, rigidbody3dqt4/GLWidget.cpp:1070-1073, 1123-1126 -/
noncomputable def faceted (color : Color) : Paint := .material (color.times (4 / 5)) (color.times (9 / 10))

/-- `paintBox`, rigidbody3dqt4/GLWidget.cpp:1051-1119 -/
noncomputable def paintBox (M : GlMatrix) (halfWidths : Vec3) (color : Color) : List Draw :=
  [⟨.quads, faceted color, boxVertices.map (M.scaled ![halfWidths 0, halfWidths 1, halfWidths 2]).apply⟩]

/-! ## Meshes -/

/-- A column of a matrix; a column that does not exist is undefined behaviour -/
def column {α : Type} (l : List α) (i : ℕ) : Outcome α :=
  match l[i]? with
  | some a => .ok a
  | none => .ub

/-- The loop over the faces, rigidbody3dqt4/GLWidget.cpp:1132-1142 -/
def meshVertices (verts : List Vec3) : List (ℕ × ℕ × ℕ) → Outcome (List Vec3)
  | [] => .ok []
  | f :: rest =>
    (column verts f.1).bind fun a => (column verts f.2.1).bind fun b => (column verts f.2.2).bind fun c =>
    (meshVertices verts rest).bind fun more => .ok (a :: b :: c :: more)

/-- `paintTriangleMesh`, rigidbody3dqt4/GLWidget.cpp:1121-1144 -/
noncomputable def paintTriangleMesh (M : GlMatrix) (verts : List Vec3) (faces : List (ℕ × ℕ × ℕ)) (color : Color) : Outcome (List Draw) :=
  (meshVertices verts faces).bind fun vs => .ok [⟨.triangles, faceted color, vs.map M.apply⟩]

/-! ## Staples -/

/-- `computeNumSamples`, rigidbody3dqt4/Rendering/StapleRenderer.cpp:152-160; the numbers used in the program do not overflow an `int` -/
def numSamples (n : ℕ) : ℕ := 4 * 2 ^ n

/-- The quads of `initializeCylinderMemory`, rigidbody3dqt4/Rendering/StapleRenderer.cpp:162-191 -/
noncomputable def cylinderVertices (samples : ℕ) (r : ℝ) : List Vec3 :=
  let dtheta := 2 * Real.pi / samples
  (List.range samples).flatMap fun (k : ℕ) =>
    let c0 := r * Real.cos (k * dtheta)
    let s0 := r * Real.sin (k * dtheta)
    let c1 := r * Real.cos (((k + 1) % samples : ℕ) * dtheta)
    let s1 := r * Real.sin (((k + 1) % samples : ℕ) * dtheta)
    [![-(1 / 2), c0, s0], ![-(1 / 2), c1, s1], ![1 / 2, c1, s1], ![1 / 2, c0, s0]]

/-- `drawCylinder`, rigidbody3dqt4/Rendering/StapleRenderer.cpp:107-120 -/
noncomputable def drawCylinder (samples : ℕ) (r : ℝ) (M : GlMatrix) (paint : Paint) : Draw := ⟨.quads, paint, (cylinderVertices samples r).map M.apply⟩

/-- The material of a staple, rigidbody3dqt4/Rendering/StapleRenderer.cpp:48-51 -/
noncomputable def smooth (color : Color) : Paint := .material (color.times (3 / 10)) color

/-- `StapleRenderer::renderBody`, rigidbody3dqt4/Rendering/StapleRenderer.cpp:36-83, of a renderer made with `num_subdivs = n`; `points` are `m_points`. Fewer than four
points are undefined behaviour. -/
noncomputable def renderStaple (n : ℕ) (points : List Vec3) (r : ℝ) (M : GlMatrix) (color : Color) : Outcome (List Draw) :=
  match points with
  | p0 :: p1 :: p2 :: p3 :: _ =>
    let cap := fun p => drawSphere n ((M.translated p).scaled ![r, r, r]) color color
    (cap p0).bind fun d0 => (cap p1).bind fun d1 => (cap p2).bind fun d2 => (cap p3).bind fun d3 =>
    let middle := p1 1 + 1 / 2 * (p0 1 - p1 1)
    .ok (d0 ++ d1 ++ d2 ++ d3 ++
      [drawCylinder (numSamples n) r ((M.translated ![0, p1 1, 0]).scaled ![p2 0 - p1 0, 1, 1]) (smooth color),
       drawCylinder (numSamples n) r (((M.translated ![p0 0, middle, 0]).rotated 90 ![0, 0, 1]).scaled ![p0 1 - p1 1, 1, 1]) (smooth color),
       drawCylinder (numSamples n) r (((M.translated ![p2 0, middle, 0]).rotated 90 ![0, 0, 1]).scaled ![p0 1 - p1 1, 1, 1]) (smooth color)])
  | _ => .ub

/-! ## Bodies -/

/-- A geometry of the state; the faces of a mesh, and none for the others -/
structure PicGeometry where
  geometry : Geometry3D
  faces : List (ℕ × ℕ × ℕ)

/-- A body: the index of its geometry, its part of `q`, whether it is scripted, and its entry of `m_body_colors` -/
structure PicBody where
  geometry : ℕ
  x : Vec3
  R : Mat3
  scripted : Bool
  color : Color

/-- `paintBody`, rigidbody3dqt4/GLWidget.cpp:1146-1175. The renderer of a staple is made from the geometry with 4 subdivisions when the scene is loaded, lines 239-252,
and geometries do not change. -/
noncomputable def paintBody (M : GlMatrix) (g : PicGeometry) (color : Color) : Outcome (List Draw) :=
  match g.geometry with
  | .box halfWidths => .ok (paintBox M halfWidths color)
  | .sphere r => paintSphere M r color
  | .staple s => renderStaple 4 s.corners s.r M color
  | .mesh verts => paintTriangleMesh M verts g.faces color

/-- The body of the loop over bodies, rigidbody3dqt4/GLWidget.cpp:1185-1204 -/
noncomputable def paintOneBody (geometries : List PicGeometry) (b : PicBody) : Outcome (List Draw) :=
  (column geometries b.geometry).bind fun g =>
  paintBody ((GlMatrix.ident.translated b.x).multiplied b.R) g (if b.scripted then gray else b.color)

/-! ## Planes, portals and cylinders -/

/-- The lines of `StaticPlaneRenderer::draw`, rigidbody3dqt4/Rendering/StaticPlaneRenderer.cpp:20-63, and of `PlanarPortalRenderer::drawHalfPlane`,
rigidbody3dqt4/Rendering/PlanarPortalRenderer.cpp:28-64; `axis` is the choice of Eigen in `StaticPlane::R`, see `Quat.fromTwoVectors` -/
noncomputable def drawPlane (axis : Vec3 → Vec3 → Vec3) (color : Color) (p : Plane3) (hw : ℝ × ℝ) : List Draw :=
  let v := fun (a b : ℝ) => (Quat.fromTwoVectors axis ![0, 1, 0] p.n).rotate ![hw.1 * a, 0 * 0, hw.2 * b] + p.x
  [⟨.lineLoop, .plain color, [v 1 1, v (-1) 1, v (-1) (-1), v 1 (-1)]⟩,
   ⟨.lines, .plain color, [v 0 1, v 0 (-1), v (-1) 0, v 1 0]⟩]

/-- `PlanarPortalRenderer::draw`, rigidbody3dqt4/Rendering/PlanarPortalRenderer.cpp:22-26 -/
noncomputable def drawPortal (axis : Vec3 → Vec3 → Vec3) (color : Color) (p : Portal3) (hw0 hw1 : ℝ × ℝ) : List Draw :=
  drawPlane axis color p.planeA hw0 ++ drawPlane axis color p.planeB hw1

/-- Eigen `Quaternion::operator*` (library code, Eigen/src/Geometry/Quaternion.h) -/
def quatMul (a b : Quat) : Quat :=
  ⟨a.w * b.w - a.x * b.x - a.y * b.y - a.z * b.z, a.w * b.x + a.x * b.w + a.y * b.z - a.z * b.y,
   a.w * b.y + a.y * b.w + a.z * b.x - a.x * b.z, a.w * b.z + a.z * b.w + a.x * b.y - a.y * b.x⟩

/-- Eigen `Quaternion( AngleAxis )` (library code, Eigen/src/Geometry/Quaternion.h) -/
noncomputable def quatOfAngleAxis (angle : ℝ) (axis : Vec3) : Quat :=
  ⟨Real.cos (1 / 2 * angle), Real.sin (1 / 2 * angle) * axis 0, Real.sin (1 / 2 * angle) * axis 1, Real.sin (1 / 2 * angle) * axis 2⟩

/-- Eigen `AngleAxis( Quaternion )` (library code, Eigen/src/Geometry/AngleAxis.h) -/
noncomputable def angleAxisOfQuat (q : Quat) : AngleAxis :=
  let n := norm3 ![q.x, q.y, q.z]
  if n = 0 then ⟨0, ![1, 0, 0]⟩
  else
    let m := if q.w < 0 then -n else n
    ⟨2 * Complex.arg ⟨|q.w|, n⟩, ![q.x / m, q.y / m, q.z / m]⟩

/-- A cylinder with the angle by which it has turned about its axis, `m_theta` -/
structure PicCylinder where
  cylinder : Cylinder3
  theta : ℝ

/-- `StaticCylinder::R`, rigidbody3d/StaticGeometry/StaticCylinder.cpp:69-72; `AngleAxis * Quaternion` is a product of quaternions -/
noncomputable def PicCylinder.R (axis : Vec3 → Vec3 → Vec3) (c : PicCylinder) : Quat :=
  quatMul (quatOfAngleAxis c.theta c.cylinder.axis) (Quat.fromTwoVectors axis ![0, 1, 0] c.cylinder.axis)

/-- `m_crds`, rigidbody3dqt4/Rendering/StaticCylinderRenderer.cpp:11-23 -/
noncomputable def ringVertices : List Vec3 :=
  (List.range 64).map fun (k : ℕ) => ![Real.cos (k * (2 * Real.pi / 64)), 0, Real.sin (k * (2 * Real.pi / 64))]

/-- `StaticCylinderRenderer::draw`, rigidbody3dqt4/Rendering/StaticCylinderRenderer.cpp:26-87; `L` is `m_L` -/
noncomputable def drawStaticCylinder (axis : Vec3 → Vec3 → Vec3) (c : PicCylinder) (L : ℝ) : List Draw :=
  let center := c.cylinder.x
  let translation := (1 / 2 * L) • c.cylinder.axis
  let rotation := angleAxisOfQuat (c.R axis)
  let degrees := 180 / Real.pi * rotation.angle
  let r := c.cylinder.r
  let ring := fun (M : GlMatrix) => (⟨.lineLoop, .plain black, ringVertices.map ((M.rotated degrees rotation.axis).scaled ![r, 1, r]).apply⟩ : Draw)
  [ring (GlMatrix.ident.translated (center + translation)),
   ring (GlMatrix.ident.translated (center - translation)),
   ⟨.lines, .plain black,
    [![0, 1 / 2 * L, r], ![0, -(1 / 2) * L, r], ![0, 1 / 2 * L, -r], ![0, -(1 / 2) * L, -r],
     ![r, 1 / 2 * L, 0], ![r, -(1 / 2) * L, 0], ![-r, 1 / 2 * L, 0], ![-r, -(1 / 2) * L, 0]].map
      ((GlMatrix.ident.translated center).rotated degrees rotation.axis).apply⟩]

/-! ## The whole picture -/

/-- What `paintSystem` reads: the state, and the renderers of planes, cylinders and portals with the index of what they show -/
structure Scene where
  geometries : List PicGeometry
  bodies : List PicBody
  planes : List Plane3
  cylinders : List PicCylinder
  portals : List Portal3
  planeRenderers : List (ℕ × (ℝ × ℝ))
  cylinderRenderers : List (ℕ × ℝ)
  portalRenderers : List (ℕ × (ℝ × ℝ) × (ℝ × ℝ))

/-- A loop that paints one thing after the other -/
def collect {α : Type} (f : α → Outcome (List Draw)) : List α → Outcome (List Draw)
  | [] => .ok []
  | a :: rest => (f a).bind fun d => (collect f rest).bind fun ds => .ok (d ++ ds)

/-- `paintSystem`, rigidbody3dqt4/GLWidget.cpp:1177-1243; `colorGen k` is the colour drawn for portal renderer `k`, lines 1225-1233 -/
noncomputable def paintSystem (axis : Vec3 → Vec3 → Vec3) (colorGen : ℕ → Color) (s : Scene) : Outcome (List Draw) :=
  (collect (paintOneBody s.geometries) s.bodies).bind fun bodies =>
  (collect (fun r => (column s.planes r.1).bind fun p => .ok (drawPlane axis black p r.2)) s.planeRenderers).bind fun planes =>
  (collect (fun r => (column s.cylinders r.1).bind fun c => .ok (drawStaticCylinder axis c r.2)) s.cylinderRenderers).bind fun cylinders =>
  (collect (fun (r, k) => (column s.portals r.1).bind fun p => .ok (drawPortal axis (colorGen k) p r.2.1 r.2.2)) s.portalRenderers.zipIdx).bind fun portals =>
  .ok (bodies ++ planes ++ cylinders ++ portals)

end Picture3
end Scisim
