import Mathlib.Analysis.SpecialFunctions.Complex.Arg
import Verif.Model.BallContacts
import Verif.Model.RigidContacts2D
/-!
# The pictures of the two planar programs

`paintSystem` of ball2dqt4/GLWidget.cpp and of rigidbody2dqt4/GLWidget.cpp with the renderers they call. A picture is the list of the primitives
handed to OpenGL, in the order in which they are handed over, in the coordinates of the simulation: the camera is that of `Verif.Model.Camera`.
The stipple pattern, the width of lines, the axes, the heads-up display and the optional contact points are not modelled. The colours of portals are
drawn from a random number generator in the code and are given here. Scalars are real numbers.
-/

namespace Scisim
namespace Picture2

/-- The arguments of `glColor3d`: red, green and blue -/
abbrev Color := ℝ × ℝ × ℝ

/-- A vertex with its last coordinate: 1 for `glVertex2d( x, y )`, `w` for `glVertex4d( x, y, 0.0, w )` -/
structure Vertex where
  v : V2 ℝ
  w : ℝ

/-- `glVertex2d` -/
def Vertex.at (x y : ℝ) : Vertex := ⟨⟨x, y⟩, 1⟩

/-- `glVertex4d` with last coordinate zero: a direction -/
def Vertex.towards (x y : ℝ) : Vertex := ⟨⟨x, y⟩, 0⟩

/-- The current matrix of OpenGL, restricted to the plane -/
structure GlMatrix where
  lin : M22
  off : V2 ℝ

namespace GlMatrix

/-- The matrix `paintSystem` is called with, in the coordinates of the simulation -/
def ident : GlMatrix := ⟨⟨1, 0, 0, 1⟩, ⟨0, 0⟩⟩

/-- `glTranslated( x, y, 0.0 )`: the current matrix is multiplied from the right -/
noncomputable def translated (M : GlMatrix) (d : V2 ℝ) : GlMatrix := ⟨M.lin, M.lin.mulVec d + M.off⟩

/-- `glRotated( degrees, 0.0, 0.0, 1.0 )` -/
noncomputable def rotated (M : GlMatrix) (degrees : ℝ) : GlMatrix := ⟨M.lin.mul (rotation2D (degrees * Real.pi / 180)), M.off⟩

/-- `glScaled( x, y, 1.0 )` -/
def scaled (M : GlMatrix) (s : V2 ℝ) : GlMatrix := ⟨M.lin.mul ⟨s.x, 0, 0, s.y⟩, M.off⟩

/-- A vertex under the current matrix -/
noncomputable def apply (M : GlMatrix) (p : Vertex) : Vertex := ⟨M.lin.mulVec p.v + p.w • M.off, p.w⟩

end GlMatrix

/-- The argument of `glBegin` -/
inductive Mode where
  | polygon
  | triangleStrip
  | lines
  | lineStrip
  | lineLoop
deriving DecidableEq

/-- `glBegin( mode ); ... glEnd();` with the current colour -/
structure Draw where
  mode : Mode
  color : Color
  vertices : List Vertex

/-- `glColor3d( 0.0, 0.0, 0.0 )`, `QColor{ 0, 0, 0 }` -/
def black : Color := (0, 0, 0)

/-- `qglClearColor( QColor{ 255, 255, 255, 255 } )`, ball2dqt4/GLWidget.cpp:437, rigidbody2dqt4/GLWidget.cpp:486 -/
def white : Color := (1, 1, 1)

/-- The colour of scripted bodies, rigidbody2dqt4/GLWidget.cpp:956 -/
noncomputable def gray : Color := (1 / 2, 1 / 2, 1 / 2)

/-! ## Lines -/

/-- `-180.0 * atan2( n.x(), n.y() ) / PI`, ball2dqt4/GLWidget.cpp:644, 688, 792 -/
noncomputable def lineDegrees (n : V2 ℝ) : ℝ := -180 * Complex.arg ⟨n.y, n.x⟩ / Real.pi

/-- The matrix of `paintInfiniteLine`, ball2dqt4/GLWidget.cpp:646-649 -/
noncomputable def lineMatrix (x n : V2 ℝ) : GlMatrix := (GlMatrix.ident.translated x).rotated (lineDegrees n)

/-- `paintInfiniteLine`, ball2dqt4/GLWidget.cpp:642-659, rigidbody2dqt4/GLWidget.cpp:695-712 -/
noncomputable def paintInfiniteLine (color : Color) (x n : V2 ℝ) : Draw :=
  ⟨.lines, color, [.at 0 0, .towards 1 0, .at 0 0, .towards (-1) 0].map (lineMatrix x n).apply⟩

/-- One plane of a portal, ball2dqt4/GLWidget.cpp:686-788 and 790-896, rigidbody2dqt4/GLWidget.cpp:716-927; `center` is `transformedAx` or `transformedBx` -/
noncomputable def paintPortalPlane (color : Color) (p : PlanarPortal ℝ) (plane : HalfPlane ℝ) (center : V2 ℝ) : List Draw :=
  let M := lineMatrix plane.x plane.n
  [⟨.lines, color, [.at 0 0, .towards (-1) 0].map M.apply⟩, ⟨.lines, color, [.at 0 0, .towards 1 0].map M.apply⟩] ++
  (if p.isLeesEdwards then
    [⟨.lines, color, [.at 0 0, .towards 0 (-1)].map (M.translated ⟨-p.bounds, 0⟩).apply⟩,
     ⟨.lines, color, [.at 0 0, .towards 0 (-1)].map (M.translated ⟨p.bounds, 0⟩).apply⟩,
     ⟨.lines, color, [.at 0 0, .at 0 (-(1 / 5) * p.bounds)].map M.apply⟩,
     ⟨.lines, color, [.at 0 0, .at 0 (-(1 / 5) * p.bounds)].map (lineMatrix center plane.n).apply⟩]
  else [⟨.lines, color, [.at 0 0, .towards 0 (-1)].map M.apply⟩])

/-- `transformedAx`, `transformedBx`, ball2d/Portals/PlanarPortal.cpp:93-101, rigidbody2d/PlanarPortal.cpp:83-91 -/
noncomputable def transformedX (p : PlanarPortal ℝ) (plane : HalfPlane ℝ) : V2 ℝ := plane.x + p.dx • plane.t

/-- `paintPlanarPortal`, ball2dqt4/GLWidget.cpp:683-898 -/
noncomputable def paintPlanarPortal (color : Color) (p : PlanarPortal ℝ) : List Draw :=
  paintPortalPlane color p p.planeA (transformedX p p.planeA) ++ paintPortalPlane color p p.planeB (transformedX p p.planeB)

/-- The loop over portals, ball2dqt4/GLWidget.cpp:962-983, rigidbody2dqt4/GLWidget.cpp:1028-1047 -/
noncomputable def paintPortals (colorGen : Nat → Color) (portals : List (PlanarPortal ℝ)) : List Draw :=
  portals.zipIdx.flatMap fun (p, k) => paintPlanarPortal (colorGen k) p

/-- The loop over planes, ball2dqt4/GLWidget.cpp:985-995, rigidbody2dqt4/GLWidget.cpp:1049-1062 -/
noncomputable def paintPlanes (planes : List (HalfPlane ℝ)) : List Draw := planes.map fun p => paintInfiniteLine black p.x p.n

/-! ## The ball program -/

/-- `GLCircleRenderer2D`, ball2dqt4/GLCircleRenderer2D.cpp:3-17: `num_pts` points on the unit circle -/
noncomputable def circlePoints (n : Nat) : List Vertex :=
  (List.range n).map fun (k : Nat) => .at (Real.cos (k * (2 * Real.pi / n))) (Real.sin (k * (2 * Real.pi / n)))

/-- The matrix of ball2dqt4/GLCircleRenderer2D.cpp:21-24, 39-42 -/
noncomputable def circleMatrix (x : V2 ℝ) (r : ℝ) : GlMatrix := (GlMatrix.ident.translated x).scaled ⟨r, r⟩

/-- `m_circle_renderer.renderSolidCircle`, ball2dqt4/GLCircleRenderer2D.cpp:37-52; `m_circle_renderer( 64 )`, ball2dqt4/GLWidget.cpp:70 -/
noncomputable def renderSolidCircle (color : Color) (x : V2 ℝ) (r : ℝ) : Draw := ⟨.polygon, color, (circlePoints 64).map (circleMatrix x r).apply⟩

/-- `m_circle_renderer.renderCircle`, ball2dqt4/GLCircleRenderer2D.cpp:19-34 -/
noncomputable def renderCircle (color : Color) (x : V2 ℝ) (r : ℝ) : Draw := ⟨.lineLoop, color, (circlePoints 64).map (circleMatrix x r).apply⟩

/-- A ball with its entry of `m_ball_colors` -/
structure PicBall where
  x : V2 ℝ
  r : ℝ
  color : Color

/-- What `paintSystem` reads of the state of the ball simulation -/
structure BallScene where
  balls : List PicBall
  portals : List (PlanarPortal ℝ)
  drums : List Drum
  planes : List (HalfPlane ℝ)

/-- ball2dqt4/GLWidget.cpp:930-945: the outlines of the balls that touch a portal -/
noncomputable def outlinesOf (junk : ℝ → ℤ) (p : PlanarPortal ℝ) : List PicBall → Outcome (List Draw)
  | [] => .ok []
  | b :: bs =>
    (ballTouchesPortal p b.x b.r).bind fun touched =>
    (outlinesOf junk p bs).bind fun rest =>
    match touched with
    | some _ => .ok (renderCircle b.color (p.teleportBall junk b.x b.r) b.r :: rest)
    | none => .ok rest

/-- ball2dqt4/GLWidget.cpp:927-947: the same, portal by portal -/
noncomputable def outlines (junk : ℝ → ℤ) (bs : List PicBall) : List (PlanarPortal ℝ) → Outcome (List Draw)
  | [] => .ok []
  | p :: ps => (outlinesOf junk p bs).bind fun here => (outlines junk bs ps).bind fun rest => .ok (here ++ rest)

/-- `GLWidget::paintSystem`, ball2dqt4/GLWidget.cpp:900-997 -/
noncomputable def paintBalls (junk : ℝ → ℤ) (colorGen : Nat → Color) (s : BallScene) : Outcome (List Draw) :=
  (outlines junk s.balls s.portals).bind fun o =>
  .ok (s.balls.map (fun b => renderSolidCircle b.color b.x b.r) ++ o ++
    s.drums.map (fun d => renderSolidCircle black d.x d.r) ++ paintPortals colorGen s.portals ++ paintPlanes s.planes)

/-! ## The rigid body program -/

/-- `GLCircleRenderer2D`, rigidbody2dqt4/GLCircleRenderer2D.cpp:6-23: points on the upper half of the unit circle -/
noncomputable def halfCirclePoints (m : Nat) : List Vertex :=
  (List.range m).map fun (k : Nat) =>
    let a : ℝ := if k = 0 then 0 else if k = m - 1 then Real.pi else k * (Real.pi / ((m : ℝ) - 1))
    .at (Real.cos a) (Real.sin a)

/-- `renderCircle`, rigidbody2dqt4/GLCircleRenderer2D.cpp:25-52; `m_circle_renderer( 32 )`, rigidbody2dqt4/GLWidget.cpp:128 -/
noncomputable def renderHalves (M : GlMatrix) (color : Color) : List Draw :=
  [⟨.polygon, color, (halfCirclePoints 32).map M.apply⟩, ⟨.polygon, black, (halfCirclePoints 32).map (M.rotated 180).apply⟩]

/-- `renderCircleOutline`, rigidbody2dqt4/GLCircleRenderer2D.cpp:54-85 -/
noncomputable def renderHalvesOutline (M : GlMatrix) (color : Color) : List Draw :=
  [⟨.lineStrip, color, (halfCirclePoints 32).map M.apply⟩, ⟨.lineLoop, black, (halfCirclePoints 32).map (M.rotated 180).apply⟩]

/-- `render` of CircleGeometryRenderer, rigidbody2dqt4/CircleGeometryRenderer.cpp:11-17, and of BoxGeometryRenderer, rigidbody2dqt4/BoxGeometryRenderer.cpp:9-24 -/
noncomputable def renderGeometry (M : GlMatrix) (color : Color) : Geometry2D → List Draw
  | .circle r => renderHalves (M.scaled ⟨r, r⟩) color
  | .box r => [⟨.triangleStrip, color, [.at (-1) 1, .at (-1) (-1), .at 1 (-1), .at 1 1, .at (-1) 1].map (M.scaled r).apply⟩]

/-- `renderTeleported`, rigidbody2dqt4/CircleGeometryRenderer.cpp:19-25 and rigidbody2dqt4/BoxGeometryRenderer.cpp:26-44 -/
noncomputable def renderTeleported (M : GlMatrix) (color : Color) : Geometry2D → List Draw
  | .circle r => renderHalvesOutline (M.scaled ⟨r, r⟩) color
  | .box r => [⟨.lineLoop, color, [.at 1 1, .at (-1) 1, .at (-1) (-1), .at 1 (-1)].map (M.scaled r).apply⟩]

/-- A body with its entry of `m_body_colors` and `isKinematicallyScripted` -/
structure PicBody where
  body : PosedBody2D
  color : Color
  scripted : Bool

/-- What `paintSystem` reads of the state of the rigid body simulation -/
structure RigidScene where
  bodies : List PicBody
  portals : List (PlanarPortal ℝ)
  planes : List (HalfPlane ℝ)

/-- `glTranslated` and `glRotated` to the pose of a body, rigidbody2dqt4/GLWidget.cpp:943-945, 985-987 -/
noncomputable def bodyMatrix (x : V2 ℝ) (theta : ℝ) : GlMatrix := (GlMatrix.ident.translated x).rotated (180 * theta / Real.pi)

/-- rigidbody2dqt4/GLWidget.cpp:940-960: one body -/
noncomputable def paintBody (b : PicBody) : List Draw :=
  renderGeometry (bodyMatrix b.body.x b.body.theta) (if b.scripted then gray else b.color) b.body.geometry

/-- rigidbody2dqt4/GLWidget.cpp:971-997: the outline of a body through a portal -/
noncomputable def paintTeleported (junk : ℝ → ℤ) (p : PlanarPortal ℝ) (b : PicBody) : List Draw :=
  match Step2.aabbTouchesPortal p (b.body.geometry.aabb b.body.x b.body.theta) with
  | some plane => renderTeleported (bodyMatrix (Step2.teleportPoint junk p plane b.body.x) b.body.theta) b.color b.body.geometry
  | none => []

/-- `GLWidget::paintSystem`, rigidbody2dqt4/GLWidget.cpp:930-1064, without contact points -/
noncomputable def paintRigid (junk : ℝ → ℤ) (colorGen : Nat → Color) (s : RigidScene) : List Draw :=
  s.bodies.flatMap paintBody ++ s.portals.flatMap (fun p => s.bodies.flatMap (paintTeleported junk p)) ++
  paintPortals colorGen s.portals ++ paintPlanes s.planes

end Picture2
end Scisim
