import Verif.Model.Camera
import Verif.Model.Geometry3D
/-!
# The cameras of the interactive program in space

`rigidbody3dqt4/PerspectiveCameraController.cpp`, `OrthographicCameraController.cpp` and the camera part of `GLWidget.cpp`, as a machine that handles one event at a time.
Numbers are real and exact, a window has positive width and height, and what OpenGL remembers is the projection, the viewport and what was painted last, as in `Model/Camera.lean`.
-/

namespace Scisim.Camera3

open Matrix Camera

/-- `OrthographicCameraController::ProjectionPlane` -/
inductive Plane where
  | xy
  | zy
  | zx
deriving DecidableEq

/-- `m_cam_x`, `m_cam_y`, `m_cam_z` and `m_cam_psn` of both controllers -/
structure Frame where
  x : Vec3
  y : Vec3
  z : Vec3
  psn : Vec3

/-- `updatePositionAndFrame`: PerspectiveCameraController.cpp:126-139, OrthographicCameraController.cpp:140-153. `U` is `m_up_orientation`. -/
noncomputable def frameOf (U : Mat3) (theta phi rho : ℝ) : Frame :=
  let dir : Vec3 := U *ᵥ ![Real.sin theta * Real.sin phi, Real.cos theta, Real.sin theta * Real.cos phi]
  let z : Vec3 := -dir
  let y : Vec3 := U *ᵥ ![Real.cos phi, 0, -Real.sin phi]
  ⟨crossProduct y z, y, z, rho • dir⟩

/-- `PerspectiveCameraController` -/
structure Persp where
  /-- `m_fovy`, in degrees -/
  fovy : ℝ
  aspect : ℝ
  theta : ℝ
  phi : ℝ
  rho : ℝ
  lookat : Vec3
  /-- `m_up_orientation`, as a matrix -/
  U : Mat3
  frame : Frame

/-- `updatePositionAndFrame` -/
noncomputable def Persp.update (c : Persp) : Persp := { c with frame := frameOf c.U c.theta c.phi c.rho }

/-- `PerspectiveCameraController::PerspectiveCameraController`, 7-18; also `reset`, 141-144 -/
noncomputable def Persp.new : Persp := Persp.update ⟨60, 1, Real.pi / 3, Real.pi / 4, 3, 0, 1, ⟨0, 0, 0, 0⟩⟩

/-- `OrthographicCameraController`. Its `m_up_orientation` is always the identity. -/
structure Ortho where
  theta : ℝ
  phi : ℝ
  lookat : Vec3
  scale : ℝ
  plane : Plane
  frame : Frame

/-- `useXYView`, `useZYView`, `useZXView`: OrthographicCameraController.cpp:46-68; `m_rho_cam` is 50 -/
noncomputable def Ortho.useView (p : Plane) (c : Ortho) : Ortho :=
  let theta := match p with | .xy => Real.pi / 2 | .zy => Real.pi / 2 | .zx => 0
  let phi := match p with | .xy => 0 | .zy => -Real.pi / 2 | .zx => -Real.pi / 2
  { c with plane := p, theta := theta, phi := phi, frame := frameOf 1 theta phi 50 }

/-- `OrthographicCameraController::OrthographicCameraController`, 5-15; also `reset` -/
noncomputable def Ortho.new : Ortho := Ortho.useView .zx ⟨0, 0, 0, 15, .xy, ⟨0, 0, 0, 0⟩⟩

/-- The arguments of `glOrtho` or `glFrustum` -/
inductive Projection where
  | ortho (r : Rect ℝ) (near far : ℝ)
  | frustum (r : Rect ℝ) (near far : ℝ)

/-- What is on the screen: projection, camera axes and position as set by `positionCamera`, and the size of the window -/
structure Picture where
  projection : Projection
  frame : Frame
  /-- `m_cam_lookat + m_cam_psn` -/
  eye : Vec3
  size : Size

/-- The members of `GLWidget` that concern the camera, and OpenGL -/
structure View where
  /-- `m_use_perspective_camera` -/
  perspective : Bool
  persp : Persp
  ortho : Ortho
  projection : Option Projection
  viewport : Option Size
  lock : Bool
  last : ℤ × ℤ
  shown : Option Picture

/-- `GLWidget::GLWidget`, rigidbody3dqt4/GLWidget.cpp:71-75 -/
noncomputable def start : View := ⟨true, Persp.new, Ortho.new, none, none, false, (0, 0), none⟩

/-- `54.43 / 360.0 * PI`, PerspectiveCameraController.cpp:51 -/
noncomputable def halfAngle : ℝ := 5443 / 100 / 360 * Real.pi

/-- `PerspectiveCameraController::setPerspective`, 39-57 -/
noncomputable def setPerspective (s : Size) (v : View) : View :=
  let aspect : ℝ := s.w / s.h
  let near : ℝ := 1 / 10
  let far : ℝ := 1000
  let top := Real.tan halfAngle * near
  let right := top * aspect
  { v with persp := { v.persp with fovy := 5443 / 100, aspect := aspect }, projection := some (.frustum ⟨-right, right, -top, top⟩ near far), viewport := some s }

/-- `OrthographicCameraController::setPerspective`, 89-100 -/
noncomputable def setOrthographic (s : Size) (v : View) : View :=
  let ratio : ℝ := s.h / s.w
  { v with projection := some (.ortho ⟨-v.ortho.scale / ratio, v.ortho.scale / ratio, -v.ortho.scale, v.ortho.scale⟩ (-100) 100), viewport := some s }

/-- `resizeGL`, rigidbody3dqt4/GLWidget.cpp:526-541 -/
noncomputable def resizeGL (s : Size) (v : View) : View := if v.perspective then setPerspective s v else setOrthographic s v

/-- `updateGL`; `positionCamera`: PerspectiveCameraController.cpp:20-37, OrthographicCameraController.cpp:70-87 -/
noncomputable def paint (v : View) : View :=
  { v with shown :=
      match v.projection, v.viewport with
      | some p, some s =>
        if v.perspective then some ⟨p, v.persp.frame, v.persp.lookat + v.persp.frame.psn, s⟩ else some ⟨p, v.ortho.frame, v.ortho.lookat + v.ortho.frame.psn, s⟩
      | _, _ => none }

/-- `Eigen::Quaternion::FromTwoVectors( UnitY, up )` (library code) as a matrix, for a unit vector that does not point straight down: the turn about the axis `UnitY × up`
with cosine `up.y()`. -/
noncomputable def turnY (u : Vec3) : Mat3 :=
  !![u 1 + u 2 * u 2 / (1 + u 1), u 0, -(u 0 * u 2) / (1 + u 1);
     -u 0, u 1, -u 2;
     -(u 0 * u 2) / (1 + u 1), u 2, u 1 + u 0 * u 0 / (1 + u 1)]

/-- Eigen `normalized` of a vector that is not zero -/
noncomputable def unit3 (u : Vec3) : Vec3 := (1 / Real.sqrt (u ⬝ᵥ u)) • u

open Classical in
/-- `PerspectiveCameraController::setCamera`, 59-70. `fail`: the vector is zero or points straight down, for which Eigen takes another way that is not modelled. -/
noncomputable def setCameraPersp (up : Vec3) (theta phi rho : ℝ) (lookat : Vec3) (v : View) : Outcome View :=
  if up = 0 ∨ unit3 up 1 = -1 then .fail
  else .ok { v with persp := Persp.update { v.persp with U := turnY (unit3 up), theta := theta, phi := phi, rho := rho, lookat := lookat } }

open Classical in
/-- `centerCameraAtSphere`, PerspectiveCameraController.cpp:72-83. `fail`: a quotient is infinite. -/
noncomputable def centerAtSphere (center : Vec3) (radius : ℝ) (v : View) : Outcome View :=
  let s1 := Real.sin (1 / 2 * v.persp.fovy * (Real.pi / 180))
  let s2 := Real.sin (1 / 2 * v.persp.aspect * v.persp.fovy * (Real.pi / 180))
  if s1 = 0 ∨ s2 = 0 then .fail
  else .ok { v with persp := Persp.update { v.persp with lookat := center, rho := max (radius / s1) (radius / s2) } }

/-- The smallest scale, written `0.00001` -/
noncomputable def leastScale : ℝ := 1 / 100000

/-- `setCenterAndScale`, OrthographicCameraController.cpp:128-138; the viewport is read -/
noncomputable def setCenterAndScale (center : Vec3) (scale : ℝ) (v : View) : Outcome View :=
  match v.viewport with
  | none => .ub
  | some s => .ok (setOrthographic s { v with ortho := { v.ortho with lookat := center, scale := max leastScale scale } })

/-- `centerCamera`, rigidbody3dqt4/GLWidget.cpp:860-902. `fail`: the radius is not a number. -/
noncomputable def centerCamera (bodies : List PosedBody3D) (v : View) : Outcome View :=
  if v.lock then .ok v
  else if bodies.isEmpty then .ok (if v.perspective then { v with persp := Persp.new } else { v with ortho := Ortho.new })
  else match sceneBoundingSphere bodies with
  | none => .fail
  | some (radius, center) =>
    (if v.perspective then centerAtSphere center radius v
      else match v.viewport with
      | none => .ub
      | some s =>
        let ratio : ℝ := s.h / s.w
        setCenterAndScale center (max (ratio * radius) radius) v).bind fun v => .ok (paint v)

/-- `enablePerspectiveCamera`, rigidbody3dqt4/GLWidget.cpp:904-913 -/
noncomputable def enablePerspective (bodies : List PosedBody3D) (v : View) : Outcome View :=
  match v.viewport with
  | none => .ub
  | some s => centerCamera bodies (setPerspective s { v with perspective := true })

/-- `enableOrthographicXYCamera` and its two companions, rigidbody3dqt4/GLWidget.cpp:915-949 -/
noncomputable def enableOrthographic (p : Plane) (bodies : List PosedBody3D) (v : View) : Outcome View :=
  match v.viewport with
  | none => .ub
  | some s => centerCamera bodies (setOrthographic s { v with perspective := false, ortho := v.ortho.useView p })

/-- The camera a scene asks for -/
inductive Settings where
  | persp (up : Vec3) (theta phi rho : ℝ) (lookat : Vec3)
  | ortho (plane : Plane) (x : Vec3) (scale : ℝ)

/-- The camera part of `openScene`, rigidbody3dqt4/GLWidget.cpp:264, 324-327 and `initializeRenderingSettings`, 374-412. The lock is not looked at. Before the window is shown, the
size read at 380-382 is undefined; the numbers computed from it, projection and aspect, are set again when the window is shown, so that only the present size is kept here. -/
noncomputable def openScene (settings : Option Settings) (lock : Bool) (bodies : List PosedBody3D) (render : Bool) (v : View) : Outcome View :=
  let v := { v with lock := lock }
  let reproject := fun v : View => match v.viewport with | none => v | some s => resizeGL s v
  (match settings with
    | some (.persp up theta phi rho lookat) => (setCameraPersp up theta phi rho lookat { v with perspective := true }).bind fun v => .ok (reproject v)
    | some (.ortho plane x scale) => -- `OrthographicCameraController::setCamera`, 17-45
      let v := { v with perspective := false, ortho := { v.ortho.useView plane with scale := max leastScale scale, lookat := x } }
      .ok (reproject v)
    | none =>
      match sceneBoundingSphere bodies with
      | none => .fail
      | some (radius, center) => (centerAtSphere center radius { v with perspective := true }).bind fun v => .ok (reproject v)).bind fun v =>
  .ok (if render then paint v else v)

/-- `translateView`, OrthographicCameraController.cpp:102-115 -/
noncomputable def translateView (s : Size) (dx dy : ℝ) (c : Ortho) : Ortho :=
  let percentX := dx / (s.w : ℝ)
  let percentY := dy / (s.h : ℝ)
  let tx := percentX * 2 * c.scale * s.w / s.h
  let ty := percentY * 2 * c.scale
  { c with lookat := c.lookat + ty • c.frame.x - tx • c.frame.y }

/-- `OrthographicCameraController::addToDistFromCenter`, 117-126 -/
noncomputable def zoomOrtho (s : Size) (d : ℝ) (v : View) : View :=
  setOrthographic s { v with ortho := { v.ortho with scale := max leastScale (v.ortho.scale + d) } }

/-- `PerspectiveCameraController::addToDistFromCenter`, 85-89 -/
noncomputable def zoomPersp (d : ℝ) (c : Persp) : Persp := Persp.update { c with rho := max (c.rho + d) (1 / 10) }

open Classical in
/-- `addToZenithAngle`, PerspectiveCameraController.cpp:96-108 -/
noncomputable def addZenith (d : ℝ) (c : Persp) : Persp :=
  let t := c.theta + d
  let t := if t < 0 then 0 else t
  let t := if t > Real.pi then Real.pi else t
  Persp.update { c with theta := t }

/-- `addToAzimuthAngle`, 110-114 -/
noncomputable def addAzimuth (d : ℝ) (c : Persp) : Persp := Persp.update { c with phi := c.phi + d }

/-- `trackCameraHorizontal` and `trackCameraVertical`, 116-124 -/
noncomputable def track (h vert : ℝ) (c : Persp) : Persp := { c with lookat := c.lookat + h • c.frame.y + vert • c.frame.x }

/-- The button a movement of the mouse is taken for: the left one before the middle one before the right one; with the orthographic camera the middle one does nothing -/
inductive Button where
  | left
  | middle
  | right
deriving DecidableEq

/-- `mouseMoveEvent`, rigidbody3dqt4/GLWidget.cpp:1404-1458 -/
noncomputable def move (b : Option Button) (pos : ℤ × ℤ) (v : View) : Outcome View :=
  if v.lock then .ok v
  else
    let dx : ℝ := ((pos.1 - v.last.1 : ℤ) : ℝ)
    let dy : ℝ := ((pos.2 - v.last.2 : ℤ) : ℝ)
    let v := { v with last := pos }
    if v.perspective then
      match b with
      | some .left => .ok (paint { v with persp := addAzimuth (-(1 / 100 * dx)) (addZenith (-(1 / 100 * dy)) v.persp) })
      | some .middle => .ok (paint { v with persp := track (-v.persp.rho * (2 / 1000 * dx)) (v.persp.rho * (2 / 1000 * dy)) v.persp })
      | some .right => .ok (paint { v with persp := zoomPersp (v.persp.rho * (1 / 100 * dx - 1 / 100 * dy)) v.persp })
      | none => .ok v
    else
      match v.viewport with
      | none => .ub
      | some s =>
        match b with
        | some .left => .ok (paint { v with ortho := translateView s dx dy v.ortho })
        | some .right => .ok (paint (zoomOrtho s (1 / 10 * (dx - dy)) v))
        | _ => .ok v

/-- `wheelEvent`, rigidbody3dqt4/GLWidget.cpp:1460-1479 -/
noncomputable def wheel (delta : ℤ) (v : View) : Outcome View :=
  if v.lock then .ok v
  else if v.perspective then .ok (paint { v with persp := zoomPersp (-(2 / 1000) * v.persp.rho * (delta : ℝ)) v.persp })
  else match v.viewport with
  | none => .ub
  | some s => .ok (paint (zoomOrtho s (-(5 / 100) * (delta : ℝ)) v))

/-- What happens to the widget -/
inductive Event where
  /-- `left`: the left button is down, so that the window is painted -/
  | press (left : Bool) (pos : ℤ × ℤ)
  | move (b : Option Button) (pos : ℤ × ℤ)
  | wheel (delta : ℤ)
  | resize (s : Size)
  | center (bodies : List PosedBody3D)
  | perspective (bodies : List PosedBody3D)
  | orthographic (p : Plane) (bodies : List PosedBody3D)
  | setLock (b : Bool)
  | openScene (settings : Option Settings) (lock : Bool) (bodies : List PosedBody3D) (render : Bool)
  | repaint

/-- One event. `press` is `mousePressEvent`, rigidbody3dqt4/GLWidget.cpp:1352-1377; releasing a button only repaints. -/
noncomputable def handle (e : Event) (v : View) : Outcome View :=
  match e with
  | .press left pos => .ok (if v.lock then v else { if left then paint v else v with last := pos })
  | .move b pos => move b pos v
  | .wheel d => wheel d v
  | .resize s => .ok (paint (resizeGL s v))
  | .center bodies => centerCamera bodies v
  | .perspective bodies => enablePerspective bodies v
  | .orthographic p bodies => enableOrthographic p bodies v
  | .setLock b => .ok { v with lock := b }
  | .openScene settings lock bodies render => openScene settings lock bodies render v
  | .repaint => .ok (paint v)

/-- A sequence of events -/
noncomputable def run : List Event → View → Outcome View
  | [], v => .ok v
  | e :: es, v => (handle e v).bind (run es)

/-- `exportCameraSettings`, rigidbody3dqt4/GLWidget.cpp:1030-1042, with `up()`, PerspectiveCameraController.h:70-73. `write` is what becomes of a number when it is written and
read again. -/
noncomputable def exported (write : ℝ → ℝ) (v : View) : Settings :=
  if v.perspective then
    .persp (fun i => write ((v.persp.U *ᵥ ![0, 1, 0]) i)) (write v.persp.theta) (write v.persp.phi) (write v.persp.rho) (fun i => write (v.persp.lookat i))
  else .ortho v.ortho.plane (fun i => write (v.ortho.lookat i)) (write v.ortho.scale)

end Scisim.Camera3
