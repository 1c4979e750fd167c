import Verif.Model.Outcome
import Verif.Model.Vec2
import Mathlib.Algebra.Order.Field.Basic
/-!
# The camera of the two interactive programs in the plane

`DisplayController2D.cpp`, the same in `ball2dqt4` and `rigidbody2dqt4`, and the camera part of the two files `GLWidget.cpp`, as a machine that handles one event at a time.

* Numbers are exact. A window has positive width and height (`minimumSizeHint` is 50 by 50).
* Of OpenGL: the projection that `glOrtho` sets, the rectangle that `glViewport` sets and what `updateGL` painted last. Before Qt first calls `resizeGL` there is no
  viewport; what `glGetIntegerv` then leaves in the uninitialised array of `getViewportDimensions` is undefined.
* What is drawn is in `Model/Viewer.lean`; here a picture is the part of the plane it shows.
-/

namespace Scisim.Camera

/-- The size of the window in pixels -/
structure Size where
  w : ℕ
  h : ℕ
  w_pos : 0 < w
  h_pos : 0 < h
deriving DecidableEq

/-- The arguments `left`, `right`, `bottom` and `top` of `glOrtho` -/
structure Rect (S : Type) where
  left : S
  right : S
  bottom : S
  top : S
deriving DecidableEq

/-- `DisplayController2D`, ball2dqt4/DisplayController2D.h -/
structure Controller (S : Type) where
  /-- `m_window_width`, `m_window_height` -/
  size : Size
  /-- `m_scale_factor` -/
  scale : S
  /-- `m_center_x`, `m_center_y` -/
  center : V2 S

/-- The two programs: `ball2dqt4` and `rigidbody2dqt4` -/
inductive Which where
  | balls
  | bodies
deriving DecidableEq

/-- The members of `GLWidget` that concern the camera, and OpenGL -/
structure View (S : Type) where
  ctl : Controller S
  /-- what `glOrtho` was last called with -/
  projection : Rect S
  /-- what `glViewport` was last called with -/
  viewport : Option Size
  /-- `m_lock_camera` -/
  lock : Bool
  /-- `m_last_pos` -/
  last : ℤ × ℤ
  /-- projection and viewport of the picture painted last -/
  shown : Option (Rect S × Size)

/-- What a scene contains, as far as the camera is concerned: `m_sim.empty()`, and `computeBoundingBox()`: lower and upper corner, `none` if both are at infinity -/
structure Contents (S : Type) where
  empty : Bool
  box : Option (V2 S × V2 S)

section
variable {S : Type} [Field S] [LinearOrder S]

/-- `DisplayController2D::DisplayController2D`, ball2dqt4/DisplayController2D.cpp:5-11, and a projection nobody set -/
def start : View S :=
  ⟨⟨⟨512, 512, by decide, by decide⟩, 1, ⟨0, 0⟩⟩, ⟨-1, 1, -1, 1⟩, none, false, (0, 0), none⟩

/-- The numbers of `reshape`, ball2dqt4/DisplayController2D.cpp:21-26 -/
def Controller.rect (c : Controller S) (s : Size) : Rect S :=
  let ratio : S := s.h / s.w
  ⟨c.center.x - c.scale / ratio, c.center.x + c.scale / ratio, c.center.y - c.scale, c.center.y + c.scale⟩

/-- `reshape`, ball2dqt4/DisplayController2D.cpp:13-31 -/
def reshape (s : Size) (v : View S) : View S :=
  { v with ctl := { v.ctl with size := s }, projection := v.ctl.rect s, viewport := some s }

/-- `translateView`, ball2dqt4/DisplayController2D.cpp:33-40 -/
def translateView (dx dy : S) (v : View S) : View S :=
  let tx := 2 * v.ctl.scale * dx / (v.ctl.size.h : S)
  let ty := 2 * v.ctl.scale * dy / (v.ctl.size.h : S)
  reshape v.ctl.size { v with ctl := { v.ctl with center := ⟨v.ctl.center.x - tx, v.ctl.center.y + ty⟩ } }

/-- `zoomView`, ball2dqt4/DisplayController2D.cpp:42-46 -/
def zoomView (delta : S) (v : View S) : View S :=
  reshape v.ctl.size { v with ctl := { v.ctl with scale := max (1 / 100000) (v.ctl.scale + delta) } }

/-- `setCenter` and `setScaleFactor`, ball2dqt4/DisplayController2D.cpp:48-57 -/
def setCenterScale (center : V2 S) (scale : S) (v : View S) : View S :=
  { v with ctl := { v.ctl with center := center, scale := scale } }

/-- `reset`, ball2dqt4/DisplayController2D.cpp:84-89 -/
def reset (v : View S) : View S := setCenterScale ⟨0, 0⟩ 1 v

/-- `updateGL`: paints with the present projection and viewport -/
def paint (v : View S) : View S := { v with shown := v.viewport.map fun s => (v.projection, s) }

/-- The numbers computed in `centerCamera` from a bounding box: ball2dqt4/GLWidget.cpp:557-576, rigidbody2dqt4/GLWidget.cpp:611-629 -/
def fit (lo hi : V2 S) (s : Size) (v : View S) : View S :=
  let cx := lo.x + 1 / 2 * (hi.x - lo.x)
  let rx := hi.x - cx
  let cy := lo.y + 1 / 2 * (hi.y - lo.y)
  let ry := hi.y - cy
  let ratio : S := s.h / s.w
  setCenterScale ⟨cx, cy⟩ (12 / 10 * max (ratio * rx) ry) v

/-- `centerCamera`: ball2dqt4/GLWidget.cpp:544-583, rigidbody2dqt4/GLWidget.cpp:584-635. The balls' program reads the size of the viewport, the other the size stored in the
controller. A box at infinity gives numbers that are not numbers: `fail`. -/
def centerCamera (p : Which) (c : Contents S) (updateGl : Bool) (v : View S) : Outcome (View S) :=
  if v.lock then .ok v
  else match p with
  | .balls =>
    if c.empty then .ok (reset v)
    else match v.viewport, c.box with
    | none, _ => .ub
    | some _, none => .fail
    | some s, some (lo, hi) =>
      let v := fit lo hi s v
      .ok (if updateGl then paint (reshape s v) else v)
  | .bodies =>
    let s := v.ctl.size
    let finish := fun v : View S => if updateGl then paint (reshape s v) else v
    if c.empty then .ok (finish (reset v))
    else match c.box with
    | none => .fail
    | some (lo, hi) => .ok (finish (fit lo hi s v))

/-- The camera part of `openScene`: ball2dqt4/GLWidget.cpp:211-217 and 262-286, rigidbody2dqt4/GLWidget.cpp:318-350. `camera` is the centre and the scale that the scene
gives, `lock` its setting of the lock. -/
def openScene (p : Which) (camera : Option (V2 S × S)) (lock : Option Bool) (c : Contents S) (render : Bool) (v : View S) : Outcome (View S) :=
  let v := { v with lock := lock.getD v.lock }
  let backup := v.lock
  let v := { v with lock := false }
  (match camera with
    | some (center, scale) => Outcome.ok (setCenterScale center scale v)
    | none => centerCamera p c false v).bind fun v =>
  let v := { v with lock := backup }
  if render then
    match p with
    | .balls => .ok (paint v)
    | .bodies =>
      match v.viewport with
      | none => .ub
      | some s => .ok (paint (reshape s v))
  else .ok v

/-- The buttons that are down: left, right -/
structure Buttons where
  left : Bool
  right : Bool
deriving DecidableEq

/-- `mousePressEvent`, ball2dqt4/GLWidget.cpp:1083-1108, rigidbody2dqt4/GLWidget.cpp:1157-1182. The members that record the buttons are only read in assertions. -/
def press (b : Buttons) (pos : ℤ × ℤ) (v : View S) : View S :=
  if v.lock then v else { if b.left then paint v else v with last := pos }

/-- `mouseReleaseEvent`, ball2dqt4/GLWidget.cpp:1110-1133. `wasLeft`: the left button was recorded as pressed -/
def release (b : Buttons) (wasLeft : Bool) (v : View S) : View S :=
  if v.lock then v else if !b.left && wasLeft then paint v else v

/-- `mouseMoveEvent`, ball2dqt4/GLWidget.cpp:1135-1168, rigidbody2dqt4/GLWidget.cpp:1209-1242 -/
def move (b : Buttons) (pos : ℤ × ℤ) (v : View S) : View S :=
  if v.lock then v
  else
    let dx := pos.1 - v.last.1
    let dy := pos.2 - v.last.2
    let v := { v with last := pos }
    let v := if b.left then translateView (dx : S) (dy : S) v else v
    let v := if b.right then zoomView (2 / 100 * v.ctl.scale * (dy : S)) v else v
    if b.left || b.right then paint v else v

/-- `wheelEvent`, ball2dqt4/GLWidget.cpp:1170-1180, rigidbody2dqt4/GLWidget.cpp:1244-1254 -/
def wheel (delta : ℤ) (v : View S) : View S :=
  if v.lock then v else paint (zoomView (-(2 / 1000) * v.ctl.scale * (delta : S)) v)

/-- What happens to the widget -/
inductive Event (S : Type) where
  | press (b : Buttons) (pos : ℤ × ℤ)
  | release (b : Buttons) (wasLeft : Bool)
  | move (b : Buttons) (pos : ℤ × ℤ)
  | wheel (delta : ℤ)
  /-- Qt calls `resizeGL`, ball2dqt4/GLWidget.cpp:441-448, and then `paintGL` -/
  | resize (s : Size)
  /-- the menu item, with what the simulation then contains: ball2dqt4/ContentWidget.cpp:219-223 -/
  | center (c : Contents S)
  /-- `lockCamera` -/
  | setLock (b : Bool)
  | openScene (camera : Option (V2 S × S)) (lock : Option Bool) (c : Contents S) (render : Bool)
  /-- anything else that repaints: a step, a reset, the window system -/
  | repaint

/-- One event -/
def handle (p : Which) (e : Event S) (v : View S) : Outcome (View S) :=
  match e with
  | .press b pos => .ok (press b pos v)
  | .release b was => .ok (release b was v)
  | .move b pos => .ok (move b pos v)
  | .wheel d => .ok (wheel d v)
  | .resize s => .ok (paint (reshape s v))
  | .center c => centerCamera p c true v
  | .setLock b => .ok { v with lock := b }
  | .openScene camera lock c render => openScene p camera lock c render v
  | .repaint => .ok (paint v)

/-- A sequence of events -/
def run (p : Which) : List (Event S) → View S → Outcome (View S)
  | [], v => .ok v
  | e :: es, v => (handle p e v).bind (run p es)

/-- `exportCameraSettings`: the centre and the scale, ball2dqt4/GLWidget.cpp:637-640, rigidbody2dqt4/GLWidget.cpp:690-693. `write` is what becomes of a number when it is
written with the number of digits that `std::cout` has at the time, and read again. -/
def exported (write : S → S) (v : View S) : V2 S × S :=
  (⟨write v.ctl.center.x, write v.ctl.center.y⟩, write v.ctl.scale)

/-- `Ball2DState::computeBoundingBox`, ball2d/Ball2DState.cpp:217-249, of the balls and drums: each is a centre and a radius. `none` is the box at infinity. -/
def discsBox (discs : List (V2 S × S)) : Option (V2 S × V2 S) :=
  discs.foldl (fun bounds d =>
    match bounds with
    | none => some (⟨d.1.x - d.2, d.1.y - d.2⟩, ⟨d.1.x + d.2, d.1.y + d.2⟩)
    | some (lo, hi) =>
      some (⟨min lo.x (d.1.x - d.2), min lo.y (d.1.y - d.2)⟩, ⟨max hi.x (d.1.x + d.2), max hi.y (d.1.y + d.2)⟩)) none

/-- The contents of a scene of balls: `Ball2DSim::empty`, ball2d/Ball2DSim.cpp:41-44, looks at the balls only -/
def ballContents (balls drums : List (V2 S × S)) : Contents S := ⟨balls.isEmpty, discsBox (balls ++ drums)⟩

end

end Scisim.Camera
