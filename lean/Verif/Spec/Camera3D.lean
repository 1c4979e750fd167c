import Verif.Model.Camera3D
import Verif.Spec.Camera
/-!
# What a picture of space shows (C80)
-/

namespace Scisim.Camera3

open Matrix Camera

/-- Three vectors of length one at right angles -/
def Orthonormal3 (f : Frame) : Prop :=
  f.x ⬝ᵥ f.x = 1 ∧ f.y ⬝ᵥ f.y = 1 ∧ f.z ⬝ᵥ f.z = 1 ∧ f.x ⬝ᵥ f.y = 0 ∧ f.y ⬝ᵥ f.z = 0 ∧ f.x ⬝ᵥ f.z = 0

/-- How far a point is in front of the camera -/
noncomputable def Picture.depth (pic : Picture) (p : Vec3) : ℝ := pic.frame.z ⬝ᵥ (p - pic.eye)

/-- The rectangle of the projection, and its two distances -/
def Projection.rect : Projection → Rect ℝ
  | .ortho r _ _ => r
  | .frustum r _ _ => r

def Projection.near : Projection → ℝ
  | .ortho _ n _ => n
  | .frustum _ n _ => n

def Projection.far : Projection → ℝ
  | .ortho _ _ f => f
  | .frustum _ _ f => f

/-- How much a point is brought nearer to the axis: not at all, or in proportion to its distance -/
noncomputable def Picture.shrink (pic : Picture) (p : Vec3) : ℝ :=
  match pic.projection with
  | .ortho _ _ _ => 1
  | .frustum _ n _ => n / pic.depth p

/-- The point is drawn at this position, in pixels from the upper left corner of the window: `m_cam_y` points to the right, `m_cam_x` upwards. -/
def DrawnAt (pic : Picture) (p : Vec3) (px py : ℝ) : Prop :=
  pic.projection.rect.left + px / pic.size.w * (pic.projection.rect.right - pic.projection.rect.left) = pic.shrink p * (pic.frame.y ⬝ᵥ (p - pic.eye)) ∧
  pic.projection.rect.top - py / pic.size.h * (pic.projection.rect.top - pic.projection.rect.bottom) = pic.shrink p * (pic.frame.x ⬝ᵥ (p - pic.eye))

/-- The point is drawn in the window, if nothing hides it: it is neither too near nor too far nor outside. -/
def Visible3 (v : View) (p : Vec3) : Prop :=
  ∃ pic, v.shown = some pic ∧ pic.projection.near ≤ pic.depth p ∧ pic.depth p ≤ pic.projection.far ∧
    ∃ px py : ℝ, 0 ≤ px ∧ px ≤ pic.size.w ∧ 0 ≤ py ∧ py ≤ pic.size.h ∧ DrawnAt pic p px py

/-- The picture is a true one: the axes of the camera are at right angles and not mirrored (up turned towards right, a screw goes away from the viewer), right is right and up is up, a pixel is as wide as it is high, and the axis of the camera is in the
middle of the window. -/
def True3 (pic : Picture) : Prop :=
  Orthonormal3 pic.frame ∧ crossProduct pic.frame.x pic.frame.y = pic.frame.z ∧ Faithful (pic.projection.rect, pic.size) ∧ pic.projection.rect.left = -pic.projection.rect.right ∧
    pic.projection.rect.bottom = -pic.projection.rect.top

/-- The projection that the settings of the camera ask for in a window of this size -/
def Wanted (v : View) (s : Size) : Projection → Prop
  | .ortho r n f =>
    v.perspective = false ∧ r.bottom = -v.ortho.scale ∧ r.top = v.ortho.scale ∧ r.left = -r.right ∧ (r.right - r.left) / s.w = (r.top - r.bottom) / s.h ∧
      n = -100 ∧ f = 100
  | .frustum r n f =>
    v.perspective = true ∧ r.bottom = -r.top ∧ r.top = n * Real.tan (5443 / 100 / 2 * (Real.pi / 180)) ∧ r.left = -r.right ∧
      (r.right - r.left) / s.w = (r.top - r.bottom) / s.h ∧ n = 1 / 10 ∧ f = 1000

/-- The picture that would be painted now is the one the settings ask for, and the perspective camera, if selected, knows its angle and its window. -/
def Current3 (v : View) : Prop :=
  ∃ s pr, v.viewport = some s ∧ v.projection = some pr ∧ Wanted v s pr ∧
    (v.perspective = true → v.persp.fovy = 5443 / 100 ∧ v.persp.aspect = (s.w : ℝ) / s.h)

/-- The window shows what would be painted now. -/
def Painted3 (v : View) : Prop := v.shown = (paint v).shown

/-- Events that keep the projection as the settings ask for: centring an empty scene does not. -/
def Keeps3 : Event → Prop
  | .center bodies => bodies ≠ []
  | .perspective bodies => bodies ≠ []
  | .orthographic _ bodies => bodies ≠ []
  | _ => True

/-- The events that a lock is there to ignore, and those that do not concern the camera. Missing are the menu items that select a camera. -/
def Ignored3 : Event → Prop
  | .press _ _ | .move _ _ | .wheel _ | .center _ | .repaint => True
  | _ => False

/-- The left button is held: the mouse moves, or the window is painted again. -/
def dragEvent3 : Option (ℤ × ℤ) → Event
  | some pos => .move (some .left) pos
  | none => .repaint

/-- The events that move the perspective camera about the point it looks at, and those that only paint -/
def Orbits : Event → Prop
  | .press _ _ | .move (some .left) _ | .move (some .right) _ | .move none _ | .wheel _ | .repaint => True
  | _ => False

/-- Those of them that do not change the distance -/
def Turns : Event → Prop
  | .press _ _ | .move (some .left) _ | .move none _ | .repaint => True
  | _ => False

end Scisim.Camera3
