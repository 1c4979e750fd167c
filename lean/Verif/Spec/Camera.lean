import Verif.Model.Camera
/-!
# What a picture shows (C79)
-/

namespace Scisim.Camera

variable {S : Type} [Field S] [LinearOrder S]

/-- The point of the plane that is drawn at a position in the window, in pixels from its upper left corner: the window shows the rectangle, its top edge at the top. -/
def pointAt (pic : Rect S × Size) (px py : S) : V2 S :=
  ⟨pic.1.left + px / pic.2.w * (pic.1.right - pic.1.left), pic.1.top - py / pic.2.h * (pic.1.top - pic.1.bottom)⟩

/-- The picture on the screen has this point of the plane at this position. -/
def ShowsAt (v : View S) (px py : S) (z : V2 S) : Prop := ∃ pic, v.shown = some pic ∧ pointAt pic px py = z

/-- The point is somewhere in the window. -/
def Visible (v : View S) (z : V2 S) : Prop :=
  ∃ pic, v.shown = some pic ∧ ∃ px py : S, 0 ≤ px ∧ px ≤ pic.2.w ∧ 0 ≤ py ∧ py ≤ pic.2.h ∧ pointAt pic px py = z

/-- Circles look like circles: a pixel is as wide as it is high, right is right and up is up. -/
def Faithful (pic : Rect S × Size) : Prop :=
  pic.1.left < pic.1.right ∧ pic.1.bottom < pic.1.top ∧ (pic.1.right - pic.1.left) / pic.2.w = (pic.1.top - pic.1.bottom) / pic.2.h

/-- The picture that would be painted now is the one the settings of the camera ask for: `scale` above and below the centre, and the window filled. -/
def Current (v : View S) : Prop :=
  v.viewport = some v.ctl.size ∧ v.projection.bottom = v.ctl.center.y - v.ctl.scale ∧ v.projection.top = v.ctl.center.y + v.ctl.scale ∧
    v.projection.left + v.projection.right = 2 * v.ctl.center.x ∧
    (v.projection.right - v.projection.left) / v.ctl.size.w = (v.projection.top - v.projection.bottom) / v.ctl.size.h

/-- The window shows what would be painted now. -/
def Painted (v : View S) : Prop := v.shown = v.viewport.map fun s => (v.projection, s)

/-- Events that leave the projection as the camera asks for. In the balls' program opening a scene and centring an empty scene do not. -/
def Keeps : Which → Event S → Prop
  | .balls, .openScene _ _ _ _ => False
  | .balls, .center c => c.empty = false
  | .bodies, .openScene _ _ _ render => render = true
  | _, _ => True

/-- Events that cannot change where the camera looks when it is locked -/
def Harmless : Event S → Prop
  | .openScene _ _ _ _ => False
  | .setLock _ => False
  | _ => True

/-- The mouse is moved with the left button down, or something else repaints the window. -/
def dragEvent : Option (ℤ × ℤ) → Event S
  | some pos => .move ⟨true, false⟩ pos
  | none => .repaint

/-- Where the mouse is at the end -/
def mouseAfter (start : ℤ × ℤ) : List (Option (ℤ × ℤ)) → ℤ × ℤ
  | [] => start
  | some pos :: es => mouseAfter pos es
  | none :: es => mouseAfter start es

end Scisim.Camera
