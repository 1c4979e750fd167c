import Verif.Model.PlaneFrames
/-! # What a plane and an axis should be -/

namespace Scisim.PlaneFrames
open Scisim.Scripting

/-- The normal has length one, and the tangent is the normal turned by a right angle to the left. -/
def Framed (p : BodyPlane ℝ) : Prop := p.n.x ^ 2 + p.n.y ^ 2 = 1 ∧ p.t = ⟨-p.n.y, p.n.x⟩

/-- `n` has the direction of `d`. -/
def Along (d n : V2 ℝ) : Prop := ∃ c > 0, d.x = c * n.x ∧ d.y = c * n.y

/-- A point is on the plane. -/
def On (p : BodyPlane ℝ) (w : V2 ℝ) : Prop := p.n.x * (w.x - p.x.x) + p.n.y * (w.y - p.x.y) = 0

/-- The squared distance of two points -/
def distSq (a b : V2 ℝ) : ℝ := (a.x - b.x) ^ 2 + (a.y - b.y) ^ 2

/-- The call does not give a plane the normal zero. -/
def Proper : BodyCall ℝ → Prop
  | .setStaticPlaneNormal _ x y => x ≠ 0 ∨ y ≠ 0
  | _ => True

/-- The axis has length one. -/
def UnitAxis (c : SpaceCylinder ℝ) : Prop := c.n.x ^ 2 + c.n.y ^ 2 + c.n.z ^ 2 = 1

/-- `n` has the direction of `d`. -/
def Along3 (d n : Triple ℝ) : Prop := ∃ c > 0, d.x = c * n.x ∧ d.y = c * n.y ∧ d.z = c * n.z

end Scisim.PlaneFrames
