import Mathlib.Data.Set.Basic
import Verif.Model.Geometry2D
/-!
# Discs, boxes and boxes around them
-/

namespace Scisim

/-- The disc with centre `x` and radius `r` -/
def discSet (x : V2 ℝ) (r : ℝ) : Set (V2 ℝ) := {z | (z.x - x.x) ^ 2 + (z.y - x.y) ^ 2 ≤ r ^ 2}

/-- The box with centre `x` and half widths `r`, turned by the angle `theta` -/
def boxSet (x : V2 ℝ) (theta : ℝ) (r : V2 ℝ) : Set (V2 ℝ) :=
  {z | ∃ a b : ℝ, |a| ≤ r.x ∧ |b| ≤ r.y ∧
    z = ⟨x.x + a * Real.cos theta - b * Real.sin theta, x.y + a * Real.sin theta + b * Real.cos theta⟩}

/-- The points of a body -/
def PosedBody2D.points (b : PosedBody2D) : Set (V2 ℝ) :=
  match b.geometry with
  | .circle r => discSet b.x r
  | .box r => boxSet b.x b.theta r

/-- A body has a positive size -/
def PosedBody2D.Solid (b : PosedBody2D) : Prop :=
  match b.geometry with
  | .circle r => 0 < r
  | .box r => 0 < r.x ∧ 0 < r.y

/-- An axis aligned box, given by its lower and upper corner, contains every point of `S` -/
def Contains2 (box : V2 ℝ × V2 ℝ) (S : Set (V2 ℝ)) : Prop :=
  ∀ z ∈ S, box.1.x ≤ z.x ∧ z.x ≤ box.2.x ∧ box.1.y ≤ z.y ∧ z.y ≤ box.2.y

/-- On each of its four sides there is a point of `S` -/
def Touches2 (box : V2 ℝ × V2 ℝ) (S : Set (V2 ℝ)) : Prop :=
  (∃ z ∈ S, z.x = box.1.x) ∧ (∃ z ∈ S, z.x = box.2.x) ∧ (∃ z ∈ S, z.y = box.1.y) ∧ (∃ z ∈ S, z.y = box.2.y)

/-- The position after a fraction `t` of a step in a straight line from `x0` to `x1` -/
def lerp2 (x0 x1 : V2 ℝ) (t : ℝ) : V2 ℝ := ⟨x0.x + t * (x1.x - x0.x), x0.y + t * (x1.y - x0.y)⟩

/-- The line `u · z = c` strictly separates the two sets -/
def SeparatedBy (u : V2 ℝ) (c : ℝ) (S T : Set (V2 ℝ)) : Prop :=
  (∀ z ∈ S, u.x * z.x + u.y * z.y < c) ∧ (∀ z ∈ T, c < u.x * z.x + u.y * z.y)

end Scisim
