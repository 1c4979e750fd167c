import Verif.Model.Vec2
import Mathlib.Algebra.Order.Ring.Defs
/-!
# Discs moving in the plane
-/

namespace Scisim

variable {K : Type} [Field K] [LinearOrder K]

/-- Squared distance. -/
def distSq (a b : V2 K) : K := (a.x - b.x) ^ 2 + (a.y - b.y) ^ 2

/-- The point `p` lies in the closed disc. -/
def InDisc (p c : V2 K) (r : K) : Prop := distSq p c ≤ r ^ 2

/-- Two closed discs have a point in common (they touch or overlap). -/
def DiscsMeet (a : V2 K) (ra : K) (b : V2 K) (rb : K) : Prop := ∃ p, InDisc p a ra ∧ InDisc p b rb

/-- The position at time `t ∈ [0, 1]` of a point moving from `p` to `q` along a straight line. -/
def moveTo (p q : V2 K) (t : K) : V2 K := ⟨(1 - t) * p.x + t * q.x, (1 - t) * p.y + t * q.y⟩

/-- At time `t` of the step the two moving discs touch or overlap. -/
def CollideAt (q0a q1a : V2 K) (ra : K) (q0b q1b : V2 K) (rb : K) (t : K) : Prop :=
  0 ≤ t ∧ t ≤ 1 ∧ DiscsMeet (moveTo q0a q1a t) ra (moveTo q0b q1b t) rb

end Scisim
