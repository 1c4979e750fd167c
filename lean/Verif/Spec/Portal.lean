import Verif.Model.Portal
import Verif.Spec.CCD
/-!
# Planes, heights, rigid maps and periodic domains
-/

namespace Scisim

variable {K : Type} [Field K] [LinearOrder K]

/-- The plane's normal is a unit vector and its tangent is the normal turned by a quarter. -/
def HalfPlane.IsFrame (p : HalfPlane K) : Prop :=
  p.n.x ^ 2 + p.n.y ^ 2 = 1 ∧ p.t.x = -p.n.y ∧ p.t.y = p.n.x

/-- Signed height of a point above the plane. -/
def HalfPlane.height (p : HalfPlane K) (x : V2 K) : K := p.n.x * (x.x - p.x.x) + p.n.y * (x.y - p.x.y)

/-- Coordinate of a point along the plane. -/
def HalfPlane.along (p : HalfPlane K) (x : V2 K) : K := p.t.x * (x.x - p.x.x) + p.t.y * (x.y - p.x.y)

/-- Both planes carry frames. -/
def PlanarPortal.WellFormed (p : PlanarPortal K) : Prop := p.planeA.IsFrame ∧ p.planeB.IsFrame

/-- A static portal: no velocity, no period, no offset (what the `planar_portal` scene element creates). -/
def PlanarPortal.Static (p : PlanarPortal K) : Prop := p.v = 0 ∧ p.bounds = 0 ∧ p.dx = 0

/-- The map preserves all distances. -/
def Isometric (f : V2 K → V2 K) : Prop := ∀ a b, distSq (f a) (f b) = distSq a b

/-- The planes face each other at distance `L`. -/
def PlanarPortal.Facing (p : PlanarPortal K) (L : K) : Prop :=
  p.WellFormed ∧ 0 < L ∧ p.planeB.n.x = -p.planeA.n.x ∧ p.planeB.n.y = -p.planeA.n.y ∧ p.planeA.height p.planeB.x = L

/-- The point lies between the planes. -/
def PlanarPortal.Between (p : PlanarPortal K) (x : V2 K) : Prop := 0 ≤ p.planeA.height x ∧ 0 ≤ p.planeB.height x

end Scisim
