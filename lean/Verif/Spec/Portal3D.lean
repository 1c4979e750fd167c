import Verif.Model.Portal3D
/-!
# Frames, rigid maps and periodic boxes in space
-/

namespace Scisim

/-- The squared distance of two points -/
def distSq3 (a b : Vec3) : ℝ := (a 0 - b 0) ^ 2 + (a 1 - b 1) ^ 2 + (a 2 - b 2) ^ 2

/-- The map preserves all distances. -/
def Isometric3 (f : Vec3 → Vec3) : Prop := ∀ a b, distSq3 (f a) (f b) = distSq3 a b

/-- The scalar product -/
def inner3 (a b : Vec3) : ℝ := a 0 * b 0 + a 1 * b 1 + a 2 * b 2

/-- Three unit vectors, each at a right angle to the others -/
def Orthonormal3 (a b c : Vec3) : Prop :=
  inner3 a a = 1 ∧ inner3 b b = 1 ∧ inner3 c c = 1 ∧ inner3 a b = 0 ∧ inner3 b c = 0 ∧ inner3 c a = 0

/-- The signed height of a point above a plane -/
def Plane3.height (p : Plane3) (x : Vec3) : ℝ := inner3 p.n x - inner3 p.n p.x

/-- Each plane of the portal carries a frame of a normal and two tangents, and the multiplier consists of signs. -/
def Portal3.WellFormed (axis : Vec3 → Vec3 → Vec3) (p : Portal3) : Prop :=
  Orthonormal3 p.planeA.n (p.planeA.t0 axis) (p.planeA.t1 axis) ∧ Orthonormal3 p.planeB.n (p.planeB.t0 axis) (p.planeB.t1 axis) ∧ ∀ i, p.m i = 1 ∨ p.m i = -1

/-- The planes face each other at distance `L`, and the portal does not mirror the direction across them. -/
def Portal3.Facing (axis : Vec3 → Vec3 → Vec3) (p : Portal3) (L : ℝ) : Prop :=
  p.WellFormed axis ∧ p.m 0 = 1 ∧ 0 < L ∧ (∀ i, p.planeB.n i = -p.planeA.n i) ∧ p.planeA.height p.planeB.x = L

/-- The point lies between the planes. -/
def Portal3.Between (p : Portal3) (x : Vec3) : Prop := 0 ≤ p.planeA.height x ∧ 0 ≤ p.planeB.height x

/-- The portal moves points by `d` when they pass through plane A, and back when they pass through plane B. -/
def Portal3.Translates (axis : Vec3 → Vec3 → Vec3) (p : Portal3) (d : Vec3) : Prop :=
  ∀ x, (∀ i, p.teleportPointThroughPlaneA axis x i = x i + d i) ∧ ∀ i, p.teleportPointThroughPlaneB axis x i = x i - d i

/-- A periodic box: portals with facing planes at right angles, each of which moves points straight across. `Ls` are their distances. -/
def PeriodicBox (axis : Vec3 → Vec3 → Vec3) (ps : List (Portal3 × ℝ)) : Prop :=
  (∀ p ∈ ps, p.1.Facing axis p.2 ∧ p.1.Translates axis fun i => p.2 * p.1.planeA.n i) ∧
  ps.Pairwise fun p q => inner3 p.1.planeA.n q.1.planeA.n = 0

/-- The axis chosen to turn `(0, 1, 0)` into the opposite direction is a unit vector at a right angle to it. -/
def GoodAxis (axis : Vec3 → Vec3 → Vec3) : Prop :=
  inner3 (axis ![0, 1, 0] (-![0, 1, 0])) (axis ![0, 1, 0] (-![0, 1, 0])) = 1 ∧ inner3 (axis ![0, 1, 0] (-![0, 1, 0])) ![0, 1, 0] = 0

end Scisim
