import Mathlib.Order.Bounds.Basic
import Verif.Model.Statistics
import Verif.Spec.BallContacts
import Verif.Spec.RigidContacts3D
/-!
# How far things have to be moved to come apart, and totals
-/

namespace Scisim

/-- The ball without its surface -/
def openBall3 (x : Vec3) (r : ℝ) : Set Vec3 := {z | distSq3 z x < r ^ 2}

/-- The disc without its border -/
def openDisc (x : V2 ℝ) (r : ℝ) : Set (V2 ℝ) := {z | distSq z x < r ^ 2}

/-- `e` is the least distance by which a ball at `x` has to be moved so that it shares no point with the set `S` any more. -/
def LeastSeparation3 (x : Vec3) (r : ℝ) (S : Set Vec3) (e : ℝ) : Prop :=
  IsLeast {e | 0 ≤ e ∧ ∃ t : Vec3, inner3 t t = e ^ 2 ∧ Disjoint (openBall3 (x + t) r) S} e

/-- `e` is the least distance by which a disc at `x` has to be moved so that it shares no point with the set `S` any more. -/
def LeastSeparation2 (x : V2 ℝ) (r : ℝ) (S : Set (V2 ℝ)) (e : ℝ) : Prop :=
  IsLeast {e | 0 ≤ e ∧ ∃ t : V2 ℝ, t.x ^ 2 + t.y ^ 2 = e ^ 2 ∧ Disjoint (openDisc (x + t) r) S} e

/-- The points below a plane -/
def Plane3.below (p : Plane3) : Set Vec3 := {z | p.height z < 0}

/-- The points outside of a cylinder with a unit axis -/
def Cylinder3.outside (c : Cylinder3) : Set Vec3 := {z | c.r ^ 2 < c.distSqAxis z}

/-- The points below the line through `x` with the normal `n` -/
def belowLine (x n : V2 ℝ) : Set (V2 ℝ) := {z | n.x * (z.x - x.x) + n.y * (z.y - x.y) < 0}

open Classical in
/-- The sum of values of which some may be NaN (`none`) -/
noncomputable def totalNaN (l : List (Option ℝ)) : Option ℝ := if none ∈ l then none else some (l.filterMap id).sum

/-- The statistics of a list of contacts with names, depths and volumes: a name has an entry exactly if a contact has that name, and then the entries are the
number of these contacts and the sums of their depths and volumes. -/
def CollisionStats.Of {α : Type} (st : CollisionStats) (name : α → String) (depth volume : α → Option ℝ) (cs : List α) : Prop :=
  ∀ k, ((∀ c ∈ cs, name c ≠ k) → st.counts k = none ∧ st.depths k = none ∧ st.volumes k = none) ∧
    ((∃ c ∈ cs, name c = k) → st.counts k = some (cs.countP fun c => name c = k) ∧
      st.depths k = some (totalNaN ((cs.filter fun c => name c = k).map depth)) ∧
      st.volumes k = some (totalNaN ((cs.filter fun c => name c = k).map volume)))

/-- The pairs of free spheres that have a point in common, the smaller index first -/
def SpheresMeet (bodies : List SceneBody3) (q : Pose3) (i j : Nat) : Prop :=
  i < j ∧ ∃ a b ra rb, bodies[i]? = some a ∧ bodies[j]? = some b ∧ a.fixed = false ∧ b.fixed = false ∧ a.geometry = .sphere ra ∧ b.geometry = .sphere rb ∧
    (ballSet3 (q.x i) ra ∩ ballSet3 (q.x j) rb).Nonempty

/-- The pairs of balls, free or not, that have a point in common, the smaller index first -/
def BallsMeet (bs : List BallAt) (i j : Nat) : Prop :=
  i < j ∧ ∃ a b, bs[i]? = some a ∧ bs[j]? = some b ∧ DiscsMeet a.x a.r b.x b.r

/-- The points of body `i` of a scene -/
def scenePoints (bodies : List SceneBody3) (q : Pose3) (i : Nat) : Set Vec3 := {z | ∃ b, bodies[i]? = some b ∧ z ∈ b.pointsAt q i}

/-- The pairs of a ball and a plane such that the ball has a point that is not above the plane -/
def BallOnPlane (bs : List BallAt) (planes : List (HalfPlane ℝ)) (i k : Nat) : Prop :=
  ∃ b p, bs[i]? = some b ∧ planes[k]? = some p ∧ ∃ z, InDisc z b.x b.r ∧ p.height z ≤ 0

end Scisim
