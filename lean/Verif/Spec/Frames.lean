import Verif.Model.Frames
/-!
# Frames and friction disks
-/

namespace Scisim

open Matrix

/-- Three vectors that form a right handed orthonormal frame -/
def RightHandedFrame (n s t : Vec3) : Prop :=
  n ⬝ᵥ n = 1 ∧ s ⬝ᵥ s = 1 ∧ t ⬝ᵥ t = 1 ∧ n ⬝ᵥ s = 0 ∧ n ⬝ᵥ t = 0 ∧ s ⬝ᵥ t = 0 ∧ crossProduct n s = t

/-- Two vectors that form a right handed orthonormal frame of the plane -/
def RightHandedFrame2 {K : Type} [Field K] (n t : V2 K) : Prop := n.dot n = 1 ∧ t.dot t = 1 ∧ n.dot t = 0 ∧ n.cross t = 1

/-- The friction impulse at contact `i` when friction is sampled in `k` directions: `beta` lists the sizes along the directions, contact by contact. -/
def sampledFriction (k : Nat) (direction : Nat → Vec3) (beta : Nat → ℝ) (i : Nat) : Vec3 :=
  ∑ s ∈ Finset.range k, beta (k * i + s) • direction s

end Scisim
