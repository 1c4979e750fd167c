import Verif.Model.Vec2
import Mathlib.Data.Real.Basic
/-!
# What it means for impulses to solve a contact problem
-/

namespace Scisim

/-- The complementarity conditions between impulses `x` and normal velocities `y`: no pulling, no approach, no impulse on a separating contact -/
def Complementary {n : Nat} (x y : Fin n → ℝ) : Prop := ∀ i, 0 ≤ x i ∧ 0 ≤ y i ∧ x i * y i = 0

/-- The principle of maximal dissipation for one contact in three dimensions: among the impulses of size at most `c`, `beta` opposes the sliding
velocity `v` most -/
def MostDissipative (c : ℝ) (beta v : V2 ℝ) : Prop :=
  beta.normSq ≤ c ^ 2 ∧ ∀ w : V2 ℝ, w.normSq ≤ c ^ 2 → v.dot beta ≤ v.dot w

/-- The same for one tangent direction -/
def MostDissipative1 (c beta v : ℝ) : Prop := |beta| ≤ c ∧ ∀ w, |w| ≤ c → v * beta ≤ v * w

/-- `r` is the largest of the values `f i`, or zero if there is none -/
def IsLargest {n : Nat} (f : Fin n → ℝ) (r : ℝ) : Prop := (∀ i, f i ≤ r) ∧ ((n = 0 ∧ r = 0) ∨ ∃ i, r = f i)

end Scisim
