import Verif.Model.Dynamics
/-!
# Notions for the properties of unconstrained motion
-/

namespace Scisim

variable {n d : Nat}

/-- The forces depend on positions only. -/
def FSys.PositionDependent (s : FSys n d) : Prop := ∃ f : VecX n d → VecX n d, ∀ q v t, s.computeForce q v t = f q

/-- No two centres coincide. -/
def Distinct (q : VecX n 2) : Prop := ∀ i j, i ≠ j → q i ≠ q j

/-- Distance of two points of the plane. -/
noncomputable def dist2 (a b : Fin 2 → ℝ) : ℝ := Real.sqrt ((a 0 - b 0) ^ 2 + (a 1 - b 1) ^ 2)

/-- The force a ball at `b` exerts on a ball at `a`: directed from `b` to `a`, of magnitude `½ k p δ^(p-1)` where `δ` is the overlap; zero if
the balls do not overlap. -/
noncomputable def repulsion (k p : ℝ) (a b : Fin 2 → ℝ) (ra rb : ℝ) : Fin 2 → ℝ :=
  if dist2 a b ≤ ra + rb then (1 / 2 * k * p * (ra + rb - dist2 a b) ^ (p - 1) / dist2 a b) • (a - b) else 0

/-- Mass matrix with the same mass in both directions, and its inverse: what scenes produce. -/
def BallSim.Masses (s : BallSim n) (m : Fin n → ℝ) : Prop := (∀ i, 0 < m i) ∧ (∀ i k, s.M i k = m i) ∧ ∀ i k, s.Minv i k = 1 / m i

/-- Masses `m` and moments of inertia `I`. -/
def RbSim.Masses (s : RbSim n) (m I : Fin n → ℝ) : Prop :=
  (∀ i, 0 < m i ∧ 0 < I i) ∧ (∀ i, s.M i = ![m i, m i, I i]) ∧ ∀ i, s.Minv i = ![1 / m i, 1 / m i, 1 / I i]

end Scisim
