import Verif.Model.Solvers
/-!
# What the solver is supposed to do
-/

namespace Scisim

/-- The iterates of the projected gradient method: the starting point, then one step after another. `none` once a step size search has not
ended within `fuel` rounds. -/
noncomputable def apgdIterate {n : Nat} (A : Fin n → Fin n → XR) (b x : Fin n → XR) (fuel : Nat) : Nat → Option (ApgdState XR n)
  | 0 => some (apgdInit A x)
  | k + 1 => (apgdIterate A b x fuel k).bind (apgdStep A b fuel)

/-- A vector of finite doubles -/
def finVec {n : Nat} (x : Fin n → ℝ) : Fin n → XR := fun i => .fin (x i)

/-- A matrix of finite doubles -/
def finMat {n : Nat} (A : Fin n → Fin n → ℝ) : Fin n → Fin n → XR := fun i j => .fin (A i j)

end Scisim
