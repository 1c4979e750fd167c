import Verif.Model.Rotations
/-!
# Notions for the properties of three-dimensional motion
-/

namespace Scisim

variable {n : Nat}

/-- A rotation matrix: orthonormal with determinant one. -/
def IsRotation (R : Mat3) : Prop := R * R.transpose = 1 ∧ R.transpose * R = 1 ∧ R.det = 1

/-- `( U, σ, V )` is a singular value decomposition of `R`. -/
def IsSVD (R : Mat3) (d : Mat3 × Vec3 × Mat3) : Prop :=
  d.1 * d.1.transpose = 1 ∧ d.2.2 * d.2.2.transpose = 1 ∧ (∀ k, 0 ≤ d.2.1 k) ∧ R = d.1 * Matrix.diagonal d.2.1 * d.2.2.transpose

/-- All bodies have rotations for orientations. -/
def Conf3.Rotations (q : Conf3 n) : Prop := ∀ i, IsRotation (q i).2

/-- Masses and moments are positive. -/
def Rb3Params.Positive (p : Rb3Params n) : Prop := ∀ i, 0 < p.m i ∧ ∀ k, 0 < p.I0 i k

/-- The stored world inertia tensors are those of the current orientations. -/
def Rb3State.Consistent (p : Rb3Params n) (s : Rb3State n) : Prop :=
  (∀ i, s.I i = (s.q i).2 * Matrix.diagonal (p.I0 i) * (s.q i).2.transpose) ∧
  ∀ i, s.Iinv i = (s.q i).2 * Matrix.diagonal (fun k => 1 / p.I0 i k) * (s.q i).2.transpose

/-- The decomposition the map uses is correct for matrices with positive determinant. -/
def Map3.SvdCorrect : Map3 → Prop
  | .exponentialEuler svd => ∀ R : Mat3, 0 < R.det → IsSVD R (svd R)
  | _ => True

/-- The same state moving backwards. -/
def Rb3State.reversed (s : Rb3State n) : Rb3State n := { s with v := -s.v }

end Scisim
