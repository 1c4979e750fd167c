import Mathlib.MeasureTheory.Integral.Bochner.Basic
import Mathlib.LinearAlgebra.Matrix.Notation
import Mathlib.LinearAlgebra.CrossProduct
import Verif.Model.Rotations
import Verif.Spec.SparseMatrix
/-!
# Energy and momentum of moving bodies

A body is a distribution of mass, a measure. The energy and momenta are integrals over its points.
-/

namespace Scisim

open MeasureTheory Matrix

/-- The square matrix that a sparse matrix stands for -/
def Csc.toMatrix {K : Type} [Zero K] (A : Csc K) (n : Nat) : Matrix (Fin n) (Fin n) K := Matrix.of fun i j => A.entry i j

/-- The mass distribution of a body in its own frame: the centre of mass is the origin and the axes are the principal axes. -/
structure BodyMass (ν : Measure Vec3) (m : ℝ) (I0 : Vec3) : Prop where
  finite : IsFiniteMeasure ν
  linear : ∀ i, Integrable (fun y => y i) ν
  quadratic : ∀ i j, Integrable (fun y => y i * y j) ν
  mass : ν.real Set.univ = m
  centre : ∀ i, ∫ y, y i ∂ν = 0
  inertia : ∀ i, I0 i = ∫ y, y 0 ^ 2 + y 1 ^ 2 + y 2 ^ 2 - y i ^ 2 ∂ν
  products : ∀ i j, i ≠ j → ∫ y, y i * y j ∂ν = 0

/-- The velocity of the point `y` of a body with orientation `R`, velocity `v` and angular velocity `w` -/
def pointVelocity (R : Mat3) (v w y : Vec3) : Vec3 := v + crossProduct w (R *ᵥ y)

/-- Half the integral of the squared velocity -/
noncomputable def bodyKineticEnergy (ν : Measure Vec3) (R : Mat3) (v w : Vec3) : ℝ := ∫ y, 1 / 2 * (pointVelocity R v w y ⬝ᵥ pointVelocity R v w y) ∂ν

/-- The integral of the velocity -/
noncomputable def bodyMomentum (ν : Measure Vec3) (R : Mat3) (v w : Vec3) : Vec3 := fun i => ∫ y, pointVelocity R v w y i ∂ν

/-- The integral of the moment of the velocity about the origin; `x` is the position of the centre of mass. -/
noncomputable def bodyAngularMomentum (ν : Measure Vec3) (R : Mat3) (x v w : Vec3) : Vec3 :=
  fun i => ∫ y, crossProduct (x + R *ᵥ y) (pointVelocity R v w y) i ∂ν

/-- The mass distribution of a plane body in its own frame -/
structure PlateMass (ν : Measure (ℝ × ℝ)) (m I : ℝ) : Prop where
  finite : IsFiniteMeasure ν
  linear1 : Integrable (fun y => y.1) ν
  linear2 : Integrable (fun y => y.2) ν
  quadratic : Integrable (fun y => y.1 ^ 2 + y.2 ^ 2) ν
  mass : ν.real Set.univ = m
  centre1 : ∫ y, y.1 ∂ν = 0
  centre2 : ∫ y, y.2 ∂ν = 0
  inertia : I = ∫ y, y.1 ^ 2 + y.2 ^ 2 ∂ν

/-- Where the point `y` of a plane body is relative to the centre of mass, when the body is turned by `θ` -/
noncomputable def turned (θ : ℝ) (y : ℝ × ℝ) : ℝ × ℝ := (Real.cos θ * y.1 - Real.sin θ * y.2, Real.sin θ * y.1 + Real.cos θ * y.2)

/-- The velocity of that point when the body moves with velocity `v` and turns at the rate `w` -/
noncomputable def plateVelocity (θ : ℝ) (v : ℝ × ℝ) (w : ℝ) (y : ℝ × ℝ) : ℝ × ℝ := (v.1 - w * (turned θ y).2, v.2 + w * (turned θ y).1)

/-- Half the integral of the squared velocity -/
noncomputable def plateKineticEnergy (ν : Measure (ℝ × ℝ)) (θ : ℝ) (v : ℝ × ℝ) (w : ℝ) : ℝ :=
  ∫ y, 1 / 2 * ((plateVelocity θ v w y).1 ^ 2 + (plateVelocity θ v w y).2 ^ 2) ∂ν

/-- The integral of the velocity -/
noncomputable def plateMomentum (ν : Measure (ℝ × ℝ)) (θ : ℝ) (v : ℝ × ℝ) (w : ℝ) : ℝ × ℝ :=
  (∫ y, (plateVelocity θ v w y).1 ∂ν, ∫ y, (plateVelocity θ v w y).2 ∂ν)

/-- The integral of the moment of the velocity about the origin -/
noncomputable def plateAngularMomentum (ν : Measure (ℝ × ℝ)) (θ : ℝ) (x v : ℝ × ℝ) (w : ℝ) : ℝ :=
  ∫ y, (x.1 + (turned θ y).1) * (plateVelocity θ v w y).2 - (x.2 + (turned θ y).2) * (plateVelocity θ v w y).1 ∂ν

end Scisim
