import Verif.Spec.Geometry3D

/-!
# What is said about two boxes in space

`boxSet3` is the solid box of Spec/Geometry3D.lean.
-/

namespace Scisim

open Matrix

/-- The box without its surface -/
def boxInterior3 (cm : Vec3) (R : Mat3) (w : Vec3) : Set Vec3 := {z | ∃ a : Vec3, (∀ i, |a i| < w i) ∧ z = cm + R *ᵥ a}

/-- A set of points, moved by `t` -/
def moved3 (t : Vec3) (S : Set Vec3) : Set Vec3 := {z | z - t ∈ S}

/-- The shadows of the two sets on the line along `n` overlap by `D` when the first set lies ahead of the second -/
def IsOverlap3 (n : Vec3) (A B : Set Vec3) (D : ℝ) : Prop := (∀ a ∈ A, ∀ b ∈ B, n ⬝ᵥ (b - a) ≤ D) ∧ ∃ a ∈ A, ∃ b ∈ B, n ⬝ᵥ (b - a) = D

/-- `n` is the outward normal of a face of the box turned by `R` -/
def IsFaceNormal (R : Mat3) (n : Vec3) : Prop := ∃ i : Fin 3, n = (fun k => R k i) ∨ n = fun k => -R k i

end Scisim
