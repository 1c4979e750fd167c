import Mathlib.Analysis.Convex.Hull
import Mathlib.MeasureTheory.Integral.Bochner.Set
import Mathlib.MeasureTheory.Measure.Lebesgue.Basic
import Verif.Model.Geometry3D
/-!
# Solids in space, boxes around them, and their mass properties
-/

namespace Scisim

open Matrix MeasureTheory

/-- The solid ball -/
def ballSet3 (x : Vec3) (r : ℝ) : Set Vec3 := {z | (z 0 - x 0) ^ 2 + (z 1 - x 1) ^ 2 + (z 2 - x 2) ^ 2 ≤ r ^ 2}

/-- The solid box with centre `cm` and half widths `w`, turned by `R` -/
def boxSet3 (cm : Vec3) (R : Mat3) (w : Vec3) : Set Vec3 := {z | ∃ a : Vec3, (∀ i, |a i| ≤ w i) ∧ z = cm + R *ᵥ a}

/-- The convex hull of the vertices of a mesh, which contains the mesh and what it encloses -/
def meshSet3 (cm : Vec3) (R : Mat3) (verts : List Vec3) : Set Vec3 := convexHull ℝ {z | ∃ v ∈ verts, z = cm + R *ᵥ v}

/-- The staple: all points within its radius of one of the three segments of its centreline -/
noncomputable def stapleSet3 (cm : Vec3) (R : Mat3) (s : Staple) : Set Vec3 :=
  {z | ∃ p q : Vec3, [p, q] <:+: s.corners ∧ ∃ t : ℝ, 0 ≤ t ∧ t ≤ 1 ∧ z ∈ ballSet3 (cm + R *ᵥ (p + t • (q - p))) s.r}

/-- The points of a body -/
noncomputable def PosedBody3D.points (b : PosedBody3D) : Set Vec3 :=
  match b.geometry with
  | .sphere r => ballSet3 b.cm r
  | .box w => boxSet3 b.cm b.R w
  | .mesh verts => meshSet3 b.cm b.R verts
  | .staple s => stapleSet3 b.cm b.R s

/-- The sizes of a body are not negative; a mesh has a vertex. Staples are excluded. -/
def PosedBody3D.Solid (b : PosedBody3D) : Prop :=
  match b.geometry with
  | .sphere r => 0 ≤ r
  | .box w => ∀ i, 0 ≤ w i
  | .mesh verts => verts ≠ []
  | .staple _ => False

/-- An axis aligned box, given by its lower and upper corner, contains every point of `S` -/
def Contains3 (box : Vec3 × Vec3) (S : Set Vec3) : Prop := ∀ z ∈ S, ∀ i, box.1 i ≤ z i ∧ z i ≤ box.2 i

/-- On each of its six sides there is a point of `S` -/
def Touches3 (box : Vec3 × Vec3) (S : Set Vec3) : Prop := ∀ i, (∃ z ∈ S, z i = box.1 i) ∧ (∃ z ∈ S, z i = box.2 i)

end Scisim
