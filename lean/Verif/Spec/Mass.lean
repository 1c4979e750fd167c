import Mathlib.MeasureTheory.Integral.Bochner.Set
import Mathlib.MeasureTheory.Measure.Lebesgue.Basic
import Mathlib.Analysis.Convex.Hull
import Verif.Spec.Geometry2D
import Verif.Spec.Geometry3D
import Verif.Spec.Rotations
/-!
# Mass, centre of mass and moments of inertia of plane and solid bodies, as Lebesgue integrals
-/

namespace Scisim

open MeasureTheory Matrix

/-- The mass and the moment of inertia about the origin of a plate `S` of uniform density, whose centre of mass is the origin -/
def IsPlateMass (S : Set (V2 ℝ)) (density m inertia : ℝ) : Prop :=
  m = ∫ p in {p : ℝ × ℝ | (⟨p.1, p.2⟩ : V2 ℝ) ∈ S}, density ∧
  inertia = ∫ p in {p : ℝ × ℝ | (⟨p.1, p.2⟩ : V2 ℝ) ∈ S}, density * (p.1 ^ 2 + p.2 ^ 2) ∧
  ∫ p in {p : ℝ × ℝ | (⟨p.1, p.2⟩ : V2 ℝ) ∈ S}, density * p.1 = 0 ∧
  ∫ p in {p : ℝ × ℝ | (⟨p.1, p.2⟩ : V2 ℝ) ∈ S}, density * p.2 = 0

/-- The mass, centre of mass and moments of inertia about the coordinate axes through the centre of mass of a solid `S` of uniform density; the
products of inertia vanish, so these are the principal moments. -/
def IsSolidMass (S : Set Vec3) (density : ℝ) (mp : MassProps) : Prop :=
  mp.M = ∫ _z in S, density ∧
  (∀ i, mp.M * mp.CM i = ∫ z in S, density * z i) ∧
  (∀ i, mp.I i = ∫ z in S, density * (((z 0 - mp.CM 0) ^ 2 + (z 1 - mp.CM 1) ^ 2 + (z 2 - mp.CM 2) ^ 2) - (z i - mp.CM i) ^ 2)) ∧
  (∀ i j, i ≠ j → ∫ z in S, density * ((z i - mp.CM i) * (z j - mp.CM j)) = 0)

/-! ## Triangle meshes -/

/-- 1, x, y, z, x², y², z², xy, yz, zx -/
def monomial10 (k : Fin 10) (v : Vec3) : ℝ :=
  ![1, v 0, v 1, v 2, v 0 ^ 2, v 1 ^ 2, v 2 ^ 2, v 0 * v 1, v 1 * v 2, v 2 * v 0] k

/-- The corners of a face -/
def corner (verts : List Vec3) (a : Nat) : Vec3 := verts.getD a 0

/-- All faces refer to vertices -/
def FacesInRange (verts : List Vec3) (faces : List (Nat × Nat × Nat)) : Prop :=
  ∀ f ∈ faces, f.1 < verts.length ∧ f.2.1 < verts.length ∧ f.2.2 < verts.length

/-- The directed edges of the faces -/
def meshEdges (faces : List (Nat × Nat × Nat)) : List (Nat × Nat) := faces.flatMap fun f => [(f.1, f.2.1), (f.2.1, f.2.2), (f.2.2, f.1)]

/-- A mesh is closed and consistently oriented: every edge is traversed as often in one direction as in the other. -/
def ClosedMesh (faces : List (Nat × Nat × Nat)) : Prop := ∀ a b, (meshEdges faces).count (a, b) = (meshEdges faces).count (b, a)

/-- Six times the signed volume of the tetrahedron with corners `p`, `v0`, `v1`, `v2` -/
def tripleFrom (p v0 v1 v2 : Vec3) : ℝ := (v0 - p) ⬝ᵥ crossProduct (v1 - p) (v2 - p)

open Classical in
/-- How often a face is crossed, and in which direction, by the ray that starts at `x` and goes away from `p`: it is crossed if `x` lies
in the tetrahedron over the face with apex `p`; the sign tells whether the outer side of the face is away from `p`. -/
noncomputable def faceCrossing (p v0 v1 v2 x : Vec3) : ℝ :=
  if x ∈ convexHull ℝ ({p, v0, v1, v2} : Set Vec3) then (if 0 < tripleFrom p v0 v1 v2 then 1 else if tripleFrom p v0 v1 v2 < 0 then -1 else 0) else 0

/-- How often the mesh winds around `x`: the sum of the crossings of the ray that starts at `x` and goes away from `p` -/
noncomputable def meshWinding (verts : List Vec3) (faces : List (Nat × Nat × Nat)) (p x : Vec3) : ℝ :=
  (faces.map fun f => faceCrossing p (corner verts f.1) (corner verts f.2.1) (corner verts f.2.2) x).sum

open Classical in
/-- The mesh is the surface of the solid `S`, with its faces turned outwards: seen from some point it winds once around the points of `S` and not
at all around other points, up to a set of volume zero. -/
def MeshBounds (verts : List Vec3) (faces : List (Nat × Nat × Nat)) (S : Set Vec3) : Prop :=
  ∃ p, ∀ᵐ x : Vec3, meshWinding verts faces p x = if x ∈ S then 1 else 0

/-- `eig` returns orthonormal eigenvectors and eigenvalues of symmetric matrices. -/
def EigenCorrect (eig : Mat3 → Mat3 × Vec3) : Prop :=
  ∀ A : Mat3, A.transpose = A → (eig A).1 * (eig A).1.transpose = 1 ∧ (eig A).1 * diagonal (eig A).2 * (eig A).1.transpose = A

/-- The inertia tensor of a solid of density one about the point `c` -/
noncomputable def inertiaTensor (S : Set Vec3) (c : Vec3) : Mat3 :=
  Matrix.of fun i j => ∫ z in S, (if i = j then (z 0 - c 0) ^ 2 + (z 1 - c 1) ^ 2 + (z 2 - c 2) ^ 2 else 0) - (z i - c i) * (z j - c j)

/-- The vertices of a mesh after a motion -/
def moveMesh (Q : Mat3) (t : Vec3) (verts : List Vec3) : List Vec3 := verts.map fun v => Q *ᵥ v + t

end Scisim
