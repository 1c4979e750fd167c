import Verif.Model.PostProcessing
import Verif.Spec.HDF5
/-!
# What the post-processing tools are to print

In terms of the state of the simulation: its bodies that have a mesh, in order, with what the simulation says of them.
-/

namespace Scisim
namespace PostProcessing

open HDF5

/-- Three numbers of a vector from place `k` on -/
def triAt (l : List F64) (k : ℕ) : Tri F64 := ⟨l.getD k ⟨0⟩, l.getD (k + 1) ⟨0⟩, l.getD (k + 2) ⟨0⟩⟩

/-- The simulation of `n` bodies has vectors of the right sizes: `q` has the positions and then, row by row, the rotations; `v` has the velocities and then the angular
velocities; and the mass matrix has three times the mass for every body and then the moments of inertia. -/
structure Sized (s : RB3D.State) (n : ℕ) : Prop where
  state : s.Sized
  count : s.nbodies.toNat = n
  q : s.q.length = 12 * n
  v : s.v.length = 6 * n
  M0 : s.M0.values.length = 6 * n

/-- The shape of body `b` -/
def shape (s : RB3D.State) (b : ℕ) : Option RB3D.Geo := (s.geoIdx[b]?).bind fun g => s.geometry[g.toNat]?

/-- The rotation of body `b`, by rows -/
def rotation (s : RB3D.State) (n b : ℕ) : Tri (Tri F64) :=
  ⟨triAt s.q (3 * n + 9 * b), triAt s.q (3 * n + 9 * b + 3), triAt s.q (3 * n + 9 * b + 6)⟩

/-- What is to be printed of body `b` whose mesh is from file `name` -/
def described (A : Arith) (s : RB3D.State) (n b : ℕ) (name : Bytes) : MeshBody where
  x := triAt s.q (3 * b)
  R := rotation s n b
  vel := triAt s.v (3 * b)
  omega := triAt s.v (3 * n + 3 * b)
  M := s.M0.values.getD (3 * b) ⟨0⟩
  I := A.conj (rotation s n b) (triAt s.M0.values (3 * n + 3 * b))
  kinematic := if s.fixed.getD b false then 1 else 0
  meshName := cStr name

/-- The bodies with a mesh, in order -/
def meshesOf (A : Arith) (s : RB3D.State) (n : ℕ) : List MeshBody :=
  (List.range n).filterMap fun b => match shape s b with
    | some (.mesh m) => some (described A s n b m.fileName)
    | _ => none

/-- Body `b` passes the tests of the tools: its rotation is one, and its mass and its moments of inertia are positive -/
def Sane (A : Arith) (s : RB3D.State) (n b : ℕ) : Prop :=
  A.isRotation (rotation s n b) = true ∧
  A.pos (s.M0.values.getD (3 * b) ⟨0⟩) = true ∧
  A.eq (s.M0.values.getD (3 * b) ⟨0⟩) (s.M0.values.getD (3 * b + 1) ⟨0⟩) = true ∧ A.eq (s.M0.values.getD (3 * b) ⟨0⟩) (s.M0.values.getD (3 * b + 2) ⟨0⟩) = true ∧
  A.pos (triAt s.M0.values (3 * n + 3 * b)).x = true ∧ A.pos (triAt s.M0.values (3 * n + 3 * b)).y = true ∧ A.pos (triAt s.M0.values (3 * n + 3 * b)).z = true

/-- As many points, normals and forces as pairs of indices, and not too many -/
def Contacts.Sized (c : Contacts) : Prop :=
  c.points.length = c.indices.length ∧ c.normals.length = c.indices.length ∧ c.forces.length = c.indices.length ∧ c.indices.length < 4294967296

/-- The contacts one by one -/
def Contacts.list (c : Contacts) : List Collision :=
  (List.range c.indices.length).map fun j =>
    ⟨c.forces.getD j ⟨⟨0⟩, ⟨0⟩, ⟨0⟩⟩, c.indices.getD j (0, 0), c.normals.getD j ⟨⟨0⟩, ⟨0⟩, ⟨0⟩⟩, c.points.getD j ⟨⟨0⟩, ⟨0⟩, ⟨0⟩⟩⟩

end PostProcessing
end Scisim
