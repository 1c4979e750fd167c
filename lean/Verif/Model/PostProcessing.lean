import Verif.Model.HDF5
/-!
# The post-processing tools

The Python module `post_processing/rb3d_processing.py`, which reads the files of the spatial program, as used by `print_meshes.py` and `print_collisions.py`, and the part of the
spatial program that writes files of contact forces.

The library `h5py` is modelled by what its documentation says about the calls made here. An absolute name such as `/state/q` is the name without the slash. A
missing name raises `KeyError`, which the tools turn into `sys.exit` (`Outcome.exit`). Failed assertions and all other errors are not caught (`Outcome.fail`). Elements of the
file that were never written read as zero. Tests on floating point numbers and the product of matrices are parameters.
-/

namespace Scisim
namespace PostProcessing

open HDF5

/-! ## Files of contact forces -/

/-- What a step hands to the file, as columns: `collision_indices`, `collision_points`, `collision_normals` and `collision_forces` -/
structure Contacts where
  indices : List (Int32 × Int32)
  points : List (Tri F64)
  normals : List (Tri F64)
  forces : List (Tri F64)

/-- A matrix with three rows, by columns -/
def rows3 (l : List (Tri F64)) : Dense F64 := ⟨3, l.length, l.flatMap fun t => [t.x, t.y, t.z]⟩

/-- A matrix with two rows, by columns -/
def rows2 (l : List (Int32 × Int32)) : Dense Int32 := ⟨2, l.length, l.flatMap fun t => [t.1, t.2]⟩

/-- The writes of `exportConstraintForcesToBinaryFile`, scisim/ConstrainedMaps/ImpactFrictionMap.cpp:68-163, and of `ImpactSolution::writeSolution`,
scisim/ConstrainedMaps/ImpactMaps/ImpactSolution.cpp:75-99, which use the same names in the same order. What the numbers are is in `Model/ForceOutput`. -/
def writeContacts (c : Contacts) (f : File) : Outcome File :=
  (writeScalar f "collision_count".toList (UInt32.ofNat c.indices.length)).bind fun f =>
  if c.indices.length = 0 then .ok f else
  (write f "collision_indices".toList (rows2 c.indices)).bind fun f =>
  (write f "collision_points".toList (rows3 c.points)).bind fun f =>
  (write f "collision_normals".toList (rows3 c.normals)).bind fun f =>
  write f "collision_forces".toList (rows3 c.forces)

/-- The file of contact forces of one step, `stepSystem`, rigidbody3dcli/rigidbody3d_cli.cpp:362-440: the same start as a file of the state, then the contacts. With neither an impact
operator nor a friction solver nothing is added (`none`), lines 390-397. -/
def saveForces (times : F64 → UInt32 → F64) (h : Header) (c : Option Contacts) : Outcome File :=
  saveState times h fun f => match c with
    | some c => writeContacts c f
    | none => .ok f

/-! ## Reading -/

/-- The operations of numpy on numbers -/
structure Arith where
  /-- `x >= 0` -/
  nonneg : F64 → Bool
  /-- `x > 0.0` -/
  pos : F64 → Bool
  /-- `x == y` -/
  eq : F64 → F64 → Bool
  /-- `matrixIsRotation`, post_processing/rb3d_processing.py:7-15, of the rows of a matrix -/
  isRotation : Tri (Tri F64) → Bool
  /-- `numpy.dot(numpy.dot(R, numpy.diag(I0)), numpy.transpose(R))`, post_processing/rb3d_processing.py:102 -/
  conj : Tri (Tri F64) → Tri F64 → Tri (Tri F64)
  /-- `abs(numpy.linalg.norm(normal) - 1.0) <= 1.0e-6`, post_processing/rb3d_processing.py:146 -/
  isUnit : Tri F64 → Bool

/-- `assert` -/
def check (b : Bool) : Outcome Unit := if b then .ok () else .fail

/-- `h5_file[name]` -/
def lookup (f : File) (n : Name) : Outcome DataSet :=
  match f.find n with
  | some d => .ok d
  | none => .exit

/-- The number in a cell -/
def value {α : Type} [Scalar α] (d : DataSet) (k : ℕ) : α := ((d.cells[k]?.join).bind Scalar.get).getD Scalar.zero

/-- `h5_file[name][:, 0]`; the number type is that of the reader's use of the array -/
def readColumn (α : Type) [Scalar α] (f : File) (n : Name) : Outcome (List α) :=
  (lookup f n).bind fun d =>
  if d.ty ≠ Scalar.ty α then .fail else
  match d.dims with
  | [r, c] => if c = 0 then .fail else .ok ((List.range r).map fun i => value d (i * c))
  | _ => .fail

/-- A two dimensional array of numpy -/
structure Table (α : Type) where
  rows : ℕ
  cols : ℕ
  at' : ℕ → ℕ → α

/-- `h5_file[name][:, :]` and, for a data set with two extents, `h5_file[name][:]` -/
def readTable (α : Type) [Scalar α] (f : File) (n : Name) : Outcome (Table α) :=
  (lookup f n).bind fun d =>
  if d.ty ≠ Scalar.ty α then .fail else
  match d.dims with
  | [r, c] => .ok ⟨r, c, fun i j => value d (i * c + j)⟩
  | _ => .fail

/-- `h5_file[name][0, 0]` and `h5_file[name][:][0, 0]` -/
def readScalar (α : Type) [Scalar α] (f : File) (n : Name) : Outcome α :=
  (readTable α f n).bind fun t => if t.rows = 0 ∨ t.cols = 0 then .fail else .ok (t.at' 0 0)

/-- `h5_file[name][:][0]` of a data set of strings -/
def readString (f : File) (n : Name) : Outcome Bytes :=
  (lookup f n).bind fun d =>
  match d.ty, d.dims, d.cells with
  | .string, [_], some (.string s) :: _ => .ok s
  | _, _, _ => .fail

/-- `h5_file[name][:]` of a data set of records if there is one, and an empty array if not, post_processing/rb3d_processing.py:43-50 -/
def readRecords (f : File) (n : Name) : Outcome (List (List (String × Field))) :=
  match f.find n with
  | none => .ok []
  | some d =>
    match d.ty, d.dims with
    | .compound, [c] => .ok ((List.range c).map fun (i : ℕ) => match d.cells[i]?.join with | some (.record r) => r | _ => [])
    | _, _ => .fail

/-- `self` of `DiscreteState` -/
structure DiscreteState where
  q : List F64
  nbodies : ℕ
  v : List F64
  M0 : List F64
  geoIndices : Table UInt32
  scripted : List UInt32
  spheres : List (List (String × Field))
  meshes : List (List (String × Field))
  gitHash : Bytes
  iteration : UInt32
  time : F64
  timestep : F64

/-- `DiscreteState.__init__`, post_processing/rb3d_processing.py:20-60; the division is one of integers, in Python 2 -/
def DiscreteState.init (A : Arith) (f : File) : Outcome DiscreteState :=
  (readColumn F64 f "state/q".toList).bind fun q =>
  (check (q.length % 12 = 0)).bind fun _ =>
  let nbodies := q.length / 12
  (readColumn F64 f "state/v".toList).bind fun v =>
  (check (v.length = 6 * nbodies)).bind fun _ =>
  (readColumn F64 f "state/M0".toList).bind fun M0 =>
  (check (M0.length = 6 * nbodies)).bind fun _ =>
  (readTable UInt32 f "geometry/geometry_indices".toList).bind fun geo =>
  (check (geo.rows = 2 ∧ geo.cols = nbodies)).bind fun _ =>
  (readColumn UInt32 f "state/kinematically_scripted".toList).bind fun scripted =>
  (check (scripted.length = nbodies)).bind fun _ =>
  (readRecords f "geometry/spheres".toList).bind fun spheres =>
  (readRecords f "geometry/meshes".toList).bind fun meshes =>
  (readString f "git_hash".toList).bind fun git =>
  (readScalar UInt32 f "iteration".toList).bind fun iteration =>
  (readScalar F64 f "time".toList).bind fun time =>
  (check (A.nonneg time)).bind fun _ =>
  (readScalar F64 f "timestep".toList).bind fun timestep =>
  (check (A.nonneg timestep)).bind fun _ =>
  .ok ⟨q, nbodies, v, M0, geo, scripted, spheres, meshes, git, iteration, time, timestep⟩

/-- `a[k:k+3]`; a shorter slice does not fit where it is put -/
def slice3 (l : List F64) (k : ℕ) : Outcome (Tri F64) :=
  match (l.drop k).take 3 with
  | [x, y, z] => .ok ⟨x, y, z⟩
  | _ => .fail

/-- `a[k]` -/
def item {α : Type} (l : List α) (k : ℕ) : Outcome α :=
  match l[k]? with
  | some x => .ok x
  | none => .fail

/-- What `meshBodies` yields for a body -/
structure MeshBody where
  x : Tri F64
  R : Tri (Tri F64)
  vel : Tri F64
  omega : Tri F64
  M : F64
  I : Tri (Tri F64)
  kinematic : UInt32
  meshName : Bytes

/-- The body of the loop for a body with a mesh, post_processing/rb3d_processing.py:86-103 -/
def meshBody (A : Arith) (s : DiscreteState) (b : ℕ) : Outcome MeshBody :=
  let geoIdx := (s.geoIndices.at' 1 b).toNat
  (check (geoIdx < s.meshes.length)).bind fun _ =>
  (item s.meshes geoIdx).bind fun mesh =>
  (match mesh with | (_, .text name) :: _ => Outcome.ok name | _ => .fail).bind fun name =>
  (item s.scripted b).bind fun kinematic =>
  (slice3 s.q (3 * b)).bind fun x =>
  (slice3 s.q (3 * s.nbodies + 9 * b)).bind fun r0 =>
  (slice3 s.q (3 * s.nbodies + 9 * b + 3)).bind fun r1 =>
  (slice3 s.q (3 * s.nbodies + 9 * b + 6)).bind fun r2 =>
  (check (A.isRotation ⟨r0, r1, r2⟩)).bind fun _ =>
  (slice3 s.v (3 * b)).bind fun vel =>
  (slice3 s.v (3 * s.nbodies + 3 * b)).bind fun omega =>
  (item s.M0 (3 * b)).bind fun M =>
  (check (A.pos M)).bind fun _ =>
  (item s.M0 (3 * b + 1)).bind fun M1 =>
  (check (A.eq M M1)).bind fun _ =>
  (item s.M0 (3 * b + 2)).bind fun M2 =>
  (check (A.eq M M2)).bind fun _ =>
  (slice3 s.M0 (3 * s.nbodies + 3 * b)).bind fun I0 =>
  (check (A.pos I0.x && A.pos I0.y && A.pos I0.z)).bind fun _ =>
  .ok ⟨x, ⟨r0, r1, r2⟩, vel, omega, M, A.conj ⟨r0, r1, r2⟩ I0, kinematic, name⟩

/-- The loop of `meshBodies`, post_processing/rb3d_processing.py:81-104, from body `b` with `k` bodies to go -/
def meshLoop (A : Arith) (s : DiscreteState) : ℕ → ℕ → Outcome (List MeshBody)
  | _, 0 => .ok []
  | b, k + 1 =>
    if s.geoIndices.at' 0 b = 3 then
      (meshBody A s b).bind fun m => (meshLoop A s (b + 1) k).bind fun rest => .ok (m :: rest)
    else meshLoop A s (b + 1) k

/-- `meshBodies` -/
def meshBodies (A : Arith) (s : DiscreteState) : Outcome (List MeshBody) := meshLoop A s 0 s.nbodies

/-- `self` of `CollisionState` -/
structure CollisionState where
  count : ℕ
  impulses : Table F64
  indices : Table Int32
  normals : Table F64
  points : Table F64
  gitHash : Bytes
  iteration : UInt32
  time : F64
  timestep : F64

/-- `CollisionState.__init__`, post_processing/rb3d_processing.py:109-136 -/
def CollisionState.init (A : Arith) (f : File) : Outcome CollisionState :=
  (readScalar UInt32 f "collision_count".toList).bind fun count =>
  (readTable F64 f "collision_forces".toList).bind fun impulses =>
  (check (impulses.rows = 3 ∧ impulses.cols = count.toNat)).bind fun _ =>
  (readTable Int32 f "collision_indices".toList).bind fun indices =>
  (check (indices.rows = 2 ∧ indices.cols = count.toNat)).bind fun _ =>
  (readTable F64 f "collision_normals".toList).bind fun normals =>
  (check (normals.rows = 3 ∧ normals.cols = count.toNat)).bind fun _ =>
  (readTable F64 f "collision_points".toList).bind fun points =>
  (check (points.rows = 3 ∧ points.cols = count.toNat)).bind fun _ =>
  (readString f "git_hash".toList).bind fun git =>
  (readScalar UInt32 f "iteration".toList).bind fun iteration =>
  (readScalar F64 f "time".toList).bind fun time =>
  (check (A.nonneg time)).bind fun _ =>
  (readScalar F64 f "timestep".toList).bind fun timestep =>
  (check (A.nonneg timestep)).bind fun _ =>
  .ok ⟨count.toNat, impulses, indices, normals, points, git, iteration, time, timestep⟩

/-- What `collisions` yields for a contact -/
structure Collision where
  impulse : Tri F64
  indices : Int32 × Int32
  normal : Tri F64
  point : Tri F64

/-- `a[:, j]` of an array with three rows -/
def col3 (t : Table F64) (j : ℕ) : Tri F64 := ⟨t.at' 0 j, t.at' 1 j, t.at' 2 j⟩

/-- The loop of `collisions`, post_processing/rb3d_processing.py:138-149, from contact `j` with `k` contacts to go -/
def collisionLoop (A : Arith) (s : CollisionState) : ℕ → ℕ → Outcome (List Collision)
  | _, 0 => .ok []
  | j, k + 1 =>
    (check (A.isUnit (col3 s.normals j))).bind fun _ =>
    (collisionLoop A s (j + 1) k).bind fun rest =>
    .ok (⟨col3 s.impulses j, (s.indices.at' 0 j, s.indices.at' 1 j), col3 s.normals j, col3 s.points j⟩ :: rest)

/-- `collisions` -/
def collisions (A : Arith) (s : CollisionState) : Outcome (List Collision) := collisionLoop A s 0 s.count

/-- What `print_meshes.py` prints of the bodies, post_processing/print_meshes.py:26-45 -/
def printMeshes (A : Arith) (f : File) : Outcome (List MeshBody) := (DiscreteState.init A f).bind (meshBodies A)

/-- The same with the numbers after `Body:`, which are those of `enumerate`, post_processing/print_meshes.py:33-34 -/
def printNumberedMeshes (A : Arith) (f : File) : Outcome (List (MeshBody × ℕ)) := (printMeshes A f).bind fun l => .ok l.zipIdx

/-- What `print_collisions.py` prints of the contacts, post_processing/print_collisions.py:17-30 -/
def printCollisions (A : Arith) (f : File) : Outcome (List Collision) := (CollisionState.init A f).bind (collisions A)

end PostProcessing
end Scisim
