import Verif.Model.Snapshot3D
/-!
# Output files

The HDF5 files the command line programs write (`scisim/HDF5File.h`, `scisim/HDF5File.cpp`, the two `StateOutput.cpp` and the three `writeBinaryState`).
The HDF5 library is modelled by what its documentation says about the calls made here: a file is a set of groups and of named data sets, a data set
is an array stored row by row whose elements keep the bits written to them. Failures of the disk are not modelled. A `throw` is `Outcome.fail`.

Names are lists of characters. Names that start with a slash or contain two in a row are not used by the programs; their aliases are not modelled.
-/

namespace Scisim

namespace HDF5

abbrev Name := List Char

/-- The data types the code uses: `H5T_NATIVE_DOUBLE`, `H5T_NATIVE_INT`, `H5T_NATIVE_UINT`, `H5T_NATIVE_LONG`, strings and compound types -/
inductive Ty where
  | double | int | uint | long | string | compound
deriving DecidableEq

/-- A member of a compound element: an array of numbers (a single number is an array of one) or a string -/
inductive Field where
  | nums (xs : List F64)
  | text (s : Bytes)
deriving DecidableEq

/-- An element of a data set -/
inductive Elem where
  | double (x : F64)
  | int (x : Int32)
  | uint (x : UInt32)
  | long (x : Int64)
  | string (s : Bytes)
  | record (fields : List (String × Field))
deriving DecidableEq

/-- A data set: its element type, its extents and its elements row by row; `none` is an element no write has touched (the library's fill value) -/
structure DataSet where
  ty : Ty
  dims : List Nat
  cells : List (Option Elem)
deriving DecidableEq

/-- An open file: the names of its groups, and its data sets under their full names -/
structure File where
  groups : List Name
  sets : List (Name × DataSet)
deriving DecidableEq

/-- A file just created, scisim/HDF5File.cpp:46-55 with `H5F_ACC_TRUNC`: what a file of this name held before is gone. -/
def File.empty : File := ⟨[], []⟩

/-- The data set of a name -/
def File.find (f : File) (n : Name) : Option DataSet := f.sets.lookup n

/-- scisim/HDF5File.h:487-501 `splitFullName`: at the last slash -/
def splitFullName (full : Name) : Name × Name :=
  let tail := (full.reverse.takeWhile (· != '/')).reverse
  if tail.length = full.length then ([], full) else (full.take (full.length - tail.length - 1), tail)

/-- The full name of a link in a group -/
def join (group name : Name) : Name := if group = [] then name else group ++ '/' :: name

/-- Whether the group a name is to be created in exists -/
def File.parentExists (f : File) (n : Name) : Bool := (splitFullName n).1 = [] || decide ((splitFullName n).1 ∈ f.groups)

/-- scisim/HDF5File.cpp:118-138 `findOrCreateGroup`: `H5Lexists` fails when an intermediate group is missing, and then so does `H5Gopen2`; opening a data set
as a group fails too. -/
def findOrCreateGroup (f : File) (group : Name) : Outcome File :=
  if group = [] then .ok f
  else if group ∈ f.groups then .ok f
  else if (f.find group).isSome then .fail
  else if f.parentExists group then .ok { f with groups := f.groups ++ [group] }
  else .fail

/-- scisim/HDF5File.cpp:140-155 `findGroup` -/
def findGroup (f : File) (group : Name) : Outcome Unit := if group = [] ∨ group ∈ f.groups then .ok () else .fail

/-- `H5Dcreate2`: fails if the name is taken or empty -/
def createDataSet (f : File) (group name : Name) (d : DataSet) : Outcome File :=
  if name = [] ∨ join group name ∈ f.groups ∨ (f.find (join group name)).isSome then .fail
  else .ok { f with sets := f.sets ++ [(join group name, d)] }

/-- `H5Dwrite`: gives a data set its elements -/
def File.setCells (f : File) (n : Name) (cells : List (Option Elem)) : File :=
  { f with sets := f.sets.map fun e => if e.1 = n then (e.1, { e.2 with cells := cells }) else e }

/-- scisim/HDF5File.h:464-469 `computeHDFType`; `Elem` of a number and back -/
class Scalar (α : Type) where
  ty : Ty
  elem : α → Elem
  get : Elem → Option α
  /-- the fill value of the library -/
  zero : α

instance : Scalar F64 := ⟨.double, .double, fun | .double x => some x | _ => none, ⟨0⟩⟩
instance : Scalar Int32 := ⟨.int, .int, fun | .int x => some x | _ => none, 0⟩
instance : Scalar UInt32 := ⟨.uint, .uint, fun | .uint x => some x | _ => none, 0⟩
instance : Scalar Int64 := ⟨.long, .long, fun | .long x => some x | _ => none, 0⟩

/-- scisim/HDF5File.h:212-218: the copy into a row-major matrix; `Dense.data` is column-major. `none` stands for a coefficient outside the matrix and does not
occur. -/
def rowMajor {α : Type} (m : Dense α) : List (Option α) :=
  (List.range (m.rows * m.cols)).map fun k => m.data[(k % m.cols) * m.rows + k / m.cols]?

/-- scisim/HDF5File.h:184-226 `write( full_name, DenseBase )` -/
def write {α : Type} [Scalar α] (f : File) (full : Name) (m : Dense α) : Outcome File :=
  (findOrCreateGroup f (splitFullName full).1).bind fun f =>
  (createDataSet f (splitFullName full).1 (splitFullName full).2
    ⟨Scalar.ty α, [m.rows, m.cols], List.replicate (m.rows * m.cols) none⟩).bind fun f =>
  .ok (f.setCells (join (splitFullName full).1 (splitFullName full).2) ((rowMajor m).map (·.map Scalar.elem)))

/-- scisim/HDF5File.h:130-137 `write( full_name, Scalar )`: a 1 by 1 matrix -/
def writeScalar {α : Type} [Scalar α] (f : File) (full : Name) (x : α) : Outcome File := write f full ⟨1, 1, [x]⟩

/-- `std::string::c_str()` as the library reads it: up to the first zero byte -/
def cStr (s : Bytes) : Bytes := s.takeWhile (· ≠ 0)

/-- scisim/HDF5File.cpp:69-116 `write( full_name, std::string )` -/
def writeString (f : File) (full : Name) (s : Bytes) : Outcome File :=
  (findOrCreateGroup f (splitFullName full).1).bind fun f =>
  (createDataSet f (splitFullName full).1 (splitFullName full).2 ⟨.string, [1], [none]⟩).bind fun f =>
  .ok (f.setCells (join (splitFullName full).1 (splitFullName full).2) [some (.string (cStr s))])

/-- scisim/HDF5File.h:393-419 `getNativeType`: the types it knows, and -1 (`none`) for all others -/
def getNativeType : Ty → Option Ty
  | .double => some .double
  | .int => some .int
  | .uint => some .uint
  | _ => none

/-- scisim/HDF5File.h:421-447 `getDimensions`: extents become `int`s -/
def toInt (d : Nat) : Int32 := Int32.ofNat d

/-- scisim/HDF5File.h:252-313 `read`: `fixedRows`, `fixedCols` are the extents of the matrix type that are known at compile time. The whole data set is read, whatever the
size of the matrix. An element never written reads as the fill value. -/
def read (α : Type) [Scalar α] (fixedRows fixedCols : Option Nat) (f : File) (full : Name) : Outcome (Dense α) :=
  (findGroup f (splitFullName full).1).bind fun _ =>
  match f.find (join (splitFullName full).1 (splitFullName full).2) with
  | none => .fail
  | some d =>
    if getNativeType d.ty ≠ some (Scalar.ty α) then .fail
    else match d.dims with
    | [r, c] =>
      if toInt r < 0 ∨ toInt c < 0 then .fail
      else if fixedRows.any (fun n => (n : Int) ≠ (toInt r).toInt) then .fail
      else if fixedCols.any (fun n => (n : Int) ≠ (toInt c).toInt) then .fail
      else if (toInt r).toInt ≠ r ∨ (toInt c).toInt ≠ c then .ub
      else .ok ⟨r, c, (List.range (r * c)).map fun k => ((d.cells[(k % r) * c + k / r]?.join).bind Scalar.get).getD (Scalar.zero)⟩
    | _ => .fail

/-! ## Tables of geometry -/

/-- rigidbody2d/StateOutput.cpp:25-33, rigidbody3d/StateOutput.cpp:27-35: numbers the geometries of each type from zero -/
def localIndices {G : Type} (code : G → Nat) : List G → (Nat → UInt32) → List UInt32
  | [], _ => []
  | g :: gs, counts => counts (code g) :: localIndices code gs (fun t => if t = code g then counts t + 1 else counts t)

/-- The loop rigidbody2d/StateOutput.cpp:65-78, rigidbody3d/StateOutput.cpp:64-77: writes column `current` of a two by `n` table for each body. A geometry index
out of range is undefined behaviour. -/
def fillIndices {G : Type} (code : G → Nat) (geometry : List G) (locals : List UInt32) (n : Nat) :
    List UInt32 → Nat → List (Option Elem) → Outcome (List (Option Elem))
  | [], _, cells => .ok cells
  | i :: is, current, cells =>
    match geometry[i.toNat]?, locals[i.toNat]? with
    | some g, some k =>
      if current < n then
        fillIndices code geometry locals n is (current + 1) ((cells.set current (some (.uint (UInt32.ofNat (code g))))).set (n + current) (some (.uint k)))
      else .fail
    | _, _ => .ub

/-- rigidbody2d/StateOutput.cpp:16-80, rigidbody3d/StateOutput.cpp:24-79 `writeGeometryIndices` -/
def writeGeometryIndices {G : Type} (code : G → Nat) (geometry : List G) (indices : List UInt32) (group : Name) (f : File) : Outcome File :=
  (findOrCreateGroup f group).bind fun f =>
  (createDataSet f group "geometry_indices".toList ⟨.uint, [2, indices.length], List.replicate (2 * indices.length) none⟩).bind fun f =>
  (fillIndices code geometry (localIndices code geometry fun _ => 0) indices.length indices 0 (List.replicate (2 * indices.length) none)).bind fun cells =>
  .ok (f.setCells (join group "geometry_indices".toList) cells)

/-- The loops that insert compound elements one by one, such as rigidbody2d/StateOutput.cpp:131-159: those of the wanted kind are written to consecutive places. -/
def insertRecords {G : Type} (sel : G → Option (List (String × Field))) : List G → Nat → List (Option Elem) → Outcome (List (Option Elem))
  | [], _, cells => .ok cells
  | g :: gs, current, cells =>
    match sel g with
    | none => insertRecords sel gs current cells
    | some r => if current < cells.length then insertRecords sel gs (current + 1) (cells.set current (some (.record r))) else .fail

/-- The common shape of rigidbody2d/StateOutput.cpp:83-162, 164-248, 276-357, 359-507 and rigidbody3d/StateOutput.cpp:81-151, 153-221, 223-298, 346-452, 454-577: a data
set of `count` compound elements is created and filled. -/
def writeRecords {G : Type} (sel : G → Option (List (String × Field))) (items : List G) (count : Nat) (group name : Name) (f : File) : Outcome File :=
  (findOrCreateGroup f group).bind fun f =>
  (createDataSet f group name ⟨.compound, [count], List.replicate count none⟩).bind fun f =>
  (insertRecords sel items 0 (List.replicate count none)).bind fun cells =>
  .ok (f.setCells (join group name) cells)

/-- rigidbody2d/StateOutput.cpp:254-260, rigidbody3d/StateOutput.cpp:302-321: the number of geometries of a type, an `unsigned` -/
def countType {G : Type} (code : G → Nat) (t : Nat) : List G → UInt32
  | [] => 0
  | g :: gs => (if code g = t then 1 else 0) + countType code t gs

/-- A two component member -/
def pair2 (v : V2 F64) : Field := .nums [v.x, v.y]

/-- A three component member -/
def tri (v : Tri F64) : Field := .nums [v.x, v.y, v.z]

/-- The vector as a one column matrix -/
def column {α : Type} (l : List α) : Dense α := ⟨l.length, 1, l⟩

/-- The `Eigen::Map` of the first `n` values of a sparse matrix, ball2d/Ball2DSim.cpp:780, rigidbody2d/RigidBody2DSim.cpp:1114: reading past them is undefined behaviour. -/
def firstValues (M : Sparse) (n : Nat) : Outcome (List F64) := if n ≤ M.values.length then .ok (M.values.take n) else .ub

/-- One 0/1 value per body, rigidbody2d/RigidBody2DSim.cpp:1118-1123, rigidbody3d/RigidBody3DSim.cpp:1582-1587: reading past the flags is undefined behaviour. -/
def flags (fixed : List Bool) (n : Nat) : Outcome (List UInt32) :=
  if n ≤ fixed.length then .ok ((fixed.take n).map fun b => if b then 1 else 0) else .ub

end HDF5

/-! ## Balls in the plane -/

namespace Ball2D
open HDF5

/-- ball2d/Ball2DSim.cpp:768-783 -/
def writeBalls (s : State) (f : File) : Outcome File :=
  if s.q.length = 0 then .ok f else
  (write f "q".toList (column s.q)).bind fun f =>
  (write f "v".toList (column s.v)).bind fun f =>
  (write f "r".toList (column s.r)).bind fun f =>
  (firstValues s.M s.q.length).bind fun m =>
  write f "m".toList (column m)

/-- ball2d/Ball2DSim.cpp:766-807 `writeBinaryState` -/
def writeBinaryState (s : State) (f : File) : Outcome File :=
  (writeBalls s f).bind fun f =>
  if s.planes.length = 0 then .ok f else
  (write f "static_plane_centers".toList ⟨2, s.planes.length, s.planes.flatMap fun p => [p.x.x, p.x.y]⟩).bind fun f =>
  write f "static_plane_normals".toList ⟨2, s.planes.length, s.planes.flatMap fun p => [p.n.x, p.n.y]⟩

end Ball2D

/-! ## Rigid bodies in the plane -/

namespace RB2D
open HDF5

/-- rigidbody2d/RigidBody2DGeometry.h:13-16 -/
def Geo.code : Geo → Nat
  | .circle _ => 0
  | .box _ => 1

/-- rigidbody2d/StateOutput.cpp:91-94, 105-115, 135-150 -/
def circleRecord : Geo → Option (List (String × Field))
  | .circle r => some [("r", .nums [r])]
  | .box _ => none

/-- rigidbody2d/StateOutput.cpp:171-174, 184-203, 222-245 -/
def boxRecord : Geo → Option (List (String × Field))
  | .circle _ => none
  | .box r => some [("r", pair2 r)]

/-- rigidbody2d/StateOutput.cpp:250-273 `writeGeometry` -/
def writeGeometry (geometry : List Geo) (group : Name) (f : File) : Outcome File :=
  (if countType Geo.code 0 geometry ≠ 0 then writeRecords circleRecord geometry (countType Geo.code 0 geometry).toNat group "circles".toList f else .ok f).bind fun f =>
  (if countType Geo.code 1 geometry ≠ 0 then writeRecords boxRecord geometry (countType Geo.code 1 geometry).toNat group "boxes".toList f else .ok f)

/-- rigidbody2d/StateOutput.cpp:283-288, 297-324, 342-347 -/
def planeRecord (p : Plane) : List (String × Field) := [("x", pair2 p.x), ("n", pair2 p.n)]

/-- rigidbody2d/StateOutput.cpp:366-378, 388-457, 475-490 -/
def portalRecord (p : Portal) : List (String × Field) :=
  [("x0", pair2 p.planeA.x), ("n0", pair2 p.planeA.n), ("x1", pair2 p.planeB.x), ("n1", pair2 p.planeB.n), ("v", .nums [p.v]), ("width", .nums [p.bounds]),
    ("delta", .nums [p.dx])]

/-- rigidbody2d/RigidBody2DSim.cpp:1104-1136 `writeBinaryState`; `numBodies()` is a third of the size of `q`. -/
def writeBinaryState (s : State) (f : File) : Outcome File :=
  (write f "q".toList (column s.q)).bind fun f =>
  (write f "v".toList (column s.v)).bind fun f =>
  (firstValues s.M s.q.length).bind fun m =>
  (write f "m".toList (column m)).bind fun f =>
  (flags s.fixed (s.q.length / 3)).bind fun fixed =>
  (write f "kinematically_scripted".toList (column fixed)).bind fun f =>
  (writeGeometryIndices Geo.code s.geometry s.geoIdx "geometry".toList f).bind fun f =>
  (writeGeometry s.geometry "geometry".toList f).bind fun f =>
  (if s.planes.length ≠ 0 then writeRecords (some ∘ planeRecord) s.planes s.planes.length "static_geometry".toList "static_planes".toList f else .ok f).bind fun f =>
  (if s.portals.length ≠ 0 then writeRecords (some ∘ portalRecord) s.portals s.portals.length "static_geometry".toList "planar_portals".toList f else .ok f)

end RB2D

/-! ## Rigid bodies in space -/

namespace RB3D
open HDF5

/-- rigidbody3d/Geometry/RigidBodyGeometry.h:13-19 -/
def Geo.code : Geo → Nat
  | .box _ => 0
  | .sphere _ => 1
  | .staple => 2
  | .mesh _ => 3

/-- rigidbody3d/StateOutput.cpp:83-86, 96-114, 130-148 -/
def boxRecord : Geo → Option (List (String × Field))
  | .box h => some [("r", tri h)]
  | _ => none

/-- rigidbody3d/StateOutput.cpp:155-158, 168-178, 200-218 -/
def sphereRecord : Geo → Option (List (String × Field))
  | .sphere r => some [("r", .nums [r])]
  | _ => none

/-- rigidbody3d/StateOutput.cpp:225-228, 238-259, 278-295 -/
def meshRecord : Geo → Option (List (String × Field))
  | .mesh m => some [("file_name", .text (cStr m.fileName))]
  | _ => none

/-- rigidbody3d/StateOutput.cpp:300-344 `writeGeometry` -/
def writeGeometry (geometry : List Geo) (group : Name) (f : File) : Outcome File :=
  (if countType Geo.code 0 geometry ≠ 0 then writeRecords boxRecord geometry (countType Geo.code 0 geometry).toNat group "boxes".toList f else .ok f).bind fun f =>
  (if countType Geo.code 1 geometry ≠ 0 then writeRecords sphereRecord geometry (countType Geo.code 1 geometry).toNat group "spheres".toList f else .ok f).bind fun f =>
  if countType Geo.code 2 geometry ≠ 0 then .exit else
  (if countType Geo.code 3 geometry ≠ 0 then writeRecords meshRecord geometry (countType Geo.code 3 geometry).toNat group "meshes".toList f else .ok f)

/-- rigidbody3d/StateOutput.cpp:348-354, 364-419, 437-443 -/
def planeRecord (p : Plane) : List (String × Field) := [("x", tri p.x), ("n", tri p.n), ("v", tri p.v), ("omega", tri p.omega)]

/-- Four components of a quaternion: `x()`, `y()`, `z()`, `w()` -/
structure Quad where
  x : F64
  y : F64
  z : F64
  w : F64
deriving DecidableEq

/-- rigidbody3d/StateOutput.cpp:456-463, 473-535, 552-566. `R` is `StaticCylinder::R()` (rigidbody3d/StaticGeometry/StaticCylinder.cpp:71-74), a function of the axis and the angle of
the cylinder; its arithmetic is not modelled. -/
def cylinderRecord (R : Tri F64 → F64 → Quad) (c : Cylinder) : List (String × Field) :=
  [("x", tri c.x), ("R", .nums [(R c.n c.theta).x, (R c.n c.theta).y, (R c.n c.theta).z, (R c.n c.theta).w]), ("v", tri c.v), ("omega", tri c.omega), ("r", .nums [c.r])]

/-- rigidbody3d/RigidBody3DSim.cpp:1560-1590 `writeBinaryState` -/
def writeBinaryState (R : Tri F64 → F64 → Quad) (s : State) (f : File) : Outcome File :=
  (writeGeometryIndices Geo.code s.geometry s.geoIdx "geometry".toList f).bind fun f =>
  (writeGeometry s.geometry "geometry".toList f).bind fun f =>
  (if s.planes.length ≠ 0 then writeRecords (some ∘ planeRecord) s.planes s.planes.length "static_geometry".toList "static_planes".toList f else .ok f).bind fun f =>
  (if s.cylinders.length ≠ 0 then writeRecords (some ∘ cylinderRecord R) s.cylinders s.cylinders.length "static_geometry".toList "static_cylinders".toList f
    else .ok f).bind fun f =>
  (write f "state/q".toList (column s.q)).bind fun f =>
  (write f "state/v".toList (column s.v)).bind fun f =>
  (write f "state/M0".toList (column s.M0.values)).bind fun f =>
  (flags s.fixed s.nbodies.toNat).bind fun fixed =>
  write f "state/kinematically_scripted".toList (column fixed)

end RB3D

namespace HDF5

/-- What `saveState` writes first: the step, the number of the step, the time and the version of the program -/
structure Header where
  timestep : F64
  iteration : UInt32
  git : Bytes

/-- ball2dcli/ball2d_cli.cpp:165-196, rigidbody2dcli/rigidbody2d_cli.cpp:156-187, rigidbody3dcli/rigidbody3d_cli.cpp:171-202 `saveState`: a thrown error ends the run with a failure
status. `times dt i` is the rounded product `scalar( g_dt ) * g_iteration`. -/
def saveState (times : F64 → UInt32 → F64) (h : Header) (writeBinaryState : File → Outcome File) : Outcome File :=
  match (writeScalar File.empty "timestep".toList h.timestep).bind fun f =>
    (writeScalar f "iteration".toList h.iteration).bind fun f =>
    (writeScalar f "time".toList (times h.timestep h.iteration)).bind fun f =>
    (writeString f "git_hash".toList h.git).bind writeBinaryState with
  | .fail => .exit
  | o => o

end HDF5

end Scisim
