import Verif.Model.HDF5
/-!
# What a reader finds in an output file

A reader knows the names of the data sets and the meaning of their rows and columns, and nothing of the program that wrote them.
-/

namespace Scisim

namespace HDF5

/-- The element in row `i` and column `j` of a table -/
def File.entry (f : File) (n : Name) (i j : Nat) : Option Elem :=
  match f.find n with
  | some ⟨_, [r, c], cells⟩ => if i < r ∧ j < c then cells[i * c + j]?.join else none
  | _ => none

/-- The `i`-th compound element of a list -/
def File.recordAt (f : File) (n : Name) (i : Nat) : Option (List (String × Field)) :=
  match f.find n with
  | some ⟨.compound, [c], cells⟩ => if i < c then (match cells[i]?.join with | some (.record r) => some r | _ => none) else none
  | _ => none

/-- The data set `n` is a table of this type with `r` rows and `c` columns -/
def File.IsTable (f : File) (n : Name) (ty : Ty) (r c : Nat) : Prop := ∃ cells, f.find n = some ⟨ty, [r, c], cells⟩

/-- The data set `n` is one column of these numbers, all of them and in this order -/
def File.IsColumn {α : Type} [Scalar α] (f : File) (n : Name) (l : List α) : Prop :=
  f.IsTable n (Scalar.ty α) l.length 1 ∧ ∀ i (h : i < l.length), f.entry n i 0 = some (Scalar.elem l[i])

/-- The data set `n` is a string -/
def File.IsString (f : File) (n : Name) (s : Bytes) : Prop := f.find n = some ⟨.string, [1], [some (.string s)]⟩

/-- The names of all data sets -/
def File.names (f : File) : List Name := f.sets.map (·.1)

/-- The step, its number, the time and the version -/
structure Describes (times : F64 → UInt32 → F64) (h : Header) (f : File) : Prop where
  timestep : f.IsColumn "timestep".toList [h.timestep]
  iteration : f.IsColumn "iteration".toList [h.iteration]
  time : f.IsColumn "time".toList [times h.timestep h.iteration]
  git : f.IsString "git_hash".toList (cStr h.git)

end HDF5

open HDF5

namespace Ball2D

/-- The sizes of the arrays of a simulation of `n` balls agree. -/
structure State.Sized (s : State) (n : Nat) : Prop where
  q : s.q.length = 2 * n
  v : s.v.length = 2 * n
  r : s.r.length = n
  M : s.M.values.length = 2 * n

/-- The file gives the balls and the planes. -/
structure FileDescribes (s : State) (n : Nat) (f : File) : Prop where
  q : n ≠ 0 → f.IsColumn "q".toList s.q
  v : n ≠ 0 → f.IsColumn "v".toList s.v
  r : n ≠ 0 → f.IsColumn "r".toList s.r
  m : n ≠ 0 → f.IsColumn "m".toList s.M.values
  /-- column `k` of the two tables is the point and the normal of plane `k` -/
  planes : s.planes ≠ [] → f.IsTable "static_plane_centers".toList .double 2 s.planes.length ∧ f.IsTable "static_plane_normals".toList .double 2 s.planes.length ∧
    ∀ k (h : k < s.planes.length),
      f.entry "static_plane_centers".toList 0 k = some (.double s.planes[k].x.x) ∧ f.entry "static_plane_centers".toList 1 k = some (.double s.planes[k].x.y) ∧
      f.entry "static_plane_normals".toList 0 k = some (.double s.planes[k].n.x) ∧ f.entry "static_plane_normals".toList 1 k = some (.double s.planes[k].n.y)
  /-- there is nothing else in the file -/
  names : f.names = ["timestep".toList, "iteration".toList, "time".toList, "git_hash".toList] ++
    (if n = 0 then [] else ["q".toList, "v".toList, "r".toList, "m".toList]) ++
    (if s.planes = [] then [] else ["static_plane_centers".toList, "static_plane_normals".toList])

end Ball2D

namespace RB2D

/-- The sizes of the arrays of a simulation of `n` bodies agree and every body has a geometry. -/
structure State.Sized (s : State) (n : Nat) : Prop where
  q : s.q.length = 3 * n
  v : s.v.length = 3 * n
  M : s.M.values.length = 3 * n
  fixed : s.fixed.length = n
  geoIdx : s.geoIdx.length = n
  geometry : s.geometry.length < 4294967296
  indices : ∀ i ∈ s.geoIdx, i.toNat < s.geometry.length

/-- The shape of body `b` as a reader finds it: row 0 of the table is the type, row 1 the number of the shape among those of its type. -/
def shapeInFile (f : File) (b : Nat) : Option Geo :=
  match f.entry "geometry/geometry_indices".toList 0 b, f.entry "geometry/geometry_indices".toList 1 b with
  | some (.uint ty), some (.uint k) =>
    if ty = 0 then
      match f.recordAt "geometry/circles".toList k.toNat with
      | some [("r", .nums [r])] => some (.circle r)
      | _ => none
    else if ty = 1 then
      match f.recordAt "geometry/boxes".toList k.toNat with
      | some [("r", .nums [rx, ry])] => some (.box ⟨rx, ry⟩)
      | _ => none
    else none
  | _, _ => none

/-- Point and normal of plane `k` -/
def planeInFile (f : File) (k : Nat) : Option (V2 F64 × V2 F64) :=
  match f.recordAt "static_geometry/static_planes".toList k with
  | some [("x", .nums [x, y]), ("n", .nums [nx, ny])] => some (⟨x, y⟩, ⟨nx, ny⟩)
  | _ => none

/-- Portal `k`: points and normals of its planes, speed, width and shift -/
def portalInFile (f : File) (k : Nat) : Option ((V2 F64 × V2 F64) × (V2 F64 × V2 F64) × F64 × F64 × F64) :=
  match f.recordAt "static_geometry/planar_portals".toList k with
  | some [("x0", .nums [a, b]), ("n0", .nums [c, d]), ("x1", .nums [e, g]), ("n1", .nums [h, i]), ("v", .nums [v]), ("width", .nums [w]), ("delta", .nums [δ])] =>
    some ((⟨a, b⟩, ⟨c, d⟩), (⟨e, g⟩, ⟨h, i⟩), v, w, δ)
  | _ => none

/-- The file gives the bodies with their shapes, the planes and the portals. -/
structure FileDescribes (s : State) (n : Nat) (f : File) : Prop where
  q : f.IsColumn "q".toList s.q
  v : f.IsColumn "v".toList s.v
  m : f.IsColumn "m".toList s.M.values
  fixed : f.IsColumn (α := UInt32) "kinematically_scripted".toList (s.fixed.map fun b => if b then 1 else 0)
  table : f.IsTable "geometry/geometry_indices".toList .uint 2 n
  shapes : ∀ b (h : b < s.geoIdx.length), shapeInFile f b = s.geometry[s.geoIdx[b].toNat]?
  planes : ∀ k, planeInFile f k = s.planes[k]?.map fun p => (p.x, p.n)
  portals : ∀ k, portalInFile f k = s.portals[k]?.map fun p => ((p.planeA.x, p.planeA.n), (p.planeB.x, p.planeB.n), p.v, p.bounds, p.dx)

end RB2D

namespace RB3D

/-- The sizes of the arrays of a simulation agree and every body has a geometry. -/
structure State.Sized (s : State) : Prop where
  fixed : s.fixed.length = s.nbodies.toNat
  geoIdx : s.geoIdx.length = s.nbodies.toNat
  geometry : s.geometry.length < 4294967296
  indices : ∀ i ∈ s.geoIdx, i.toNat < s.geometry.length

/-- What the file tells of a shape: of a mesh, the name of its file -/
inductive Shape where
  | box (r : Tri F64)
  | sphere (r : F64)
  | mesh (fileName : Bytes)
deriving DecidableEq

/-- The shape of a geometry; staples have none in a file -/
def shapeOf : Geo → Option Shape
  | .box h => some (.box h)
  | .sphere r => some (.sphere r)
  | .staple => none
  | .mesh m => some (.mesh (cStr m.fileName))

/-- The shape of body `b` as a reader finds it -/
def shapeInFile (f : File) (b : Nat) : Option Shape :=
  match f.entry "geometry/geometry_indices".toList 0 b, f.entry "geometry/geometry_indices".toList 1 b with
  | some (.uint ty), some (.uint k) =>
    if ty = 0 then
      match f.recordAt "geometry/boxes".toList k.toNat with
      | some [("r", .nums [x, y, z])] => some (.box ⟨x, y, z⟩)
      | _ => none
    else if ty = 1 then
      match f.recordAt "geometry/spheres".toList k.toNat with
      | some [("r", .nums [r])] => some (.sphere r)
      | _ => none
    else if ty = 3 then
      match f.recordAt "geometry/meshes".toList k.toNat with
      | some [("file_name", .text s)] => some (.mesh s)
      | _ => none
    else none
  | _, _ => none

/-- Plane `k`: point, normal, velocity, angular velocity -/
def planeInFile (f : File) (k : Nat) : Option Plane :=
  match f.recordAt "static_geometry/static_planes".toList k with
  | some [("x", .nums [x, y, z]), ("n", .nums [nx, ny, nz]), ("v", .nums [vx, vy, vz]), ("omega", .nums [ox, oy, oz])] =>
    some ⟨⟨x, y, z⟩, ⟨nx, ny, nz⟩, ⟨vx, vy, vz⟩, ⟨ox, oy, oz⟩⟩
  | _ => none

/-- Cylinder `k`: point, orientation, velocity, angular velocity, radius -/
def cylinderInFile (f : File) (k : Nat) : Option (Tri F64 × Quad × Tri F64 × Tri F64 × F64) :=
  match f.recordAt "static_geometry/static_cylinders".toList k with
  | some [("x", .nums [x, y, z]), ("R", .nums [a, b, c, d]), ("v", .nums [vx, vy, vz]), ("omega", .nums [ox, oy, oz]), ("r", .nums [r])] =>
    some (⟨x, y, z⟩, ⟨a, b, c, d⟩, ⟨vx, vy, vz⟩, ⟨ox, oy, oz⟩, r)
  | _ => none

/-- The file gives the bodies with their shapes, the planes and the cylinders. -/
structure FileDescribes (R : Tri F64 → F64 → Quad) (s : State) (f : File) : Prop where
  q : f.IsColumn "state/q".toList s.q
  v : f.IsColumn "state/v".toList s.v
  M0 : f.IsColumn "state/M0".toList s.M0.values
  fixed : f.IsColumn (α := UInt32) "state/kinematically_scripted".toList (s.fixed.map fun b => if b then 1 else 0)
  table : f.IsTable "geometry/geometry_indices".toList .uint 2 s.nbodies.toNat
  shapes : ∀ b (h : b < s.geoIdx.length), shapeInFile f b = (s.geometry[s.geoIdx[b].toNat]?).bind shapeOf
  planes : ∀ k, planeInFile f k = s.planes[k]?
  cylinders : ∀ k, cylinderInFile f k = s.cylinders[k]?.map fun c => (c.x, R c.n c.theta, c.v, c.omega, c.r)
  /-- the tables of spheres and of meshes are lists of compound elements, where there are any -/
  lists : ∀ n ∈ ["geometry/spheres".toList, "geometry/meshes".toList], ∀ d, f.find n = some d → d.ty = .compound ∧ ∃ c, d.dims = [c]

end RB3D

end Scisim
