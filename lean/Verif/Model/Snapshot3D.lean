import Verif.Model.Snapshot
/-!
# Snapshots of the 3D rigid body program
-/

namespace Scisim

/-- Three coefficients: `Vector3s`, `Vector3u`, `Array3i`. -/
structure Tri (α : Type) where
  x : α
  y : α
  z : α
deriving DecidableEq

/-- `MathUtilities::serialize` of a column of three coefficients, scisim/Math/MathUtilities.h:42-60 -/
def serTri {α : Type} [Pod α] (v : Tri α) : Bytes := serDense false false ⟨3, 1, [v.x, v.y, v.z]⟩

/-- `MathUtilities::deserialize<Vector3s>` etc., scisim/Math/MathUtilities.h:62-74; the storage has exactly three coefficients. -/
def deTri (α : Type) [Pod α] : Dec (Tri α) := do
  let m ← deDenseFixed α 3 1
  match m.data with
  | [x, y, z] => pure ⟨x, y, z⟩
  | _ => Dec.ub

namespace RB3D

/-- rigidbody3d/StaticGeometry/StaticPlane.h:41-44 -/
structure Plane where
  x : Tri F64
  n : Tri F64
  v : Tri F64
  omega : Tri F64
deriving DecidableEq

/-- rigidbody3d/StaticGeometry/StaticPlane.cpp:29-36 -/
def serPlane (p : Plane) : Bytes := serTri p.x ++ (serTri p.n ++ (serTri p.v ++ serTri p.omega))

/-- rigidbody3d/StaticGeometry/StaticPlane.cpp:17-22 -/
def dePlane : Dec Plane := do
  let x ← deTri F64
  let n ← deTri F64
  let v ← deTri F64
  let w ← deTri F64
  pure ⟨x, n, v, w⟩

/-- rigidbody3d/StaticGeometry/StaticCylinder.h:40-50 -/
structure Cylinder where
  x : Tri F64
  n : Tri F64
  theta : F64
  v : Tri F64
  omega : Tri F64
  r : F64
deriving DecidableEq

/-- rigidbody3d/StaticGeometry/StaticCylinder.cpp:35-44 -/
def serCylinder (c : Cylinder) : Bytes :=
  serTri c.x ++ (serTri c.n ++ (serPod c.theta ++ (serTri c.v ++ (serTri c.omega ++ serPod c.r))))

/-- rigidbody3d/StaticGeometry/StaticCylinder.cpp:46-55 -/
def deCylinder : Dec Cylinder := do
  let x ← deTri F64
  let n ← deTri F64
  let theta ← dePod F64
  let v ← deTri F64
  let w ← deTri F64
  let r ← dePod F64
  pure ⟨x, n, theta, v, w, r⟩

/-- rigidbody3d/Portals/PlanarPortal.h:92-94 -/
structure Portal where
  planeA : Plane
  planeB : Plane
  multiplier : Tri Int32
deriving DecidableEq

/-- rigidbody3d/Portals/PlanarPortal.cpp:202-208 -/
def serPortal (p : Portal) : Bytes := serPlane p.planeA ++ (serPlane p.planeB ++ serTri p.multiplier)

/-- rigidbody3d/Portals/PlanarPortal.cpp:90-97 -/
def dePortal : Dec Portal := do
  let a ← dePlane
  let b ← dePlane
  let m ← deTri Int32
  pure ⟨a, b, m⟩

/-- rigidbody3d/Geometry/RigidBodyTriangleMesh.h:58-77; `R` holds the nine coefficients of a 3 by 3 matrix, `verts`, `faces`, `samples` and
`hullSamples` have three rows. -/
structure Mesh where
  fileName : Bytes
  verts : Dense F64
  faces : Dense UInt32
  volume : F64
  inertiaOnRho : Tri F64
  centerOfMass : Tri F64
  R : Dense F64
  samples : Dense F64
  hullSamples : Dense F64
  cellDelta : Tri F64
  gridDimensions : Tri UInt32
  gridOrigin : Tri F64
  signedDistance : List F64
  gridEnd : Tri F64
deriving DecidableEq

/-- rigidbody3d/Geometry/RigidBodyTriangleMesh.cpp:215-232, after the type tag -/
def serMesh (m : Mesh) : Bytes :=
  serStr m.fileName ++ (serDense false true m.verts ++ (serDense false true m.faces ++ (serPod m.volume ++
    (serTri m.inertiaOnRho ++ (serTri m.centerOfMass ++ (serDense false false m.R ++ (serDense false true m.samples ++
      (serDense false true m.hullSamples ++ (serTri m.cellDelta ++ (serTri m.gridDimensions ++ (serTri m.gridOrigin ++
        (serVecX m.signedDistance ++ serTri m.gridEnd))))))))))))

/-- rigidbody3d/Geometry/RigidBodyTriangleMesh.cpp:109-124: members in declaration order -/
def deMesh : Dec Mesh := do
  let fileName ← deStr
  let verts ← deDenseDynCols F64 3
  let faces ← deDenseDynCols UInt32 3
  let volume ← dePod F64
  let inertia ← deTri F64
  let cm ← deTri F64
  let R ← deDenseFixed F64 3 3
  let samples ← deDenseDynCols F64 3
  let hull ← deDenseDynCols F64 3
  let cell ← deTri F64
  let dims ← deTri UInt32
  let origin ← deTri F64
  let sdf ← deVecX F64
  let gridEnd ← deTri F64
  pure ⟨fileName, verts, faces, volume, inertia, cm, R, samples, hull, cell, dims, origin, sdf, gridEnd⟩

/-- The four kinds of geometry, rigidbody3d/Geometry/RigidBodyGeometry.h:13-19. What a staple holds plays no role here. -/
inductive Geo where
  | box (halfWidths : Tri F64)
  | sphere (r : F64)
  | staple
  | mesh (m : Mesh)
deriving DecidableEq

/-- rigidbody3d/Geometry/RigidBodyBox.cpp:66-71 (`BOX` = 0, one byte), RigidBodySphere.cpp:56-61 (`SPHERE` = 1), RigidBodyStaple.cpp:119-123 (ends the
program), RigidBodyTriangleMesh.cpp:215-232 (`TRIANGLE_MESH` = 3) -/
def serGeo : Geo → Outcome Bytes
  | .box h => .ok (serPod (0 : UInt8) ++ serTri h)
  | .sphere r => .ok (serPod (1 : UInt8) ++ serPod r)
  | .staple => .exit
  | .mesh m => .ok (serPod (3 : UInt8) ++ serMesh m)

/-- The body of the loop rigidbody3d/RigidBody3DState.cpp:613-633; no case matches an unknown tag, which leaves a null geometry that every later use
dereferences. RigidBodyBox.cpp:20-24, RigidBodySphere.cpp:26-30 -/
def deGeo : Dec Geo := do
  let tag ← dePod UInt8
  if tag = 0 then do
    let h ← deTri F64
    pure (.box h)
  else if tag = 1 then do
    let r ← dePod F64
    pure (.sphere r)
  else if tag = 2 then Dec.exit
  else if tag = 3 then do
    let m ← deMesh
    pure (.mesh m)
  else Dec.ub

/-- The loop of scisim/Utilities.h:68-82 over the geometry; `exit` while writing one of them ends the program. -/
def serGeos : List Geo → Outcome Bytes
  | [] => .ok []
  | g :: gs => (serGeo g).bind fun a => (serGeos gs).bind fun b => .ok (a ++ b)

/-- rigidbody3d/Forces/NearEarthGravityForce.h -/
structure Force where
  g : Tri F64
deriving DecidableEq

/-- rigidbody3d/Forces/NearEarthGravityForce.cpp:65-70 -/
def serForce (f : Force) : Bytes := serStr (ascii "near_earth_gravity") ++ serTri f.g

/-- The body of the loop rigidbody3d/RigidBody3DState.cpp:642-655, NearEarthGravityForce.cpp:15-17 -/
def deForce : Dec Force := do
  let name ← deStr
  if name = ascii "near_earth_gravity" then do
    let g ← deTri F64
    pure ⟨g⟩
  else Dec.exit

/-- rigidbody3d/RigidBody3DState.h:115-132; `boundary` is the `int` of the enumeration `SimBoundaryBehavior`. -/
structure State where
  nbodies : UInt32
  q : List F64
  v : List F64
  M0 : Sparse
  Minv0 : Sparse
  M : Sparse
  Minv : Sparse
  fixed : List Bool
  geometry : List Geo
  geoIdx : List UInt32
  forces : List Force
  planes : List Plane
  cylinders : List Cylinder
  portals : List Portal
  boundary : Int32
  boundaryMin : Tri F64
  boundaryMax : Tri F64
deriving DecidableEq

/-- rigidbody3d/RigidBody3DState.cpp:585-606 -/
def serState (s : State) : Outcome Bytes :=
  (serGeos s.geometry).bind fun geos =>
  .ok (serPod s.nbodies ++ (serVecX s.q ++ (serVecX s.v ++ (serSparse s.M0 ++ (serSparse s.Minv0 ++ (serSparse s.M ++
    (serSparse s.Minv ++ (serVecBool s.fixed ++ ((serLen s.geometry.length ++ geos) ++ (serVecPod s.geoIdx ++
      (serVec serForce s.forces ++ (serVec serPlane s.planes ++ (serVec serCylinder s.cylinders ++
        (serVec serPortal s.portals ++ (serPod s.boundary ++ (serTri s.boundaryMin ++ serTri s.boundaryMax))))))))))))))))

/-- rigidbody3d/RigidBody3DState.cpp:659-679 with `deserializeGeometry` 608-635 and `deserializeForces` 637-657 -/
def deState : Dec State := do
  let n ← dePod UInt32
  let q ← deVecX F64
  let v ← deVecX F64
  let M0 ← deSparse
  let Minv0 ← deSparse
  let M ← deSparse
  let Minv ← deSparse
  let fixed ← deVecBool
  let geo ← deVec deGeo
  let gi ← deVecPod UInt32
  let forces ← deVec deForce
  let planes ← deVec dePlane
  let cylinders ← deVec deCylinder
  let portals ← deVec dePortal
  let boundary ← dePod Int32
  let bmin ← deTri F64
  let bmax ← deTri F64
  pure ⟨n, q, v, M0, Minv0, M, Minv, fixed, geo, gi, forces, planes, cylinders, portals, boundary, bmin, bmax⟩

/-- rigidbody3d/RigidBody3DSim.h: the state and the cached impulses; the impact map member has no state (`ImpactMap{ false }`). -/
structure Sim where
  state : State
  cache : RB3DCache
deriving DecidableEq

/-- rigidbody3d/RigidBody3DSim.cpp:1592-1598 -/
def serSim (s : Sim) : Outcome Bytes := (serState s.state).bind fun st => .ok (st ++ serRB3DCache s.cache)

/-- rigidbody3d/RigidBody3DSim.cpp:1600-1606 -/
def deSim : Dec Sim := do
  let st ← deState
  let c ← deRB3DCache
  pure ⟨st, c⟩

end RB3D

/-- The 3D rigid body program: `MAGIC_BINARY_NUMBER`, rigidbody3dcli/rigidbody3d_cli.cpp:72; no impact map is written, 222-254. -/
def rb3dFormat : Format RB3D.Sim := ⟨90210, RB3D.serSim, RB3D.deSim, deIntegratorRB3D, false⟩

end Scisim
